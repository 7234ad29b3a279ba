import Verif.Model.Halo
import Verif.Props.Interp
import Mathlib.Tactic.Abel

/-!
C38: a periodic halo is periodic.
-/

namespace Parcels.Halo
open Parcels.Search Parcels.Interp

variable {α : Type}

/-- The periodic continuation of a list of `n` nodes: node `j` of the extension, counted from `h` nodes before the
first, is node `source n h j`, moved by `turns n h j` periods. -/
def source (n h j : Nat) : Nat := (j + n - h) % n
def turns (n h j : Nat) : ℤ := ((j + n - h) / n : ℕ) - 1

theorem source_left {n h j : Nat} (hn : h ≤ n) (hj : j < h) : source n h j = n - h + j ∧ turns n h j = -1 := by
  have e : j + n - h = n - h + j := by omega
  unfold source turns
  rw [e, Nat.mod_eq_of_lt (by omega), Nat.div_eq_of_lt (by omega)]
  exact ⟨rfl, by norm_num⟩

theorem source_mid {n h j : Nat} (hj : h ≤ j) (hj' : j < h + n) : source n h j = j - h ∧ turns n h j = 0 := by
  have e : j + n - h = (j - h) + n := by omega
  have hn : 0 < n := by omega
  unfold source turns
  rw [e, Nat.add_mod_right, Nat.mod_eq_of_lt (by omega), Nat.add_div_right _ hn, Nat.div_eq_of_lt (by omega)]
  exact ⟨rfl, by norm_num⟩

theorem source_right {n h j : Nat} (hn : h ≤ n) (hj : h + n ≤ j) (hj' : j < h + n + h) :
    source n h j = j - h - n ∧ turns n h j = 1 := by
  have e : j + n - h = (j - h - n) + n + n := by omega
  have hn : 0 < n := by omega
  unfold source turns
  rw [e, Nat.add_mod_right, Nat.add_mod_right, Nat.mod_eq_of_lt (by omega), Nat.add_div_right _ hn,
    Nat.add_div_right _ hn, Nat.div_eq_of_lt (by omega)]
  exact ⟨rfl, by norm_num⟩

theorem pyLast_length {h : Nat} {l : List α} (h1 : 1 ≤ h) (hl : h ≤ l.length) : (pyLast h l).length = h := by
  unfold pyLast; rw [if_neg (by omega), List.length_drop]; omega

theorem extend_length {h : Nat} {l : List α} (h1 : 1 ≤ h) (hl : h ≤ l.length) :
    (extend h l).length = l.length + 2 * h := by
  unfold extend
  rw [List.length_append, List.length_append, pyLast_length h1 hl, List.length_take]; omega

/-- C38 (data): for every array and halo size up to its length, slice `j` of the extended array is the slice of the
original that lies a whole number of periods away; the interior is the original. -/
theorem C38_data (l : List α) (h : Nat) (h1 : 1 ≤ h) (hl : h ≤ l.length) :
    (extend h l).length = l.length + 2 * h ∧
    (∀ j, j < l.length + 2 * h → (extend h l)[j]? = l[source l.length h j]?) ∧
    (∀ i, i < l.length → (extend h l)[h + i]? = l[i]?) := by
  have main : ∀ j, j < l.length + 2 * h → (extend h l)[j]? = l[source l.length h j]? := by
    intro j hj
    unfold extend
    by_cases c1 : j < h
    · rw [(source_left hl c1).1, List.append_assoc, List.getElem?_append_left (by rw [pyLast_length h1 hl]; exact c1)]
      unfold pyLast
      rw [if_neg (by omega), List.getElem?_drop]
    · by_cases c2 : j < h + l.length
      · rw [(source_mid (by omega) c2).1, List.append_assoc,
          List.getElem?_append_right (by rw [pyLast_length h1 hl]; omega), pyLast_length h1 hl,
          List.getElem?_append_left (by omega)]
      · rw [(source_right hl (by omega) (by omega)).1,
          List.getElem?_append_right (by rw [List.length_append, pyLast_length h1 hl]; omega),
          List.length_append, pyLast_length h1 hl, List.getElem?_take, if_pos (by omega)]
        congr 1; omega
  refine ⟨extend_length h1 hl, main, ?_⟩
  intro i hi
  rw [main (h + i) (by omega), (source_mid (by omega) (by omega)).1]
  congr 1; omega

/-- C38 (coordinates): the same nodes, moved by exactly that number of periods, where the period is the extent of the
axis plus one cell, `last - first + (second - first)`. For rectilinear axes (numbers) and curvilinear grids (rows and
columns of numbers). -/
theorem C38_coordinates [AddCommGroup α] (l : List α) (h : Nat) (h1 : 1 ≤ h) (hl : h ≤ l.length) (first second last : α)
    (hf : l[0]? = some first) (hs : l[1]? = some second) (hlast : l.getLast? = some last) :
    (extendAxis h l).length = l.length + 2 * h ∧
    (∀ j, j < l.length + 2 * h → ∃ a, l[source l.length h j]? = some a ∧
      (extendAxis h l)[j]? = some (a + turns l.length h j • ((last - first) + (second - first)))) ∧
    (∀ i, i < l.length → (extendAxis h l)[h + i]? = l[i]?) := by
  have hsh : shift l = (last - first) + (second - first) := by
    unfold shift
    have e1 : l.getLastD 0 = last := by rw [List.getLastD_eq_getLast?, hlast]; rfl
    have e2 : l.headD 0 = first := by rw [List.headD_eq_head?_getD, List.head?_eq_getElem?, hf]; rfl
    have e3 : l.getD 1 0 = second := by rw [List.getD_eq_getElem?_getD, hs]; rfl
    rw [e1, e2, e3]; abel
  have hlen : (extendAxis h l).length = l.length + 2 * h := by
    unfold extendAxis
    rw [List.length_append, List.length_append, List.length_map, List.length_map, pyLast_length h1 hl, List.length_take]
    omega
  have main : ∀ j, j < l.length + 2 * h → ∃ a, l[source l.length h j]? = some a ∧
      (extendAxis h l)[j]? = some (a + turns l.length h j • ((last - first) + (second - first))) := by
    intro j hj
    rw [← hsh]
    unfold extendAxis
    by_cases c1 : j < h
    · obtain ⟨e1, e2⟩ := source_left hl c1
      rw [e1, e2]
      refine ⟨l[l.length - h + j]'(by omega), List.getElem?_eq_getElem _, ?_⟩
      rw [List.append_assoc,
        List.getElem?_append_left (by rw [List.length_map, pyLast_length h1 hl]; exact c1), List.getElem?_map]
      unfold pyLast
      rw [if_neg (by omega), List.getElem?_drop, List.getElem?_eq_getElem (by omega), Option.map_some]
      simp [sub_eq_add_neg]
    · by_cases c2 : j < h + l.length
      · obtain ⟨e1, e2⟩ := source_mid (n := l.length) (by omega : h ≤ j) c2
        rw [e1, e2]
        refine ⟨l[j - h]'(by omega), List.getElem?_eq_getElem _, ?_⟩
        rw [List.append_assoc,
          List.getElem?_append_right (by rw [List.length_map, pyLast_length h1 hl]; omega), List.length_map,
          pyLast_length h1 hl, List.getElem?_append_left (by omega), List.getElem?_eq_getElem (by omega)]
        simp
      · obtain ⟨e1, e2⟩ := source_right hl (by omega : h + l.length ≤ j) (by omega)
        rw [e1, e2]
        refine ⟨l[j - h - l.length]'(by omega), List.getElem?_eq_getElem _, ?_⟩
        have e3 : j - (h + l.length) = j - h - l.length := by omega
        rw [List.getElem?_append_right (by rw [List.length_append, List.length_map, pyLast_length h1 hl]; omega),
          List.length_append, List.length_map, pyLast_length h1 hl, List.getElem?_map, e3, List.getElem?_take,
          if_pos (by omega), List.getElem?_eq_getElem (by omega), Option.map_some]
        simp
  refine ⟨hlen, main, ?_⟩
  intro i hi
  obtain ⟨a, ha, hb⟩ := main (h + i) (by omega)
  obtain ⟨e1, e2⟩ := source_mid (n := l.length) (by omega : h ≤ h + i) (by omega)
  rw [e2] at hb
  rw [e1, Nat.add_sub_cancel_left] at ha
  rw [hb, ha]; simp

theorem getD_of {l : List ℚ} {i : Nat} {a : ℚ} (h : l[i]? = some a) : l.getD i 0 = a := by
  rw [List.getD_eq_getElem?_getD, h]; rfl

theorem axis_parts {l : List ℚ} (h2 : 2 ≤ l.length) :
    ∃ first second last, l[0]? = some first ∧ l[1]? = some second ∧ l.getLast? = some last ∧
      shift l = (last - first) + (second - first) ∧ l[l.length - 1]? = some last := by
  refine ⟨l[0], l[1], l[l.length - 1], List.getElem?_eq_getElem _, List.getElem?_eq_getElem _, ?_, ?_,
    List.getElem?_eq_getElem _⟩
  · rw [List.getLast?_eq_getElem?, List.getElem?_eq_getElem]
  · unfold shift
    rw [getLastD_getD, headD_getD, List.getD_eq_getElem _ _ (by omega), List.getD_eq_getElem _ _ (by omega),
      List.getD_eq_getElem _ _ (by omega)]
    ring

theorem inc_bounds {l : List ℚ} (hi : Increasing l) (h2 : 2 ≤ l.length) {a : ℚ} (ha : a ∈ l) :
    l.headD 0 ≤ a ∧ a ≤ l.getLastD 0 := by
  obtain ⟨i, hi', rfl⟩ := List.getElem_of_mem ha
  have e : l[i] = l.getD i 0 := (List.getD_eq_getElem _ _ hi').symm
  rw [e, headD_getD, getLastD_getD]
  exact ⟨inc_le hi (by omega) (by omega), inc_le hi (by omega) (by omega)⟩

/-- C38: the extended axis is still increasing. -/
theorem C38_increasing (l : List ℚ) (h : Nat) (h2 : 2 ≤ l.length) (hi : Increasing l) :
    Increasing (extendAxis h l) := by
  have key : l.getLastD 0 - shift l < l.headD 0 ∧ l.getLastD 0 < l.headD 0 + shift l := by
    unfold shift
    have h01 : l.headD 0 < l.getD 1 0 := by rw [headD_getD]; exact inc_lt hi (by omega) (by omega)
    constructor <;> linarith
  have sub : (pyLast h l).Sublist l := by
    unfold pyLast; split
    · exact List.Sublist.refl _
    · exact List.drop_sublist _ _
  unfold Increasing at *
  unfold extendAxis
  rw [List.pairwise_append, List.pairwise_append]
  refine ⟨⟨?_, hi, ?_⟩, ?_, ?_⟩
  · exact (List.Pairwise.sublist sub hi).map _ (fun a b hab => by linarith)
  · intro a ha b hb
    obtain ⟨a', ha', rfl⟩ := List.mem_map.1 ha
    have := (inc_bounds hi h2 (sub.subset ha')).2
    have := (inc_bounds hi h2 hb).1
    linarith [key.1]
  · exact (List.Pairwise.sublist (List.take_sublist _ _) hi).map _ (fun a b hab => by linarith)
  · intro a ha b hb
    obtain ⟨b', hb', rfl⟩ := List.mem_map.1 hb
    have hb'' := (inc_bounds hi h2 (List.mem_of_mem_take hb')).1
    rcases List.mem_append.1 ha with ha | ha
    · obtain ⟨a', ha', rfl⟩ := List.mem_map.1 ha
      have := (inc_bounds hi h2 (sub.subset ha')).2
      have hfl : l.headD 0 < l.getLastD 0 := first_lt_last hi h2
      linarith [key.1, key.2]
    · have := (inc_bounds hi h2 ha).2
      linarith [key.2]

example : extendAxis 2 [0, 10, 20, 30] = ([-20, -10, 0, 10, 20, 30, 40, 50] : List ℚ) ∧
    extend 2 ["a", "b", "c", "d"] = ["c", "d", "a", "b", "c", "d", "a", "b"] ∧
    source 4 2 7 = 1 ∧ turns 4 2 7 = 1 := by decide +kernel

/-- Node `j + n` is node `j` one period later. -/
theorem extendAxis_next (l : List ℚ) (h : Nat) (h1 : 1 ≤ h) (hl : h ≤ l.length) (h2 : 2 ≤ l.length) (j : Nat)
    (hj : j + l.length < l.length + 2 * h) :
    ∃ a, (extendAxis h l)[j]? = some a ∧ (extendAxis h l)[j + l.length]? = some (a + shift l) := by
  obtain ⟨f, s, t, e1, e2, e3, e4, _⟩ := axis_parts h2
  obtain ⟨_, main, _⟩ := C38_coordinates l h h1 hl f s t e1 e2 e3
  obtain ⟨a, ha, hb⟩ := main j (by omega)
  obtain ⟨b, hc, hd⟩ := main (j + l.length) (by omega)
  have es : source l.length h (j + l.length) = source l.length h j := by
    unfold source
    rw [show j + l.length + l.length - h = (j + l.length - h) + l.length from by omega, Nat.add_mod_right]
  have et : turns l.length h (j + l.length) = turns l.length h j + 1 := by
    unfold turns
    rw [show j + l.length + l.length - h = (j + l.length - h) + l.length from by omega,
      Nat.add_div_right _ (by omega)]
    push_cast; ring
  rw [es, ha] at hc
  obtain rfl := Option.some.inj hc
  refine ⟨_, hb, ?_⟩
  rw [hd, et, e4, add_smul, one_smul, add_assoc]

/-- Linear interpolation of values that repeat after `n` nodes gives the same at `x` and one period later. -/
theorem lin_periodic (l : List ℚ) (hi : Increasing l) (h : Nat) (h1 : 1 ≤ h) (hl : h ≤ l.length) (h2 : 2 ≤ l.length)
    (f : Nat → ℚ) (hf : ∀ j, j + l.length < l.length + 2 * h → f (j + l.length) = f j) (x : ℚ) (n n' : Nat) (r r' : ℚ)
    (hx : Locates (extendAxis h l) x n r) (hx' : Locates (extendAxis h l) (x + shift l) n' r') :
    (1 - r) * f n + r * f (n + 1) = (1 - r') * f n' + r' * f (n' + 1) := by
  have hinc := C38_increasing l h h2 hi
  obtain ⟨fi, s, t, e1, e2, e3, e4, _⟩ := axis_parts h2
  have hlen := (C38_coordinates l h h1 hl fi s t e1 e2 e3).1
  obtain ⟨n0, a, b, hn, ha, hb, hr0, hr1, hxe⟩ := hx
  obtain rfl : n = n0 := by exact_mod_cast hn
  by_cases c : n + 1 + l.length < l.length + 2 * h
  · obtain ⟨a', ha', hA⟩ := extendAxis_next l h h1 hl h2 n (by omega)
    obtain ⟨b', hb', hB⟩ := extendAxis_next l h h1 hl h2 (n + 1) c
    rw [ha] at ha'; rw [hb] at hb'
    obtain rfl := Option.some.inj ha'
    obtain rfl := Option.some.inj hb'
    have hloc : Locates (extendAxis h l) (x + shift l) ((n + l.length : ℕ) : ℤ) r :=
      ⟨n + l.length, _, _, rfl, hA, by rw [show n + l.length + 1 = n + 1 + l.length from by omega]; exact hB, hr0, hr1,
        by rw [hxe]; ring⟩
    have := lin_unique hinc hloc hx' f
    rw [hf n (by omega), show n + l.length + 1 = n + 1 + l.length from by omega, hf (n + 1) c] at this
    exact this
  · -- `x` is the last node whose successor by one period exists
    obtain ⟨q, hq⟩ : ∃ q, q + l.length + 1 = l.length + 2 * h := ⟨2 * h - 1, by omega⟩
    obtain ⟨p, hp, hpe⟩ := extendAxis_next l h h1 hl h2 q (by omega)
    have hxle : x + shift l ≤ p + shift l := by
      obtain ⟨m, c, d, hm, hc, hd, h0, h3, h4⟩ := hx'
      have hmlt : m + 1 < (extendAxis h l).length := by
        by_contra hcon; rw [List.getElem?_eq_none (by omega)] at hd; exact absurd hd (by simp)
      have hdle : d ≤ p + shift l := by
        rw [← getD_of hd, ← getD_of hpe]
        exact inc_le hinc (by omega) (by omega)
      have hcd : c ≤ d := by
        rw [← getD_of hc, ← getD_of hd]
        exact inc_le hinc (by omega) (by omega)
      nlinarith
    have hnlt : n + 1 < (extendAxis h l).length := by
      by_contra hcon; rw [List.getElem?_eq_none (by omega)] at hb; exact absurd hb (by simp)
    have hab : a < b := by
      rw [← getD_of ha, ← getD_of hb]; exact inc_lt hinc (by omega) (by omega)
    have hpa : p ≤ a := by
      rw [← getD_of hp, ← getD_of ha]; exact inc_le hinc (by omega) (by omega)
    have hr : r = 0 := by
      have : r * (b - a) ≤ 0 := by nlinarith
      nlinarith
    have hxa : x = a := by rw [hxe, hr]; ring
    have hpa' : p = a := by linarith
    have hnq : n = q := by
      by_contra hne
      have : p < a := by
        rw [← getD_of hp, ← getD_of ha]; exact inc_lt hinc (by omega) (by omega)
      linarith
    obtain ⟨m, hm⟩ : ∃ m, m + 1 = q + l.length := ⟨q + l.length - 1, by omega⟩
    have hmlt : m < (extendAxis h l).length := by omega
    have hloc : Locates (extendAxis h l) (x + shift l) (m : ℤ) 1 :=
      ⟨m, (extendAxis h l)[m], p + shift l, rfl, List.getElem?_eq_getElem _, by rw [hm]; exact hpe, by norm_num,
        by norm_num, by rw [hxa, hpa']; ring⟩
    have := lin_unique hinc hloc hx' f
    rw [← this, hr, hm, hf q (by omega), hnq]; ring

/-- C38 (sampling): linear interpolation on the extended grid is periodic: at `x` and one period further east it gives
the same, wherever both lie in the extended grid. -/
theorem C38_sampling_periodic (lon : List ℚ) (hlon : Increasing lon) (h2 : 2 ≤ lon.length) (h : Nat) (h1 : 1 ≤ h)
    (hl : h ≤ lon.length) (d : Arr) (hd : d.nx = lon.length) (k m : Nat) (s x : ℚ) (n n' : Nat) (r r' : ℚ)
    (hx : Locates (extendAxis h lon) x n r) (hx' : Locates (extendAxis h lon) (x + shift lon) n' r') :
    bilinearAt (extendX h d) k m n s r = bilinearAt (extendX h d) k m n' s r' := by
  have hv : ∀ j i, i + lon.length < lon.length + 2 * h →
      (extendX h d).v k j (i + lon.length) = (extendX h d).v k j i := by
    intro j i hi
    unfold extendX
    simp only [hd]
    set row := (List.range lon.length).map fun i => d.v k j i with hrow
    have hrl : row.length = lon.length := by rw [hrow]; simp
    obtain ⟨_, main, _⟩ := C38_data row h h1 (by omega)
    rw [List.getD_eq_getElem?_getD, List.getD_eq_getElem?_getD, main _ (by omega), main _ (by omega)]
    have es : source row.length h (i + lon.length) = source row.length h i := by
      unfold source
      rw [hrl, show i + lon.length + lon.length - h = (i + lon.length - h) + lon.length from by omega, Nat.add_mod_right]
    rw [es]
  have e1 := lin_periodic lon hlon h h1 hl h2 (fun i => (extendX h d).v k m i) (hv m) x n n' r r' hx hx'
  have e2 := lin_periodic lon hlon h h1 hl h2 (fun i => (extendX h d).v k (m + 1) i) (hv (m + 1)) x n n' r r' hx hx'
  unfold bilinearAt lerp
  linear_combination (1 - s) * e1 + s * e2

/-- Non-vacuity: 35 lies past the last original node; one period (40) back it is in the western halo. -/
example : Locates (extendAxis 2 [0, 10, 20, 30]) (-5) (1 : Nat) (1 / 2) ∧
    Locates (extendAxis 2 [0, 10, 20, 30]) (-5 + shift [0, 10, 20, 30]) (5 : Nat) (1 / 2) := by
  refine ⟨⟨1, -10, 0, rfl, by decide +kernel, by decide +kernel, by norm_num, by norm_num, by norm_num⟩,
    ⟨5, 30, 40, rfl, by decide +kernel, by decide +kernel, by norm_num, by norm_num, by decide +kernel⟩⟩

/-- C38 fails for a halo of size 0 (the documentation sets no lower limit): since `a[-0:]` is all of `a`, the whole
domain is added on one side. -/
theorem C38_size_zero (l : List α) : extend 0 l = l ++ l := by
  simp [extend, pyLast]

end Parcels.Halo
