import Verif.Spec.FromField
import Verif.Proofs.Interp
import Mathlib.Tactic.Linarith
import Mathlib.Tactic.Ring
import Mathlib.Tactic.FieldSimp
import Mathlib.Tactic.Positivity
import Mathlib.Algebra.BigOperators.Intervals
import Mathlib.Algebra.BigOperators.Field
import Mathlib.Data.List.GetD

/-!
Lemmas for C75.
-/

namespace Parcels.FromField
open Parcels.Interp Parcels.Search

theorem cumsum_length (acc : ℚ) (q : List ℚ) : (cumsum acc q).length = q.length := by
  induction q generalizing acc with
  | nil => rfl
  | cons x xs ih => simp [cumsum, ih]

/-- Which index is chosen. -/
theorem searchRight_iff (q : List ℚ) (hq : ∀ x ∈ q, 0 ≤ x) (acc u : ℚ) (hu : acc ≤ u) (k : Nat) (hk : k < q.length) :
    searchRight (cumsum acc q) u = k ↔ acc + (q.take k).sum ≤ u ∧ u < acc + (q.take (k + 1)).sum := by
  induction q generalizing acc k with
  | nil => simp at hk
  | cons x xs ih =>
    have hx := hq x (by simp)
    have hxs : ∀ y ∈ xs, 0 ≤ y := fun y hy => hq y (by simp [hy])
    unfold searchRight at *
    simp only [cumsum, List.takeWhile_cons]
    by_cases h : acc + x ≤ u
    · rw [decide_eq_true h]
      simp only [if_true, List.length_cons]
      cases k with
      | zero =>
        simp only [List.take_zero, List.take_succ_cons, List.sum_cons, List.sum_nil]
        constructor
        · intro hh; omega
        · rintro ⟨_, h2⟩; exfalso; linarith
      | succ k =>
        have := ih hxs (acc + x) h k (by simpa using hk)
        simp only [List.take_succ_cons, List.sum_cons, ← add_assoc]
        rw [← this]; omega
    · rw [decide_eq_false h]
      simp only [Bool.false_eq_true, if_false, List.length_nil]
      push Not at h
      cases k with
      | zero =>
        simp only [List.take_zero, List.take_succ_cons, List.sum_cons, List.sum_nil]
        constructor
        · intro _; constructor <;> linarith
        · intro _; trivial
      | succ k =>
        simp only [List.take_succ_cons, List.sum_cons]
        constructor
        · intro hh; omega
        · rintro ⟨h1, _⟩
          have : 0 ≤ (xs.take k).sum := List.sum_nonneg fun y hy => hxs y (List.mem_of_mem_take hy)
          exfalso; linarith

theorem searchRight_lt (q : List ℚ) (acc u : ℚ) (hu : acc ≤ u) (h : u < acc + q.sum) :
    searchRight (cumsum acc q) u < q.length := by
  induction q generalizing acc with
  | nil => simp at h; linarith
  | cons x xs ih =>
    unfold searchRight at *
    simp only [cumsum, List.takeWhile_cons]
    by_cases h' : acc + x ≤ u
    · rw [decide_eq_true h']
      simp only [if_true, List.length_cons]
      have := ih (acc + x) h' (by simpa [add_assoc] using h)
      omega
    · rw [decide_eq_false h']; simp

theorem list_sum_range (n : Nat) (g : Nat → ℚ) : ((List.range n).map g).sum = ∑ k ∈ Finset.range n, g k := by
  induction n with
  | zero => simp
  | succ n ih => rw [List.range_succ, List.map_append, List.sum_append, ih, Finset.sum_range_succ]; simp

theorem divMod_cell {m i : Nat} (hi : i < m) (a : Nat) : (a * m + i) / m = a ∧ (a * m + i) % m = i := by
  have hm : 0 < m := by omega
  constructor
  · rw [Nat.mul_comm, Nat.mul_add_div hm, Nat.div_eq_of_lt hi, Nat.add_zero]
  · rw [Nat.mul_comm, Nat.mul_add_mod, Nat.mod_eq_of_lt hi]

theorem sum_divMod (a m : Nat) (f : Nat → Nat → ℚ) :
    ((List.range (a * m)).map fun n => f (n / m) (n % m)).sum =
      ∑ j ∈ Finset.range a, ∑ i ∈ Finset.range m, f j i := by
  rw [list_sum_range]
  induction a with
  | zero => simp
  | succ a ih =>
    have e1 : (a + 1) * m = a * m + m := by ring
    rw [e1, Finset.sum_range_add, Finset.sum_range_succ, ih]
    congr 1
    refine Finset.sum_congr rfl fun i hi => ?_
    obtain ⟨e2, e3⟩ := divMod_cell (Finset.mem_range.mp hi) a
    rw [e2, e3]

theorem interior_shape (ny nx : Nat) (v : Nat → Nat → ℚ) (m : Method) (g : HGrid) (h : Enough m ny nx) :
    (interior (start2D ny nx v m g)).shape = [ny - 1, nx - 1] := by
  unfold interior
  by_cases hm : m = .cgridTracer
  · obtain ⟨h1, h2⟩ := h.2.2 hm
    rw [if_pos (show (start2D ny nx v m g).method = .cgridTracer from hm)]
    have e1 : ny - 1 ≠ 1 := by omega
    have e2 : nx - 1 ≠ 1 := by omega
    simp [Nd.squeeze, Nd.cut, start2D, List.filter, e1, e2]
  · rw [if_neg (show ¬ (start2D ny nx v m g).method = .cgridTracer from hm)]; rfl

theorem interior_entry (ny nx : Nat) (v : Nat → Nat → ℚ) (m : Method) (g : HGrid) (h : Enough m ny nx) (j i : Nat) :
    (interior (start2D ny nx v m g)).entry [j, i] = weight m v j i := by
  unfold interior weight
  by_cases hm : m = .cgridTracer
  · obtain ⟨h1, h2⟩ := h.2.2 hm
    rw [if_pos hm, if_pos (show (start2D ny nx v m g).method = .cgridTracer from hm)]
    have e1 : ny - 1 ≠ 1 := by omega
    have e2 : nx - 1 ≠ 1 := by omega
    simp [Nd.squeeze, Nd.cut, start2D, unsqueeze, e1, e2]
  · rw [if_neg hm, if_neg (show ¬ (start2D ny nx v m g).method = .cgridTracer from hm)]
    simp only [Nd.cut, start2D, List.getD_cons_zero, List.getD_cons_succ, Nat.add_zero]
    by_cases h1 : v j i = 0
    · simp [h1]
    by_cases h2 : v (j + 1) i = 0
    · simp [h2]
    by_cases h3 : v (j + 1) (i + 1) = 0
    · simp [h3]
    by_cases h4 : v j (i + 1) = 0
    · simp [h4]
    simp only [h1, h2, h3, h4, if_false, or_self]
    ring

theorem unravel_two (a m n : Nat) : unravel [a, m] n = [n / m, n % m] := by
  simp [unravel, size]

theorem flat_eq (ny nx : Nat) (v : Nat → Nat → ℚ) (m : Method) (g : HGrid) (h : Enough m ny nx) :
    (interior (start2D ny nx v m g)).flat =
      (List.range ((ny - 1) * (nx - 1))).map fun n => weight m v (n / (nx - 1)) (n % (nx - 1)) := by
  unfold Nd.flat
  rw [interior_shape _ _ _ _ _ h]
  simp only [unravel_two, interior_entry _ _ _ _ _ h]
  simp [size]

theorem flat_sum (ny nx : Nat) (v : Nat → Nat → ℚ) (m : Method) (g : HGrid) (h : Enough m ny nx) :
    (interior (start2D ny nx v m g)).flat.sum = total m ny nx v := by
  rw [flat_eq _ _ _ _ _ h, sum_divMod]; rfl

theorem succ_lt {a b : Nat} (h : a < b - 1) : a + 1 < b := by omega

/-- The probabilities of the cells. -/
def probs (m : Method) (ny nx : Nat) (v : Nat → Nat → ℚ) : List ℚ :=
  (List.range ((ny - 1) * (nx - 1))).map fun n => weight m v (n / (nx - 1)) (n % (nx - 1)) / total m ny nx v

theorem probs_nonneg {m : Method} {ny nx : Nat} {v : Nat → Nat → ℚ} (h : Enough m ny nx) (hd : Density m ny nx v) :
    ∀ x ∈ probs m ny nx v, 0 ≤ x := by
  intro x hx
  unfold probs at hx
  obtain ⟨n, hn, rfl⟩ := List.mem_map.mp hx
  have hn := List.mem_range.mp hn
  have h2 := h.2.1
  have a1 : n / (nx - 1) < ny - 1 := Nat.div_lt_of_lt_mul (by rwa [Nat.mul_comm])
  have a2 : n % (nx - 1) < nx - 1 := Nat.mod_lt _ (by omega)
  exact div_nonneg (hd.nonneg _ _ (succ_lt a1) (succ_lt a2)) hd.pos.le

theorem probs_sum {m : Method} {ny nx : Nat} {v : Nat → Nat → ℚ} (hd : Density m ny nx v) : (probs m ny nx v).sum = 1 := by
  unfold probs
  rw [sum_divMod (ny - 1) (nx - 1) (fun j i => weight m v j i / total m ny nx v)]
  simp only [← Finset.sum_div]
  exact div_self hd.pos.ne'

theorem choice_ok {m : Method} {ny nx : Nat} {v : Nat → Nat → ℚ} (g : HGrid) (h : Enough m ny nx) (hd : Density m ny nx v)
    (us : List ℚ) :
    choice (interior (start2D ny nx v m g)).flat us = .ok (us.map (searchRight (cumsum 0 (probs m ny nx v)))) := by
  have hs := flat_sum ny nx v m g h
  have hne : (interior (start2D ny nx v m g)).flat ≠ [] := by
    intro e; rw [e] at hs; have := hd.pos; simp at hs; linarith
  have hp : (interior (start2D ny nx v m g)).flat.map (· / total m ny nx v) = probs m ny nx v := by
    rw [flat_eq _ _ _ _ _ h]; unfold probs; rw [List.map_map]; rfl
  unfold choice
  rw [if_neg hne, hs, if_neg hd.pos.ne', hp, if_neg]
  rw [List.any_eq_true]
  rintro ⟨x, hx, hx'⟩
  have := probs_nonneg h hd x hx
  have := of_decide_eq_true hx'
  linarith

theorem collect_ok (l : List (ℚ × ℚ)) : collect (l.map .ok) = .ok l := by
  induction l with
  | nil => rfl
  | cons x xs ih => simp [collect, ih]

/-- The cell chosen by the first random number. -/
def chosen (m : Method) (ny nx : Nat) (v : Nat → Nat → ℚ) (u : ℚ) : Nat × Nat :=
  (searchRight (cumsum 0 (probs m ny nx v)) u / (nx - 1), searchRight (cumsum 0 (probs m ny nx v)) u % (nx - 1))

theorem probs_length (m : Method) (ny nx : Nat) (v : Nat → Nat → ℚ) :
    (probs m ny nx v).length = (ny - 1) * (nx - 1) := by simp [probs]

theorem chosen_valid {m : Method} {ny nx : Nat} {v : Nat → Nat → ℚ} (h : Enough m ny nx) (hd : Density m ny nx v) {u : ℚ}
    (hu : Unit01 u) : (chosen m ny nx v u).1 + 1 < ny ∧ (chosen m ny nx v u).2 + 1 < nx := by
  have hk := searchRight_lt (probs m ny nx v) 0 u hu.1 (by rw [probs_sum hd]; linarith [hu.2])
  rw [probs_length] at hk
  have h2 := h.2.1
  have a1 : searchRight (cumsum 0 (probs m ny nx v)) u / (nx - 1) < ny - 1 := Nat.div_lt_of_lt_mul (by rwa [Nat.mul_comm])
  have a2 : searchRight (cumsum 0 (probs m ny nx v)) u % (nx - 1) < nx - 1 := Nat.mod_lt _ (by omega)
  exact ⟨succ_lt a1, succ_lt a2⟩

/-- Each cell is chosen by the numbers in an interval whose length is its share of the weights. -/
theorem chosen_iff {m : Method} {ny nx : Nat} {v : Nat → Nat → ℚ} (h : Enough m ny nx) (hd : Density m ny nx v) {j i : Nat}
    (hj : j + 1 < ny) (hi : i + 1 < nx) :
    ∃ a a', 0 ≤ a ∧ a ≤ a' ∧ a' ≤ 1 ∧ a' - a = weight m v j i / total m ny nx v ∧
      ∀ u, Unit01 u → (chosen m ny nx v u = (j, i) ↔ a ≤ u ∧ u < a') := by
  have hm : i < nx - 1 := by omega
  obtain ⟨e1, e2⟩ := divMod_cell hm j
  have hk : j * (nx - 1) + i < (probs m ny nx v).length := by
    rw [probs_length]
    have : j + 1 ≤ ny - 1 := by omega
    have := Nat.mul_le_mul_right (nx - 1) this
    rw [Nat.add_mul] at this
    omega
  have hnn := probs_nonneg h hd
  have hget : (probs m ny nx v)[j * (nx - 1) + i] = weight m v j i / total m ny nx v := by
    simp only [probs, List.getElem_map, List.getElem_range, e1, e2]
  have hstep : ((probs m ny nx v).take (j * (nx - 1) + i + 1)).sum =
      ((probs m ny nx v).take (j * (nx - 1) + i)).sum + weight m v j i / total m ny nx v := by
    rw [List.take_add_one, List.sum_append, List.getElem?_eq_getElem hk, hget]; simp
  have hw : 0 ≤ weight m v j i / total m ny nx v := div_nonneg (hd.nonneg j i hj hi) hd.pos.le
  refine ⟨((probs m ny nx v).take (j * (nx - 1) + i)).sum, ((probs m ny nx v).take (j * (nx - 1) + i + 1)).sum,
    List.sum_nonneg fun y hy => hnn y (List.mem_of_mem_take hy), by linarith, ?_, by linarith, ?_⟩
  · have hd' := probs_sum hd
    rw [← List.take_append_drop (j * (nx - 1) + i + 1) (probs m ny nx v), List.sum_append] at hd'
    have : 0 ≤ ((probs m ny nx v).drop (j * (nx - 1) + i + 1)).sum :=
      List.sum_nonneg fun y hy => hnn y (List.mem_of_mem_drop hy)
    linarith
  · intro u hu
    have := searchRight_iff (probs m ny nx v) hnn 0 u hu.1 (j * (nx - 1) + i) hk
    rw [zero_add, zero_add] at this
    rw [← this]
    unfold chosen
    constructor
    · intro he
      have a1 := congrArg Prod.fst he
      have a2 := congrArg Prod.snd he
      dsimp only at a1 a2
      have := Nat.div_add_mod (searchRight (cumsum 0 (probs m ny nx v)) u) (nx - 1)
      rw [a1, a2, Nat.mul_comm] at this
      exact this.symm
    · intro he
      rw [he, e1, e2]

theorem chosen_pos {m : Method} {ny nx : Nat} {v : Nat → Nat → ℚ} (h : Enough m ny nx) (hd : Density m ny nx v) {u : ℚ}
    (hu : Unit01 u) : 0 < weight m v (chosen m ny nx v u).1 (chosen m ny nx v u).2 := by
  obtain ⟨hj, hi⟩ := chosen_valid h hd hu
  obtain ⟨a, a', _, _, _, hw, hiff⟩ := chosen_iff h hd hj hi
  obtain ⟨h1, h2⟩ := (hiff u hu).mp rfl
  have : 0 < weight m v (chosen m ny nx v u).1 (chosen m ny nx v u).2 / total m ny nx v := by rw [← hw]; linarith
  by_contra hn
  push Not at hn
  have := div_nonpos_of_nonpos_of_nonneg hn hd.pos.le
  linarith

/-- Every particle comes from its own three random numbers. -/
theorem monteCarlo_eq {m : Method} {ny nx : Nat} {v : Nat → Nat → ℚ} (g : HGrid) (h : Enough m ny nx) (hd : Density m ny nx v)
    (pos : ℚ → ℚ → ℚ → ℚ × ℚ)
    (hpos : ∀ u xsi eta, Unit01 u → place g (chosen m ny nx v u).1 (chosen m ny nx v u).2 xsi eta = some (pos u xsi eta))
    (n : Nat) (rnd : Nat → ℚ) (hr : ∀ k, Unit01 (rnd k)) :
    monteCarlo (start2D ny nx v m g) n rnd "monte_carlo" =
      .ok ((List.range n).map fun q => pos (rnd q) (rnd (n + q)) (rnd (2 * n + q))) := by
  unfold monteCarlo
  rw [if_pos rfl, choice_ok g h hd]
  simp only
  have : ((List.map (searchRight (cumsum 0 (probs m ny nx v))) ((List.range n).map rnd)).zipIdx.map fun q =>
      position (start2D ny nx v m g) q.1 (rnd (n + q.2)) (rnd (2 * n + q.2))) =
      ((List.range n).map fun q => pos (rnd q) (rnd (n + q)) (rnd (2 * n + q))).map .ok := by
    apply List.ext_getElem
    · simp
    · intro k h1 h2
      simp only [List.getElem_map, List.getElem_zipIdx, List.getElem_range, Nat.zero_add]
      unfold position
      rw [interior_shape _ _ _ _ _ h, unravel_two]
      have := hpos (rnd k) (rnd (n + k)) (rnd (2 * n + k)) (hr k)
      unfold chosen at this
      simp only [start2D]
      rw [this]
  rw [this, collect_ok]

/-- The cells of an increasing axis, without their right ends, do not overlap. -/
theorem cell_unique {l : List ℚ} (hl : Increasing l) {i i' : Nat} {a b a' b' x : ℚ} (ha : l[i]? = some a) (hb : l[i + 1]? = some b)
    (ha' : l[i']? = some a') (hb' : l[i' + 1]? = some b') (h1 : a ≤ x) (h2 : x < b) (h3 : a' ≤ x) (h4 : x < b') : i = i' := by
  have mono : ∀ {p q : Nat} {c d : ℚ}, l[p]? = some c → l[q]? = some d → p ≤ q → c ≤ d := by
    intro p q c d hc hd hpq
    obtain ⟨k1, rfl⟩ := List.getElem?_eq_some_iff.mp hc
    obtain ⟨k2, rfl⟩ := List.getElem?_eq_some_iff.mp hd
    rcases Nat.eq_or_lt_of_le hpq with e | e
    · subst e; exact le_refl _
    · exact (List.pairwise_iff_getElem.mp hl p q k1 k2 e).le
  rcases Nat.lt_trichotomy i i' with h | h | h
  · have := mono hb ha' h; linarith
  · exact h
  · have := mono hb' ha h; linarith

theorem step_lt {l : List ℚ} (hl : Increasing l) {i : Nat} {a b : ℚ} (ha : l[i]? = some a) (hb : l[i + 1]? = some b) : a < b := by
  obtain ⟨k1, rfl⟩ := List.getElem?_eq_some_iff.mp ha
  obtain ⟨k2, rfl⟩ := List.getElem?_eq_some_iff.mp hb
  exact List.pairwise_iff_getElem.mp hl i (i + 1) k1 k2 (by omega)

/-- A position in a part of a cell. -/
theorem part_iff {a b x0 x1 : ℚ} (hab : a < b) (r : ℚ) :
    (x0 ≤ a + r * (b - a) ∧ a + r * (b - a) < x1) ↔ ((x0 - a) / (b - a) ≤ r ∧ r < (x1 - a) / (b - a)) := by
  have hp : 0 < b - a := sub_pos.mpr hab
  rw [div_le_iff₀ hp, lt_div_iff₀ hp]
  constructor <;> rintro ⟨h1, h2⟩ <;> constructor <;> linarith

end Parcels.FromField
