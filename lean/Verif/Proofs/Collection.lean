import Verif.Spec.Collection
import Mathlib.Tactic.Linarith
import Mathlib.Data.List.Basic
import Mathlib.Data.List.Nodup
import Mathlib.Data.List.Perm.Basic

namespace Parcels.Collection

variable {V : Type}

theorem survivors_lt {n : Nat} {del : List Nat} {i : Nat} (h : i ∈ survivors n del) : i < n := by
  unfold survivors at h
  rw [List.mem_filter, List.mem_range] at h; exact h.1

theorem filterMap_get {α : Type} (l : List α) (is : List Nat) (h : ∀ i ∈ is, i < l.length) :
    ∀ k : Nat, (is.filterMap fun (i : Nat) => l[i]?)[k]? = is[k]?.bind fun (i : Nat) => l[i]? := by
  induction is with
  | nil => intro k; simp
  | cons i is ih =>
    intro k
    have hi : l[i]? = some (l[i]'(h i (by simp))) := List.getElem?_eq_getElem _
    rw [List.filterMap_cons_some hi]
    cases k with
    | zero => simp [hi]
    | succ k => simpa using ih (fun j hj => h j (by simp [hj])) k

theorem npDelete_get {α : Type} (del : List Nat) (l : List α) (k : Nat) :
    (npDelete del l)[k]? = (survivors l.length del)[k]?.bind fun i => l[i]? :=
  filterMap_get l _ (fun _ hi => survivors_lt hi) k

theorem npDelete_length {α : Type} (del : List Nat) (l : List α) :
    (npDelete del l).length = (survivors l.length del).length := by
  unfold npDelete
  have : ∀ is : List Nat, (∀ i ∈ is, i < l.length) → (is.filterMap fun i => l[i]?).length = is.length := by
    intro is
    induction is with
    | nil => intro _; rfl
    | cons i is ih =>
      intro h
      have hi : l[i]? = some (l[i]'(h i (by simp))) := List.getElem?_eq_getElem _
      rw [List.filterMap_cons_some hi]
      simp [ih (fun j hj => h j (by simp [hj]))]
  exact this _ (fun _ hi => survivors_lt hi)

theorem survivors_length {n : Nat} {del : List Nat} (hn : del.Nodup) (hb : ∀ i ∈ del, i < n) :
    (survivors n del).length + del.length = n := by
  unfold survivors
  have h1 := List.length_eq_length_filter_add (l := List.range n) (fun i => decide (i ∈ del))
  have h2 : ((List.range n).filter fun i => decide (i ∈ del)).length = del.length := by
    apply List.Perm.length_eq
    rw [List.perm_ext_iff_of_nodup (List.nodup_range.filter _) hn]
    intro i
    rw [List.mem_filter, List.mem_range, decide_eq_true_eq]
    exact ⟨fun h => h.2, fun h => ⟨hb i h, h⟩⟩
  have h3 : ((List.range n).filter fun i => !(decide (i ∈ del))) =
      (List.range n).filter fun i => decide (i ∉ del) := by
    apply List.filter_congr; intro i _; simp
  rw [List.length_range] at h1
  rw [h3, h2] at h1
  omega

theorem mapM_npIndex {n : Nat} : ∀ (idx : List ℤ) (del : List Nat),
    idx.mapM (npIndex n) = some del → del.length = idx.length ∧ ∀ i ∈ del, i < n := by
  intro idx
  induction idx with
  | nil => intro del h; simp at h; subst h; simp
  | cons i idx ih =>
    intro del h
    rw [List.mapM_cons] at h
    rcases hi : npIndex n i with _ | k
    · rw [hi] at h; simp at h
    · rw [hi] at h
      rcases hr : idx.mapM (npIndex n) with _ | d
      · rw [hr] at h; simp at h
      · rw [hr] at h
        simp at h
        subst h
        obtain ⟨h1, h2⟩ := ih d hr
        refine ⟨by simp [h1], ?_⟩
        intro j hj
        rcases List.mem_cons.mp hj with e | e
        · subst e
          unfold npIndex at hi
          split at hi
          · cases hi; omega
          · split at hi
            · cases hi; omega
            · cases hi
        · exact h2 j e

theorem npIndex_lt {n : Nat} {i : ℤ} {k : Nat} (h : npIndex n i = some k) : k < n := by
  unfold npIndex at h
  split at h
  · cases h; omega
  · split at h
    · cases h; omega
    · cases h

theorem npIndex_nat {n k : Nat} (h : k < n) : npIndex n (k : ℤ) = some k := by
  unfold npIndex; rw [if_pos ⟨by omega, by omega⟩]; simp

theorem mapM_nat {n : Nat} (ks : List Nat) (h : ∀ k ∈ ks, k < n) :
    (ks.map fun (k : Nat) => (k : ℤ)).mapM (npIndex n) = some ks := by
  induction ks with
  | nil => rfl
  | cons k ks ih =>
    rw [List.map_cons, List.mapM_cons, npIndex_nat (h k (by simp)), ih (fun j hj => h j (by simp [hj]))]
    rfl

theorem npDelete_sublist {α : Type} (del : List Nat) (l : List α) : (npDelete del l).Sublist l := by
  have h1 : (survivors l.length del).Sublist (List.range l.length) := List.filter_sublist
  have h2 := h1.filterMap (fun i => l[i]?)
  have h3 : (List.range l.length).filterMap (fun i => l[i]?) = l := by
    apply List.ext_getElem?
    intro k
    rw [filterMap_get l _ (fun i hi => List.mem_range.mp hi)]
    by_cases hk : k < l.length
    · simp [hk]
    · simp [hk]
  rw [h3] at h2
  exact h2

/-- `np.delete` is the list without those positions. -/
theorem npDelete_eq_without {α : Type} (del : List Nat) (l : List α) : npDelete del l = without del l := by
  have key : ∀ (l : List α) (s : Nat),
      ((List.range' s l.length).filter fun i => decide (i ∉ del)).filterMap (fun i => l[i - s]?) =
      ((l.zipIdx s).filter fun p => decide (p.2 ∉ del)).map (·.1) := by
    intro l
    induction l with
    | nil => intro s; simp
    | cons a l ih =>
      intro s
      rw [List.length_cons, List.range'_succ, List.zipIdx_cons]
      have htail : ((List.range' (s + 1) l.length).filter fun i => decide (i ∉ del)).filterMap
          (fun i => (a :: l)[i - s]?) =
          ((List.range' (s + 1) l.length).filter fun i => decide (i ∉ del)).filterMap
          (fun i => l[i - (s + 1)]?) := by
        apply List.filterMap_congr
        intro i hi
        have := (List.mem_filter.mp hi).1
        rw [List.mem_range'_1] at this
        rw [show i - s = (i - (s + 1)) + 1 by omega]
        simp
      by_cases hs : s ∈ del
      · rw [List.filter_cons_of_neg (by simpa using hs), List.filter_cons_of_neg (by simpa using hs), htail]
        exact ih (s + 1)
      · rw [List.filter_cons_of_pos (by simpa using hs), List.filter_cons_of_pos (by simpa using hs)]
        rw [List.filterMap_cons_some (b := a) (by simp), List.map_cons, htail, ih (s + 1)]
  have := key l 0
  unfold npDelete survivors without
  rw [List.range_eq_range']
  simpa using this

theorem rows_length (c : Coll V) : (rows c).length = c.ids.length := by simp [rows]

theorem rows_get (c : Coll V) (k : Nat) (h : k < c.ids.length) : (rows c)[k]? = some (row c k) := by
  simp [rows, h]

/-- Deleting positions from every array deletes those rows. -/
theorem rows_delete (c : Coll V) (ha : ∀ p ∈ c.cols, p.2.length = c.ids.length) (del : List Nat)
    (n : ℤ) (s : Bool) :
    rows { ids := npDelete del c.ids, cols := c.cols.map fun p => (p.1, npDelete del p.2), ncount := n,
           sorted := s } = without del (rows c) := by
  rw [← npDelete_eq_without]
  apply List.ext_getElem?
  intro k
  rw [npDelete_get, rows_length]
  by_cases hk : k < (survivors c.ids.length del).length
  · have hk' : k < (npDelete del c.ids).length := by rw [npDelete_length]; exact hk
    rw [rows_get _ _ (by exact hk')]
    rw [List.getElem?_eq_getElem hk]
    simp only [Option.bind_some]
    have hi := survivors_lt (List.getElem_mem hk)
    rw [rows_get c _ hi]
    congr 1
    unfold row
    simp only [List.map_map]
    congr 1
    · rw [npDelete_get, List.getElem?_eq_getElem hk]; rfl
    · apply List.map_congr_left
      intro p hp
      simp only [Function.comp]
      congr 1
      rw [npDelete_get, ha p hp, List.getElem?_eq_getElem hk]; rfl
  · rw [List.getElem?_eq_none (l := survivors _ _) (by omega)]
    rw [List.getElem?_eq_none]
    · rfl
    · rw [rows_length]; show (npDelete del c.ids).length ≤ k
      rw [npDelete_length]; omega

theorem rows_append (c o : Coll V) (cols : List (String × List V)) (n : ℤ) (s : Bool)
    (ids : List ℤ) (hids : ids = c.ids ++ o.ids)
    (hc : ∀ p ∈ c.cols, p.2.length = c.ids.length)
    (h1 : ∀ i < c.ids.length, (cols.map fun p => (p.1, p.2[i]?)) = c.cols.map fun p => (p.1, p.2[i]?))
    (h2 : ∀ i < o.ids.length, (cols.map fun p => (p.1, p.2[c.ids.length + i]?)) =
      o.cols.map fun p => (p.1, p.2[i]?)) :
    rows { ids := ids, cols := cols, ncount := n, sorted := s } = rows c ++ rows o := by
  apply List.ext_getElem
  · simp [rows_length, hids]
  · intro k hk hk'
    have hk0 : k < ids.length := by rw [rows_length] at hk; exact hk
    rw [hids, List.length_append] at hk0
    have e1 : (rows { ids := ids, cols := cols, ncount := n, sorted := s : Coll V })[k] =
        row { ids := ids, cols := cols, ncount := n, sorted := s : Coll V } k := by simp [rows]
    rw [e1]
    by_cases hlt : k < c.ids.length
    · rw [List.getElem_append_left (by rw [rows_length]; exact hlt)]
      simp only [rows, List.getElem_map, List.getElem_range, row]
      rw [hids, List.getElem?_append_left hlt, h1 k hlt]
    · rw [List.getElem_append_right (by rw [rows_length]; omega)]
      simp only [rows, List.getElem_map, List.getElem_range, row, List.length_map, List.length_range]
      have := h2 (k - c.ids.length) (by omega)
      rw [show c.ids.length + (k - c.ids.length) = k by omega] at this
      rw [hids, List.getElem?_append_right (by omega), this]

/-! ### Concatenation -/

/-- With the same names, each once, the columns are concatenated pairwise. -/
theorem concatCols_same (front : Bool) : ∀ (cc oc full : List (String × List V)),
    oc.map (·.1) = cc.map (·.1) → (∀ p ∈ oc, full.lookup p.1 = some p.2) →
    concatCols front full cc =
      (List.zipWith (fun a b => (a.1, if front then b.2 ++ a.2 else a.2 ++ b.2)) cc oc, true) := by
  intro cc
  induction cc with
  | nil => intro oc full h _; simp [concatCols]
  | cons a cc ih =>
    intro oc full h hl
    cases oc with
    | nil => simp at h
    | cons b oc =>
      simp only [List.map_cons, List.cons.injEq] at h
      have hb := hl b (by simp)
      rw [h.1] at hb
      simp only [concatCols, hb]
      rw [ih oc full h.2 (fun p hp => hl p (by simp [hp]))]
      rfl

theorem lookup_self : ∀ {l : List (String × List V)}, (l.map (·.1)).Nodup →
    ∀ p ∈ l, l.lookup p.1 = some p.2 := by
  intro l
  induction l with
  | nil => intro _ p hp; simp at hp
  | cons a l ih =>
    intro hn p hp
    rw [List.map_cons, List.nodup_cons] at hn
    rcases List.mem_cons.mp hp with e | e
    · subst e; simp [List.lookup]
    · have hne : p.1 ≠ a.1 := by
        intro he
        exact hn.1 (he ▸ List.mem_map_of_mem e)
      have := ih hn.2 p e
      obtain ⟨a1, a2⟩ := a
      rw [List.lookup_cons]
      simp only [beq_eq_false_iff_ne.mpr hne, this]

end Parcels.Collection
