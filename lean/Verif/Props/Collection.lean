import Verif.Proofs.Collection3
import Mathlib.Tactic.NormNum
import Mathlib.Data.List.Perm.Basic
import Mathlib.Data.List.Perm.Lattice
import Mathlib.Algebra.BigOperators.Group.List.Basic

/-!
C13-C17: particle identity and the structure-of-arrays collection.
-/

namespace Parcels.Collection

variable {V : Type}

/-! ### C13 -/

theorem maxOr_ge {l : List ℤ} {a : ℤ} (h : a ∈ l) : a ≤ maxOr l := by
  cases l with
  | nil => simp at h
  | cons b l =>
    simp only [maxOr]
    have key : ∀ (l : List ℤ) (b : ℤ), b ≤ l.foldl max b ∧ ∀ a ∈ l, a ≤ l.foldl max b := by
      intro l
      induction l with
      | nil => intro b; simp
      | cons c l ih =>
        intro b
        rw [List.foldl_cons]
        obtain ⟨h1, h2⟩ := ih (max b c)
        refine ⟨le_trans (le_max_left _ _) h1, ?_⟩
        intro a ha
        rcases List.mem_cons.mp ha with e | e
        · subst e; exact le_trans (le_max_right _ _) h1
        · exact h2 a e
    rcases List.mem_cons.mp h with e | e
    · subst e; exact (key l _).1
    · exact (key l b).2 a e

theorem history_ge : ∀ (ps : List (List ℤ)) (last : ℤ), (∀ p ∈ ps, p ≠ [] ∧ ∀ i ∈ p, 0 ≤ i) →
    ∀ ids ∈ history last ps, ∀ i ∈ ids, last ≤ i := by
  intro ps
  induction ps with
  | nil => intro last _ ids h; simp [history] at h
  | cons p ps ih =>
    intro last hp ids h i hi
    simp only [history, List.mem_cons] at h
    rcases h with e | e
    · subst e
      simp only [construct, List.mem_map] at hi
      obtain ⟨j, hj, rfl⟩ := hi
      have := (hp p (by simp)).2 j hj
      omega
    · have h1 := ih _ (fun q hq => hp q (by simp [hq])) ids e i hi
      obtain ⟨a, ha⟩ := List.exists_mem_of_ne_nil _ (hp p (by simp)).1
      have h2 : a + last ≤ maxOr (p.map (· + last)) := maxOr_ge (List.mem_map_of_mem ha)
      have h3 := (hp p (by simp)).2 a ha
      simp only [construct] at h1
      omega

/-- C13, partial: along every history of constructions of non-empty sets, whose original IDs are
non-negative and distinct within each set (the default is 0, 1, 2, ...), all IDs are distinct and
newer particles have larger IDs. Missing: empty sets, see `C13_empty_set_repeats_ids`. -/
theorem C13_unique_ids_partial (ps : List (List ℤ)) (last : ℤ)
    (hp : ∀ p ∈ ps, p ≠ [] ∧ p.Nodup ∧ ∀ i ∈ p, 0 ≤ i) :
    (history last ps).flatten.Nodup ∧
    (history last ps).Pairwise (fun older newer => ∀ i ∈ older, ∀ j ∈ newer, i < j) := by
  have main : ∀ (ps : List (List ℤ)) (last : ℤ), (∀ p ∈ ps, p ≠ [] ∧ p.Nodup ∧ ∀ i ∈ p, 0 ≤ i) →
      (∀ l ∈ history last ps, l.Nodup) ∧
      (history last ps).Pairwise (fun older newer => ∀ i ∈ older, ∀ j ∈ newer, i < j) := by
    intro ps
    induction ps with
    | nil => intro last _; simp [history]
    | cons p ps ih =>
      intro last hp
      obtain ⟨h1, h2⟩ := ih (construct (V := Unit) last p []).2 (fun q hq => hp q (by simp [hq]))
      simp only [history]
      refine ⟨?_, ?_⟩
      · intro l hl
        rcases List.mem_cons.mp hl with e | e
        · subst e
          exact (hp p (by simp)).2.1.map (fun a b h => by simpa using h)
        · exact h1 l e
      · rw [List.pairwise_cons]
        refine ⟨?_, h2⟩
        intro l hl i hi j hj
        have hge := history_ge ps _ (fun q hq => ⟨(hp q (by simp [hq])).1, (hp q (by simp [hq])).2.2⟩) l hl j hj
        have : i ≤ maxOr (p.map (· + last)) := maxOr_ge hi
        simp only [construct] at hge
        omega
  obtain ⟨h1, h2⟩ := main ps last hp
  refine ⟨?_, h2⟩
  rw [List.nodup_flatten]
  refine ⟨h1, h2.imp ?_⟩
  intro a b hab
  rw [List.disjoint_left]
  intro x hxa hxb
  have := hab x hxa x hxb
  omega

/-- The hypotheses are met by sets of 2, 1 and 3 particles made in turn: IDs 0..5. -/
example : (∀ p ∈ [arange 2, arange 1, arange 3], p ≠ [] ∧ p.Nodup ∧ ∀ i ∈ p, 0 ≤ i) ∧
    history 0 [arange 2, arange 1, arange 3] = [[0, 1], [2], [3, 4, 5]] := by decide

/-- C13 is false when an empty set is constructed in between: the counter is put back to 0 and the IDs
0 and 1 are given to two particles each. -/
theorem C13_empty_set_repeats_ids :
    history 0 [arange 2, arange 0, arange 2] = [[0, 1], [], [0, 1]] ∧
    ¬ (history 0 [arange 2, arange 0, arange 2]).flatten.Nodup := by decide

/-! ### C14 -/

theorem deleteByID_good {c c' : Coll V} {m : V} {id : ℤ} (ha : Aligned c) (hf : FlagOK c)
    (h : deleteByID c m id = .ok c') :
    Aligned c' ∧ FlagOK c' ∧ c'.ids = c.ids ∧ names c' = names c := by
  unfold deleteByID at h
  split at h
  · cases h
  · rename_i k hk
    simp only [Except.ok.injEq] at h
    subst h
    refine ⟨⟨ha.1, ?_⟩, hf, rfl, by simp [names, Function.comp_def]⟩
    intro p hp
    simp only [List.mem_map] at hp
    obtain ⟨q, hq, rfl⟩ := hp
    have := ha.2 q hq
    by_cases hs : q.1 = "state"
    · simp [hs, this]
    · simp [hs, this]

theorem apply_good {c : Coll V} {op : Op V} (ha : Aligned c) (hf : FlagOK c) (hr : Reasonable c op) :
    Aligned (apply c op) ∧ FlagOK (apply c op) := by
  cases op with
  | add o =>
    obtain ⟨h1, h2, h3, h4, h5⟩ := hr
    obtain ⟨_, g1, g2, _⟩ := add_good ha hf h1 h2 h3 h4 h5
    exact ⟨g1, g2⟩
  | removeIndices idx =>
    simp only [apply]
    split
    · rename_i c' h
      obtain ⟨g1, g2, _⟩ := removeMulti_good ha hf h (fun del hd => mapM_nodup idx del hd hr)
      exact ⟨g1, g2⟩
    · exact ⟨ha, hf⟩
  | removeIndex i =>
    simp only [apply]
    split
    · rename_i c' h
      obtain ⟨g1, g2, _⟩ := removeSingle_good ha hf h
      exact ⟨g1, g2⟩
    · exact ⟨ha, hf⟩
  | removeBool v =>
    simp only [apply]
    split
    · rename_i c' h
      obtain ⟨g1, g2, _⟩ := removeMulti_good ha hf h (fun del hd => by
        rw [removeBool_mapM h] at hd
        injection hd with hd; subst hd
        exact List.nodup_range.filter _)
      exact ⟨g1, g2⟩
    · exact ⟨ha, hf⟩
  | removeID id =>
    simp only [apply]
    split
    · rename_i c' h
      unfold removeByID at h
      split at h
      · cases h
      · obtain ⟨g1, g2, _⟩ := removeSingle_good ha hf h
        exact ⟨g1, g2⟩
    · exact ⟨ha, hf⟩
  | removeIDs q =>
    simp only [apply]
    split
    · rename_i c' h
      unfold removeByIDs at h
      split at h
      · injection h with h; subst h; exact ⟨ha, hf⟩
      · split at h
        · cases h
        · rename_i r hr'
          split at h
          · cases h
          · obtain ⟨n1, n2⟩ := removeByIDs_nodup hr hr'
            obtain ⟨g1, g2, _⟩ := removeMulti_good ha hf h (fun del hd => by
              rw [mapM_nat _ n2] at hd
              injection hd with hd; subst hd
              exact n1)
            exact ⟨g1, g2⟩
    · exact ⟨ha, hf⟩
  | deleteID m id =>
    simp only [apply]
    split
    · rename_i c' h
      obtain ⟨g1, g2, _⟩ := deleteByID_good ha hf h
      exact ⟨g1, g2⟩
    · exact ⟨ha, hf⟩

/-- A freshly constructed set is consistent. -/
theorem diffsNonneg_iff : ∀ l : List ℤ, diffsNonneg l = true → l.Pairwise (· ≤ ·) := by
  intro l
  induction l with
  | nil => intro _; simp
  | cons a l ih =>
    intro h
    cases l with
    | nil => simp
    | cons b l =>
      simp only [diffsNonneg, Bool.and_eq_true, decide_eq_true_eq] at h
      have h2 := ih h.2
      rw [List.pairwise_cons]
      refine ⟨?_, h2⟩
      intro x hx
      rcases List.mem_cons.mp hx with e | e
      · subst e; exact h.1
      · have := (List.pairwise_cons.mp h2).1 x e; omega

/-- C14, partial: for every history of additions and removals that starts from a newly constructed set
and is `Reasonable` (the sets added are consistent and have the same variables, no index twice), every
array has one entry per particle, and the reported number of particles is the true one. Missing:
sets with other variables and repeated indices, see the two negations below. -/
theorem C14_arrays_aligned_partial (last : ℤ) (pid : List ℤ) (cols : List (String × List V))
    (hc : ∀ p ∈ cols, p.2.length = pid.length) (ops : List (Op V))
    (hr : ReasonableAll (construct last pid cols).1 ops) :
    Aligned (applyAll (construct last pid cols).1 ops) := by
  have main : ∀ (ops : List (Op V)) (c : Coll V), Aligned c → FlagOK c → ReasonableAll c ops →
      Aligned (applyAll c ops) ∧ FlagOK (applyAll c ops) := by
    intro ops
    induction ops with
    | nil => intro c h1 h2 _; exact ⟨h1, h2⟩
    | cons o ops ih =>
      intro c h1 h2 h3
      obtain ⟨g1, g2⟩ := apply_good h1 h2 h3.1
      exact ih _ g1 g2 h3.2
  exact (main ops _ ⟨rfl, by intro p hp; simp only [construct] at hp ⊢; rw [hc p hp]; simp⟩
    (fun h => diffsNonneg_iff _ h) hr).1

theorem history_flag (ops : List (Op V)) : ∀ (c : Coll V), Aligned c → FlagOK c → ReasonableAll c ops →
    Aligned (applyAll c ops) ∧ FlagOK (applyAll c ops) := by
  induction ops with
  | nil => intro c h1 h2 _; exact ⟨h1, h2⟩
  | cons o ops ih =>
    intro c h1 h2 h3
    obtain ⟨g1, g2⟩ := apply_good h1 h2 h3.1
    exact ih _ g1 g2 h3.2

def exA : Coll Nat := (construct 0 (arange 3) [("lon", [10, 11, 12]), ("state", [0, 0, 0])]).1
def exB : Coll Nat := (construct 3 (arange 2) [("lon", [20, 21]), ("state", [0, 0])]).1
def exC : Coll Nat := (construct 5 (arange 1) [("lon", [30]), ("state", [0])]).1

/-- A history that meets the hypotheses: two additions and four removals. -/
example :
    (applyAll exA [.add exC, .add exB, .removeIndices [0, -1], .removeID 5, .removeBool [true, false, false]]).ids
      = [2, 3] ∧
    (applyAll exA [.add exC, .add exB, .removeIndices [0, -1], .removeID 5, .removeBool [true, false, false]]).cols
      = [("lon", [12, 20]), ("state", [0, 0])] ∧
    (applyAll exA [.add exC, .add exB, .removeIndices [0, -1]]).sorted = false := by decide

example : ReasonableAll exA [.add exC, .removeIndices [0, -1]] := by
  refine ⟨⟨⟨rfl, ?_⟩, ?_, rfl, ?_, ?_⟩, ?_, trivial⟩
  · decide
  · intro _; decide
  · decide
  · decide
  · show ([0, -1] : List ℤ).Pairwise fun (i j : ℤ) => i ≠ j ∧ i ≠ j + 4 ∧ j ≠ i + 4
    decide

/-- C14 is false for repeated indices: removing index 0 twice in one call takes one particle away, but
the reported number falls by two. -/
theorem C14_repeated_index :
    (apply exA (.removeIndices [0, 0])).ids.length = 2 ∧ (apply exA (.removeIndices [0, 0])).ncount = 1 := by
  decide

/-- C14 is false for sets with different variables: the addition raises KeyError half-way, and leaves
arrays of different lengths behind. -/
theorem C14_other_variables :
    let o : Coll Nat := (construct 3 (arange 2) [("lon", [20, 21])]).1
    (addSame exA o).2 = some .keyError ∧ (addSame exA o).1.ids.length = 5 ∧
    (addSame exA o).1.cols = [("lon", [10, 11, 12, 20, 21]), ("state", [0, 0, 0])] ∧
    (addSame exA o).1.ncount = 3 := by decide

/-! ### C15 -/

/-- C15: adding a set (consistent, same variables) keeps every particle of both sets with all its data
and the order within each set; the added particles come last, or first if that keeps the IDs in order. -/
theorem C15_add {c o : Coll V} (ha : Aligned c) (hf : FlagOK c) (hao : Aligned o) (hfo : FlagOK o)
    (hn : names o = names c) (hnd : (names o).Nodup) :
    (addSame c o).2 = none ∧
    (rows (addSame c o).1 = rows c ++ rows o ∨ rows (addSame c o).1 = rows o ++ rows c) := by
  by_cases he : c.ids = [] → c.sorted = true → o.ids.Pairwise (· ≤ ·)
  · obtain ⟨h1, _, _, _, h2⟩ := add_good ha hf hao hfo hn hnd he
    exact ⟨h1, h2.imp id (fun h => h.1)⟩
  · push Not at he
    obtain ⟨hc, _, _⟩ := he
    have hr : rows c = [] := by simp [rows, hc]
    have h0 : c.ncount = 0 := by rw [ha.1, hc]; rfl
    unfold addSame
    by_cases h1 : o.ncount = 0
    · rw [if_pos h1]
      have : o.ids = [] := by
        have := hao.1; rw [h1] at this
        exact List.eq_nil_of_length_eq_zero (by omega)
      have hro : rows o = [] := by simp [rows, this]
      rw [hro]; simp
    · rw [if_neg h1, if_pos h0, hr]
      exact ⟨rfl, Or.inl rfl⟩

/-- C15: removing by a list of positions removes exactly those particles; all others keep their data and
order. A position that does not exist raises and nothing is changed. -/
theorem C15_remove_indices {c : Coll V} (ha : Aligned c) (idx : List ℤ) :
    (∀ c', removeMulti c idx = .ok c' → ∃ del, idx.mapM (npIndex c.ids.length) = some del ∧
      rows c' = without del (rows c)) ∧
    ((∃ i ∈ idx, i < -(c.ids.length : ℤ) ∨ (c.ids.length : ℤ) ≤ i) →
      apply c (.removeIndices idx) = c) := by
  refine ⟨?_, ?_⟩
  · intro c' h
    unfold removeMulti at h
    rcases hm : idx.mapM (npIndex c.ids.length) with _ | del
    · rw [hm] at h; simp at h
    · rw [hm] at h
      simp only [Except.ok.injEq] at h
      subst h
      exact ⟨del, rfl, rows_delete c ha.2 del _ _⟩
  · rintro ⟨i, hi, hb⟩
    have hnone : npIndex c.ids.length i = none := by
      unfold npIndex
      rw [if_neg (by omega), if_neg (by omega)]
    have : idx.mapM (npIndex c.ids.length) = none := by
      induction idx with
      | nil => simp at hi
      | cons a idx ih =>
        rw [List.mapM_cons]
        rcases List.mem_cons.mp hi with e | e
        · subst e; rw [hnone]; rfl
        · rw [ih e]
          rcases npIndex c.ids.length a with _ | k <;> rfl
    simp only [apply, removeMulti, this]

/-- C15: removing the particle at one position. -/
theorem C15_remove_index {c : Coll V} (ha : Aligned c) (k : Nat) (hk : k < c.ids.length) :
    ∃ c', removeSingle c k = .ok c' ∧ rows c' = without [k] (rows c) := by
  unfold removeSingle
  rw [npIndex_nat hk]
  exact ⟨_, rfl, rows_delete c ha.2 [k] _ _⟩

/-- C15: removing by a mask keeps exactly the particles for which the mask is false. -/
theorem C15_remove_mask {c : Coll V} (ha : Aligned c) (v : List Bool) (hv : v.length = c.ids.length) :
    ∃ c', removeBool c v = .ok c' ∧
      rows c' = (((rows c).zip v).filter fun p => !p.2).map (·.1) := by
  have hlt : ∀ k ∈ (List.range v.length).filter fun i => v.getD i false, k < c.ids.length := by
    intro k hk
    rw [List.mem_filter, List.mem_range] at hk
    omega
  unfold removeBool removeMulti
  rw [mapM_nat _ hlt]
  refine ⟨_, rfl, ?_⟩
  rw [rows_delete c ha.2]
  have hl : (rows c).length = v.length := by rw [rows_length, hv]
  -- a mask is the same as the set of positions where it is true
  have key : ∀ {α : Type} (l : List α) (v : List Bool) (s : Nat) (P : Nat → Prop) [DecidablePred P],
      l.length = v.length → (∀ i < v.length, (P (s + i) ↔ v.getD i false = false)) →
      ((l.zipIdx s).filter fun p => decide (P p.2)).map (·.1) =
        ((l.zip v).filter fun p => !p.2).map (·.1) := by
    intro α l
    induction l with
    | nil => intro v s P _ _ _; simp
    | cons a l ih =>
      intro v s P _ hlen hP
      cases v with
      | nil => simp at hlen
      | cons b v =>
        rw [List.zipIdx_cons, List.zip_cons_cons]
        have h0 := hP 0 (by simp)
        simp only [Nat.add_zero, List.getD_cons_zero] at h0
        have ih' := ih v (s + 1) P (by simpa using hlen) (fun i hi => by
          have := hP (i + 1) (by simp; omega)
          rw [List.getD_cons_succ] at this
          rw [← this]
          rw [show s + 1 + i = s + (i + 1) by omega])
        cases b with
        | false =>
          rw [List.filter_cons_of_pos (by simpa using h0.mpr rfl), List.filter_cons_of_pos (by rfl)]
          rw [List.map_cons, List.map_cons, ih']
        | true =>
          have : ¬ P s := fun h => by have := h0.mp h; simp at this
          rw [List.filter_cons_of_neg (by simpa using this), List.filter_cons_of_neg (by simp)]
          exact ih'
  unfold without
  exact key (rows c) v 0 (fun i => i ∉ (List.range v.length).filter fun i => v.getD i false) hl (fun i hi => by
    simp only [Nat.zero_add, List.mem_filter, List.mem_range, not_and]
    constructor
    · intro h
      simpa using h hi
    · intro h _
      rw [h]; simp)

theorem without_range_append {α : Type} (a b : List α) :
    without ((List.range b.length).map (· + a.length)) (a ++ b) = a := by
  unfold without
  rw [List.zipIdx_append, List.filter_append, List.map_append]
  have h1 : (a.zipIdx.filter fun p => decide (p.2 ∉ (List.range b.length).map (· + a.length))) = a.zipIdx := by
    rw [List.filter_eq_self]
    intro p hp
    have := (List.mem_zipIdx hp).2.1
    simp only [decide_eq_true_eq, List.mem_map, List.mem_range, not_exists, not_and]
    intro x hx
    omega
  have h2 : ((b.zipIdx (0 + a.length)).filter
      fun p => decide (p.2 ∉ (List.range b.length).map (· + a.length))) = [] := by
    rw [List.filter_eq_nil_iff]
    intro p hp
    have := List.mem_zipIdx hp
    simp only [decide_eq_true_eq, List.mem_map, List.mem_range, not_not]
    exact ⟨p.2 - a.length, by omega, by omega⟩
  rw [h1, h2]
  simp

/-- C15: removing the particles of a set that was just added (behind the others) restores the particles
that were there before. -/
theorem C15_add_then_remove {c o : Coll V} (ha : Aligned c) (hf : FlagOK c) (hao : Aligned o) (hfo : FlagOK o)
    (hn : names o = names c) (hnd : (names o).Nodup)
    (he : c.ids = [] → c.sorted = true → o.ids.Pairwise (· ≤ ·))
    (hrows : rows (addSame c o).1 = rows c ++ rows o) :
    ∃ c', removeMulti (addSame c o).1
        ((List.range o.ids.length).map fun (i : Nat) => ((i + c.ids.length : Nat) : ℤ)) = .ok c' ∧
      rows c' = rows c ∧ c'.ncount = c.ncount := by
  obtain ⟨_, h1, h2, _, _⟩ := add_good ha hf hao hfo hn hnd he
  have hlen : (addSame c o).1.ids.length = c.ids.length + o.ids.length := by
    rw [← rows_length, hrows, List.length_append, rows_length, rows_length]
  have hm : ((List.range o.ids.length).map fun (i : Nat) => ((i + c.ids.length : Nat) : ℤ)).mapM
      (npIndex (addSame c o).1.ids.length) = some ((List.range o.ids.length).map (· + c.ids.length)) := by
    have := mapM_nat (n := (addSame c o).1.ids.length) ((List.range o.ids.length).map (· + c.ids.length))
      (by intro k hk; simp only [List.mem_map, List.mem_range] at hk; obtain ⟨x, hx, rfl⟩ := hk; omega)
    rw [List.map_map] at this
    exact this
  have hnod : ((List.range o.ids.length).map (· + c.ids.length)).Nodup :=
    List.nodup_range.map (fun a b h => by simpa using h)
  rcases hrm : removeMulti (addSame c o).1
      ((List.range o.ids.length).map fun (i : Nat) => ((i + c.ids.length : Nat) : ℤ)) with e | c'
  · unfold removeMulti at hrm
    rw [hm] at hrm; simp at hrm
  · obtain ⟨g1, _, del, hd, g3, _⟩ := removeMulti_good h1 h2 hrm (fun del hd => by
      rw [hm] at hd; injection hd with hd; subst hd; exact hnod)
    rw [hm] at hd
    injection hd with hd; subst hd
    have hr : rows c' = rows c := by
      rw [g3, hrows]
      have := without_range_append (rows c) (rows o)
      rwa [rows_length, rows_length] at this
    refine ⟨c', rfl, hr, ?_⟩
    rw [g1.1, ha.1, ← rows_length, hr, rows_length]

/-- Non-trivial instances: two sets of three and two particles; both orders of concatenation. -/
example : Aligned exA ∧ Aligned exB ∧ names exA = names exB ∧ (names exA).Nodup ∧
    (rows exA).length = 3 ∧ rows (addSame exA exB).1 = rows exA ++ rows exB ∧
    rows (addSame exB exA).1 = rows exA ++ rows exB := by
  refine ⟨⟨rfl, by decide⟩, ⟨rfl, by decide⟩, rfl, by decide, by decide, by decide, by decide⟩

/-! ### C16 -/

/-- C16, partial: in every set reached by a `Reasonable` history from a newly constructed set (sorted or
not), an ID that is in the set is found at a position holding it; removing by ID takes away exactly one
particle, which has that ID; an ID that is not in the set raises and nothing changes. Missing: adding an
unsorted set to an empty one, see `C16_negation`. -/
theorem C16_lookup_partial (last : ℤ) (pid : List ℤ) (cols : List (String × List V))
    (hc : ∀ p ∈ cols, p.2.length = pid.length) (ops : List (Op V))
    (hr : ReasonableAll (construct last pid cols).1 ops) (id : ℤ) :
    let c := applyAll (construct last pid cols).1 ops
    (id ∈ c.ids → ∃ k, indexOfID c id = .ok k ∧ c.ids[k]? = some id ∧
      ∃ c', removeByID c id = .ok c' ∧ rows c' = without [k] (rows c)) ∧
    (id ∉ c.ids → (∃ e, indexOfID c id = .error e) ∧ apply c (.removeID id) = c ∧
      ∀ m, apply c (.deleteID m id) = c) := by
  intro c
  obtain ⟨ha, hf⟩ := history_flag ops _
    (⟨rfl, by intro p hp; simp only [construct] at hp ⊢; rw [hc p hp]; simp⟩ :
      Aligned (construct last pid cols).1) (fun h => diffsNonneg_iff _ h) hr
  refine ⟨?_, ?_⟩
  · intro hm
    obtain ⟨k, hk⟩ := indexOfID_found hf hm
    obtain ⟨h1, _⟩ := indexOfID_ok hf hk
    have hlt : k < c.ids.length := by
      by_contra hh
      rw [List.getElem?_eq_none (not_lt.mp hh)] at h1; cases h1
    obtain ⟨c', g1, g2⟩ := C15_remove_index ha k hlt
    refine ⟨k, hk, h1, c', ?_, g2⟩
    unfold removeByID
    rw [hk]
    exact g1
  · intro hm
    obtain ⟨e, he⟩ := indexOfID_missing hf hm
    refine ⟨⟨e, he⟩, ?_, ?_⟩
    · have he' : indexOfID c id = .error e := he
      simp only [apply, removeByID, he']
    · intro m
      have he' : indexOfID c id = .error e := he
      simp only [apply, deleteByID, he']

/-- Marking a particle for deletion by ID changes its `state` and nothing else. -/
theorem C16_delete_marks_that_particle {c c' : Coll V} {m : V} {id : ℤ} (hf : FlagOK c) (ha : Aligned c)
    (h : deleteByID c m id = .ok c') :
    ∃ k : Nat, c.ids[k]? = some id ∧ c'.ids = c.ids ∧ names c' = names c ∧
      ∀ p ∈ c.cols, ∃ p' ∈ c'.cols, p'.1 = p.1 ∧
        (∀ i : Nat, i ≠ k → p'.2[i]? = p.2[i]?) ∧ (p.1 ≠ "state" → p'.2 = p.2) ∧
        (p.1 = "state" → p'.2[k]? = some m) := by
  unfold deleteByID at h
  split at h
  · cases h
  · rename_i k hk
    simp only [Except.ok.injEq] at h
    subst h
    obtain ⟨h1, _⟩ := indexOfID_ok hf hk
    have hlt : k < c.ids.length := by
      by_contra hh
      rw [List.getElem?_eq_none (by omega)] at h1; cases h1
    refine ⟨k, h1, rfl, by simp [names, Function.comp_def], ?_⟩
    intro p hp
    refine ⟨_, List.mem_map_of_mem hp, rfl, ?_, ?_, ?_⟩
    · intro i hi
      by_cases hs : p.1 = "state"
      · simp only [hs, if_true]; exact List.getElem?_set_ne (Ne.symm hi)
      · simp only [hs, if_false]
    · intro hs; simp only [hs, if_false]
    · intro hs
      simp only [hs, if_true]
      rw [List.getElem?_set_self (by rw [ha.2 p hp]; exact hlt)]

example : (deleteByID exA 9 1) = .ok { exA with cols := [("lon", [10, 11, 12]), ("state", [0, 9, 0])] } := by
  decide

/-- The unsorted set 0, 1, 4, 5, 2, 3: three ordinary additions. -/
def exUnsorted : Coll Nat :=
  applyAll (construct 0 (arange 2) []).1 [.add (construct 4 (arange 2) []).1, .add (construct 2 (arange 2) []).1]

/-- The hypotheses of `C16_lookup_partial` are met by an unsorted set. -/
example : exUnsorted.ids = [0, 1, 4, 5, 2, 3] ∧ exUnsorted.sorted = false ∧
    indexOfID exUnsorted 2 = .ok 4 ∧ indexOfID exUnsorted 7 = .error .indexError ∧
    ReasonableAll (construct (V := Nat) 0 (arange 2) []).1 [.add (construct 4 (arange 2) []).1,
      .add (construct 2 (arange 2) []).1] := by
  refine ⟨by decide, by decide, by decide, by decide, ⟨⟨rfl, by decide⟩, ?_, by decide, by decide, by decide⟩,
    ⟨⟨rfl, by decide⟩, ?_, by decide, by decide, by decide⟩, trivial⟩
  · intro _; decide
  · intro _; decide

/-- C16 is false in general: after `empty += unsorted set` the empty set still claims to be sorted, and a
particle that is in the set is not found. -/
theorem C16_negation :
    let c := (addSame (construct (V := Nat) 0 [] []).1 exUnsorted).1
    (2 : ℤ) ∈ c.ids ∧ indexOfID c 2 = .error .valueError := by decide

/-! ### C17 -/

/-- C17, negation for every case that matters: in a set with sorted, distinct IDs, looking up IDs of which
at least two are in the set never gives those particles (it raises, or gives no particle), and removing
them always raises and removes nothing. -/
theorem C17_sorted_lookup_never_works (c : Coll V) (hs : c.sorted = true) (hids : c.ids.Pairwise (· < ·))
    (q : List ℤ) (x y : ℤ) (hx : x ∈ q) (hy : y ∈ q) (hxy : x < y) (hxc : x ∈ c.ids) (hyc : y ∈ c.ids) :
    (∀ r, getMulti c q = .ok r → r = []) ∧ apply c (.removeIDs q) = c := by
  have hq : q ≠ [] := by intro h; rw [h] at hx; simp at hx
  have hperm : ∀ z, z ∈ npSort q ↔ z ∈ q := fun z => (List.perm_insertionSort _ q).mem_iff
  have hsorted : (npSort q).Pairwise (· ≤ ·) := by
    exact List.pairwise_insertionSort (· ≤ ·) q
  obtain ⟨i, hi, hix⟩ := List.mem_iff_getElem.mp hxc
  obtain ⟨j, hj, hjy⟩ := List.mem_iff_getElem.mp hyc
  have key : ∀ r, indicesOfIDs c q = .ok r → r.isFloat = true := by
    intro r hr
    unfold indicesOfIDs at hr
    rw [if_pos hs] at hr
    exact recLookup_two hids _ _ _ _ (le_refl _) hsorted
      ⟨x, (hperm x).mpr hx, y, (hperm y).mpr hy, hxy,
        ⟨i, hi, by rw [List.getD_eq_getElem _ _ hi, hix]⟩, ⟨j, hj, by rw [List.getD_eq_getElem _ _ hj, hjy]⟩⟩ hr
  refine ⟨?_, ?_⟩
  · intro r hr
    unfold getMulti at hr
    rw [if_neg hq] at hr
    split at hr
    · cases hr
    · rename_i r' hr'
      have hfl := key r' hr'
      split at hr
      · cases hr
      · rename_i hne
        injection hr with hr
        subst hr
        by_contra hc
        exact hne ⟨hc, hfl⟩
  · simp only [apply, removeByIDs, if_neg hq]
    rcases hr : indicesOfIDs c q with e | r
    · rfl
    · simp only [key r hr, if_true]

example : getMulti exA [0, 2] = .error .indexError ∧ getMulti exA [0, 1, 2] = .error .valueError := by decide

/-- C17, partial: in an unsorted set the lookup gives exactly the positions of the particles whose ID is in
the list, each once, in order; removal by IDs keeps exactly the others. -/
theorem C17_unsorted_lookup_partial (c : Coll V) (ha : Aligned c) (hs : c.sorted = false) (q : List ℤ)
    (hq : q ≠ []) :
    (∃ r, getMulti c q = .ok r ∧ r.Pairwise (· < ·) ∧
      ∀ k, k ∈ r ↔ ∃ id, c.ids[k]? = some id ∧ id ∈ q) ∧
    (∃ c' del, removeByIDs c q = .ok c' ∧ rows c' = without del (rows c) ∧
      ∀ k, k ∈ del ↔ ∃ id, c.ids[k]? = some id ∧ id ∈ q) := by
  have hmem : ∀ k, k ∈ ((List.range c.ids.length).filter fun i => c.ids.getD i 0 ∈ q) ↔
      ∃ id, c.ids[k]? = some id ∧ id ∈ q := by
    intro k
    rw [List.mem_filter, List.mem_range, decide_eq_true_eq]
    constructor
    · rintro ⟨h1, h2⟩
      rw [List.getD_eq_getElem _ _ h1] at h2
      exact ⟨_, List.getElem?_eq_getElem h1, h2⟩
    · rintro ⟨id, h1, h2⟩
      have hlt : k < c.ids.length := by
        by_contra hh
        rw [List.getElem?_eq_none (by omega)] at h1; cases h1
      rw [List.getElem?_eq_getElem hlt] at h1
      injection h1 with h1
      rw [List.getD_eq_getElem _ _ hlt, h1]
      exact ⟨hlt, h2⟩
  have hidx : indicesOfIDs c q = .ok ⟨(List.range c.ids.length).filter fun i => c.ids.getD i 0 ∈ q, false⟩ := by
    unfold indicesOfIDs; rw [hs]; rfl
  refine ⟨⟨(List.range c.ids.length).filter fun i => c.ids.getD i 0 ∈ q, ?_, List.pairwise_lt_range.filter _, hmem⟩, ?_⟩
  · unfold getMulti
    rw [if_neg hq, hidx]
    simp
  · have hlt : ∀ k ∈ (List.range c.ids.length).filter fun i => c.ids.getD i 0 ∈ q, k < c.ids.length := by
      intro k hk
      rw [List.mem_filter, List.mem_range] at hk; exact hk.1
    unfold removeByIDs
    rw [if_neg hq, hidx]
    simp only [Bool.false_eq_true, if_false]
    unfold removeMulti
    rw [mapM_nat _ hlt]
    exact ⟨_, _, rfl, rows_delete c ha.2 _ _ _, hmem⟩

example : getMulti exUnsorted [5, 2, 9] = .ok [3, 4] := by decide

/-- C17, partial: one ID in a sorted set. -/
theorem C17_single_lookup_partial (c : Coll V) (hs : c.sorted = true) (hids : c.ids.Pairwise (· < ·))
    (id : ℤ) (h : id ∈ c.ids) : ∃ k, getMulti c [id] = .ok [k] ∧ c.ids[k]? = some id := by
  have hf : FlagOK c := fun _ => hids.imp (fun h => le_of_lt h)
  obtain ⟨k, hk⟩ := indexOfID_found hf h
  have h2 := indexOfID_ok hf hk
  refine ⟨k, ?_, h2.1⟩
  unfold indexOfID at hk
  rw [if_pos hs] at hk
  simp only at hk
  split at hk
  · cases hk
  · rename_i hne
    injection hk with hk
    have e1 : npSort [id] = [id] := by simp [npSort]
    have e2 : slice c.ids 0 c.ids.length = c.ids := by simp [slice]
    unfold getMulti indicesOfIDs
    rw [if_neg (by simp), if_pos hs, e1]
    simp only [recLookup, e2]
    simp only [List.length_singleton, Nat.reduceDiv, List.getElem?_cons_zero, if_true]
    rw [if_neg hne]
    simp [hk]

end Parcels.Collection
