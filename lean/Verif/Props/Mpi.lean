import Verif.Props.Collection

/-!
C23: distribution of the particles over MPI ranks.
-/

namespace Parcels.Collection

/-- The valid partition vectors: a rank from 0 to size-1 for each particle. -/
def ValidPartition (pu : List ℤ) (n size : Nat) : Prop :=
  pu.length = n ∧ ∀ r ∈ pu, 0 ≤ r ∧ r < size

theorem select_cons {α : Type} (r : ℤ) (pu : List ℤ) (rank : ℤ) (a : α) (l : List α) :
    select (r :: pu) rank (a :: l) = if r = rank then a :: select pu rank l else select pu rank l := by
  unfold select
  rw [List.zip_cons_cons]
  by_cases h : r = rank
  · rw [List.filter_cons_of_pos (by simpa using h), if_pos h]; rfl
  · rw [List.filter_cons_of_neg (by simpa using h), if_neg h]

theorem flatMap_update {α : Type} (f g : Nat → List α) (a : α) (r : Nat) : ∀ (size : Nat), r < size →
    (g r = a :: f r) → (∀ i, i ≠ r → g i = f i) →
    ((List.range size).flatMap g).Perm (a :: (List.range size).flatMap f) := by
  intro size
  induction size with
  | zero => intro h; omega
  | succ n ih =>
    intro hr hg hne
    rw [List.range_succ, List.flatMap_append, List.flatMap_append]
    simp only [List.flatMap_cons, List.flatMap_nil, List.append_nil]
    by_cases h : r = n
    · subst h
      rw [hg]
      have : (List.range r).flatMap g = (List.range r).flatMap f := by
        apply List.flatMap_congr
        intro i hi
        exact hne i (by have := List.mem_range.mp hi; omega)
      rw [this]
      exact List.perm_middle
    · rw [hne n (by omega)]
      exact (ih (by omega) hg hne).append_right _

theorem select_partition {α : Type} (size : Nat) : ∀ (l : List α) (pu : List ℤ),
    pu.length = l.length → (∀ r ∈ pu, 0 ≤ r ∧ r < size) →
    ((List.range size).flatMap fun (rank : Nat) => select pu (rank : ℤ) l).Perm l := by
  intro l
  induction l with
  | nil =>
    intro pu _ _
    have : ((List.range size).flatMap fun (rank : Nat) => select pu (rank : ℤ) ([] : List α)) = [] := by
      rw [List.flatMap_eq_nil_iff]; intro i _; simp [select]
    rw [this]
  | cons a l ih =>
    intro pu hl hb
    cases pu with
    | nil => simp at hl
    | cons r pu =>
      obtain ⟨h0, h1⟩ := hb r (by simp)
      have hr : (r.toNat : ℤ) = r := Int.toNat_of_nonneg h0
      refine (flatMap_update (fun (rank : Nat) => select pu (rank : ℤ) l) _ a r.toNat size (by omega) ?_ ?_).trans
        ((ih pu (by simpa using hl) (fun x hx => hb x (by simp [hx]))).cons a)
      · rw [select_cons, if_pos (by omega)]
      · intro i hi
        rw [select_cons, if_neg (by omega)]

/-- C23: for every number of ranks, every valid partition and at least as many particles as ranks,
construction succeeds on every rank, the particles on all ranks together are those of the serial run with
the same IDs (each exactly as often, so each on exactly one rank), every per-particle array is
split in the same way, and all ranks continue with the same counter as the serial run. -/
theorem C23_ranks_partition_the_particles (last : ℤ) (pidOrig pu : List ℤ) (size : Nat) (hsize : 1 < size)
    (hn : size ≤ pidOrig.length) (hp : ValidPartition pu pidOrig.length size) :
    (∃ parts : Nat → List ℤ,
      (∀ (rank : Nat), constructRank last pidOrig pu size rank =
        .ok (parts rank, (construct (V := Unit) last pidOrig []).2)) ∧
      ((List.range size).flatMap parts).Perm (construct (V := Unit) last pidOrig []).1.ids) ∧
    (∀ {α : Type} (l : List α), l.length = pidOrig.length →
      ((List.range size).flatMap fun (rank : Nat) => select pu (rank : ℤ) l).Perm l ∧
      ∀ (rank : ℤ), select pu rank ((pidOrig.map (· + last)).zip l) =
        (select pu rank (pidOrig.map (· + last))).zip (select pu rank l)) := by
  refine ⟨⟨fun rank => select pu (rank : ℤ) (pidOrig.map (· + last)), ?_, ?_⟩, ?_⟩
  · intro rank
    unfold constructRank
    have hmax : ¬ maxOr pu ≥ (size : ℤ) := by
      have key : ∀ (l : List ℤ) (b : ℤ), b < size → (∀ x ∈ l, x < (size : ℤ)) → l.foldl max b < size := by
        intro l
        induction l with
        | nil => intro b hb _; exact hb
        | cons c l ih =>
          intro b hb h
          rw [List.foldl_cons]
          exact ih _ (max_lt hb (h c (by simp))) (fun x hx => h x (by simp [hx]))
      cases pu with
      | nil => simp only [maxOr]; omega
      | cons b l =>
        have := key l b (hp.2 b (by simp)).2 (fun x hx => (hp.2 x (by simp [hx])).2)
        simp only [maxOr]; omega
    have h1 : ¬ ((pidOrig.map (· + last)).length < size ∧ 1 < size) := by simp; omega
    have h2 : ¬ pu.length ≠ (pidOrig.map (· + last)).length := by simp [hp.1]
    simp only [if_neg h1, if_neg h2, if_neg hmax, if_pos hsize]
    rfl
  · exact select_partition size _ pu (by simp [hp.1]) hp.2
  · intro α l hl
    refine ⟨select_partition size l pu (by rw [hp.1, hl]) hp.2, ?_⟩
    intro rank
    have key : ∀ (a : List ℤ) (l : List α) (pu : List ℤ), a.length = l.length → pu.length = l.length →
        select pu rank (a.zip l) = (select pu rank a).zip (select pu rank l) := by
      intro a
      induction a with
      | nil => intro l pu _ _; simp [select]
      | cons x a ih =>
        intro l pu h1 h2
        cases l with
        | nil => simp at h1
        | cons y l =>
          cases pu with
          | nil => simp at h2
          | cons r pu =>
            rw [List.zip_cons_cons, select_cons, select_cons, select_cons]
            by_cases h : r = rank
            · rw [if_pos h, if_pos h, if_pos h, List.zip_cons_cons, ih l pu (by simpa using h1) (by simpa using h2)]
            · rw [if_neg h, if_neg h, if_neg h, ih l pu (by simpa using h1) (by simpa using h2)]
    exact key _ l pu (by simp [hl]) (by rw [hp.1, hl])

/-- Five particles on three ranks. -/
example : ValidPartition [2, 0, 1, 0, 2] 5 3 ∧
    constructRank 7 (arange 5) [2, 0, 1, 0, 2] 3 0 = .ok ([8, 10], 12) ∧
    constructRank 7 (arange 5) [2, 0, 1, 0, 2] 3 1 = .ok ([9], 12) ∧
    constructRank 7 (arange 5) [2, 0, 1, 0, 2] 3 2 = .ok ([7, 11], 12) :=
  ⟨⟨by decide, by decide⟩, by decide, by decide, by decide⟩

/-- C23 is false for partition vectors with negative entries: only values that are too large are rejected,
and a particle with partition -1 is on no rank at all. -/
theorem C23_negative_partition_loses_particle :
    constructRank 0 (arange 3) [0, -1, 1] 2 0 = .ok ([0], 3) ∧
    constructRank 0 (arange 3) [0, -1, 1] 2 1 = .ok ([2], 3) := by decide

/-- C23, repeated release: when it succeeds on every rank, the new particles of all ranks have the IDs of
the serial run: the original IDs shifted by the counter, each once. -/
theorem C23_repeated_release (last : ℤ) (pidOrig pu : List ℤ) (size : Nat)
    (hp : ValidPartition pu pidOrig.length size) (allMax : ℤ) (parts : Nat → List ℤ)
    (hok : ∀ rank < size, constructRepeat last (select pu (rank : ℤ) pidOrig) size allMax =
      .ok (parts rank, allMax + 1)) :
    ((List.range size).flatMap parts).Perm (construct (V := Unit) last pidOrig []).1.ids := by
  have h1 : (List.range size).flatMap parts =
      (List.range size).flatMap fun (rank : Nat) => (select pu (rank : ℤ) pidOrig).map (· + last) := by
    apply List.flatMap_congr
    intro r hr
    have := hok r (List.mem_range.mp hr)
    unfold constructRepeat at this
    simp only at this
    split at this
    · cases this
    · injection this with this
      injection this with this _
      exact this.symm
  rw [h1]
  have h2 := (select_partition size pidOrig pu hp.1 hp.2).map (· + last)
  rw [List.map_flatMap] at h2
  exact h2

example : constructRepeat 4 (select [0, 1, 1, 0] 0 (arange 4)) 2 7 = .ok ([4, 7], 8) ∧
    constructRepeat 4 (select [0, 1, 1, 0] 1 (arange 4)) 2 7 = .ok ([5, 6], 8) := by decide

/-- C23 is false for repeated releases when a rank has fewer particles than there are ranks: the initial
release works on both ranks, the first repeated release raises RuntimeError on rank 1. -/
theorem C23_repeated_release_raises :
    constructRank 0 (arange 3) [0, 0, 1] 2 0 = .ok ([0, 1], 3) ∧
    constructRank 0 (arange 3) [0, 0, 1] 2 1 = .ok ([2], 3) ∧
    constructRepeat 3 (select [0, 0, 1] 1 (arange 3)) 2 5 = .error .runtimeError := by decide

end Parcels.Collection
