import Verif.Model.RepeatRelease

/-!
C59: repeated releases start from the original positions. False: the first execution pass of the
first release is included.
-/

namespace Parcels.RepeatRelease

/-- Once the particle data live in another array, the remembered positions are fixed. -/
theorem fixed_after_copy {V : Type} (p : List V) (ops : List (Op V)) : ∀ (s : St V),
    s.rep < s.store.length → s.rep < s.data → s.data < s.store.length → s.get s.rep = p →
    (ops.foldl step s).released = s.released ++ List.replicate (ops.filter isRelease).length p := by
  induction ops with
  | nil => intro s _ _ _ _; simp
  | cons o ops ih =>
    intro s h1 h2 h3 h4
    have hne : s.data ≠ s.rep := by omega
    cases o with
    | pass f =>
      rw [List.foldl_cons, ih (step s (.pass f))]
      · simp [step, isRelease]
      · simpa [step] using h1
      · exact h2
      · simpa [step] using h3
      · simp only [St.get, step, List.getD_eq_getElem?_getD] at h4 ⊢
        rw [List.getElem?_set_ne hne]; exact h4
    | remove f =>
      rw [List.foldl_cons, ih (step s (.remove f))]
      · simp [step, isRelease]
      · simp [step]; omega
      · simpa [step] using h1
      · simp [step]
      · simp only [St.get, step, List.getD_eq_getElem?_getD] at h4 ⊢
        rw [List.getElem?_append_left h1]; exact h4
    | release =>
      rw [List.foldl_cons, ih (step s .release)]
      · rw [List.filter_cons_of_pos (by rfl), List.length_cons, List.replicate_succ]
        simp [step, h4]
      · simp [step]; omega
      · simpa [step] using h1
      · simp [step]
      · simp only [St.get, step, List.getD_eq_getElem?_getD] at h4 ⊢
        rw [List.getElem?_append_left h1]; exact h4

/-- C59, what actually happens: whatever happens later, every repeated release starts from the
positions that the particles of the first release have after the first kernel pass, not from the
positions given at construction. -/
theorem C59_releases_start_after_first_pass {V : Type} (lon : List V) (f g : List V → List V)
    (rest : List (Op V)) :
    (run lon (.pass f :: .remove g :: rest)).released =
      List.replicate (rest.filter isRelease).length (f lon) := by
  unfold run
  rw [List.foldl_cons, List.foldl_cons, fixed_after_copy (f lon) rest]
  · simp [step, construct]
  · simp [step, construct]
  · simp [step, construct]
  · simp [step, construct]
  · simp [step, construct, St.get]

/-- C59 is false: a kernel that moves particles by 1 per pass, one pass and one release: the batch
released by `repeatdt` starts at 1, not at the given position 0. -/
theorem C59_release_positions_wrong :
    ∃ (lon : List ℚ) (ops : List (Op ℚ)), (run lon ops).released ≠ [] ∧
      ∀ b ∈ (run lon ops).released, b ≠ lon := by
  refine ⟨[0], [.pass (List.map (· + 1)), .remove id, .release], ?_, ?_⟩
  · rw [C59_releases_start_after_first_pass]; simp [isRelease]
  · rw [C59_releases_start_after_first_pass]; simp [isRelease]

/-- C59 holds when the first pass leaves the positions alone (for instance when execute is first
called with a kernel that does not move particles). -/
theorem C59_original_positions_partial {V : Type} (lon : List V) (f g : List V → List V)
    (rest : List (Op V)) (hf : f lon = lon) :
    ∀ b ∈ (run lon (.pass f :: .remove g :: rest)).released, b = lon := by
  rw [C59_releases_start_after_first_pass, hf]
  intro b hb
  exact List.eq_of_mem_replicate hb

/-- C59: after every run, a further release keeps all particles that are in the set and appends exactly the batch it
released. -/
theorem C59_release_keeps_the_others {V : Type} (lon : List V) (ops : List (Op V)) :
    (run lon (ops ++ [.release])).get (run lon (ops ++ [.release])).data =
      (run lon ops).get (run lon ops).data ++ ((run lon (ops ++ [.release])).released.getLastD []) := by
  have e : run lon (ops ++ [.release]) = step (run lon ops) .release := by
    unfold run; rw [List.foldl_append]; rfl
  rw [e]
  simp [step, St.get]

/-- A run in which the hypothesis of the partial theorem holds and releases happen. -/
example : (run [(3 : ℚ), 5] (.pass id :: .remove id :: [.pass (List.map (· + 1)), .release,
    .remove (List.drop 1), .release])).released = [[3, 5], [3, 5]] := by decide +kernel

end Parcels.RepeatRelease
