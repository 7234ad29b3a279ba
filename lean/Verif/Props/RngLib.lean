import Verif.Proofs.RngLib

/-!
C124: the library of random numbers.
-/

namespace Parcels.RngLib

/-- C124: after the import, and after any calls that load, unload, compile or use the library, random functions work: the library is loaded. Partial: unless the
files were removed (`C124_removed_fails`). -/
theorem C124_use_partial (h : List Op) (hr : .remove ∉ h) : ∃ s s', run h = some s ∧ use s = some s' ∧ s'.handle = true ∧ s'.loaded = true ∧ s'.files.lib = true := by
  obtain ⟨s, e, hf⟩ := run_files h hr
  obtain ⟨h1, h2, -⟩ := run_inv h s e
  refine ⟨s, ?_⟩
  obtain ⟨f, n, hd, l⟩ := s
  simp only at hf h1 h2
  subst hf
  subst h1
  subst h2
  cases l
  · exact ⟨_, e, rfl, rfl, rfl, rfl⟩
  · exact ⟨_, e, rfl, rfl, rfl, rfl⟩

/-- C124: no sequence of calls leaves some of the files: there are all three, or none. -/
theorem C124_files (h : List Op) (s : State) (e : run h = some s) : s.files = ⟨true, true, true⟩ ∨ s.files = ⟨false, false, false⟩ :=
  (run_inv h s e).2.2

/-- C124: after any calls, also `remove_lib`, the functions find the library, unless it is neither loaded nor there as a file; a library that is loaded is used as
it is. -/
theorem C124_found (h : List Op) (s : State) (e : run h = some s) :
    (use s = none ↔ s.loaded = false ∧ s.files.lib = false) ∧ (s.loaded = true → use s = some s) := by
  obtain ⟨h1, h2, -⟩ := run_inv h s e
  obtain ⟨⟨a, b, c⟩, n, hd, l⟩ := s
  simp only at h1 h2
  subst h1
  subst h2
  cases l <;> cases b <;> simp [use, load]

/-- C124 is false for the end of the object: `__del__` unloads the library, and `remove_lib` removes files of a loaded library only. So the three files stay in the
cache directory, after every sequence of calls without `remove_lib`: one set of files for each time parcels is imported. -/
theorem C124_left_fails (h : List Op) (hr : .remove ∉ h) : ∃ s s', run h = some s ∧ del s = some s' ∧ s'.files = ⟨true, true, true⟩ := by
  obtain ⟨s, e, hf⟩ := run_files h hr
  obtain ⟨h1, h2, -⟩ := run_inv h s e
  refine ⟨s, ?_⟩
  obtain ⟨f, n, hd, l⟩ := s
  simp only at hf h1 h2
  subst hf
  subst h1
  subst h2
  cases l
  · exact ⟨_, e, rfl, rfl⟩
  · exact ⟨_, e, rfl, rfl⟩

/-- C124 is false after `remove_lib` and `unload_lib`: the names of the files are still set, so the property `lib` does not compile again, and the removed
library cannot be loaded. -/
theorem C124_removed_fails : (run [.use, .remove, .unload]).isSome = true ∧ run [.use, .remove, .unload, .use] = none := by
  decide +kernel

example : run [.use, .unload, .use, .compile, .unload] = some ⟨⟨true, true, true⟩, true, false, false⟩ ∧
    (run [.use, .unload, .use, .compile, .unload, .use]).map (·.loaded) = some true ∧
    (run [.use, .remove]).map (·.files) = some ⟨false, false, false⟩ ∧ (run [.remove, .unload, .compile, .use]).map (·.loaded) = some true := by
  decide +kernel

end Parcels.RngLib
