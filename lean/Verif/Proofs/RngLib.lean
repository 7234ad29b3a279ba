import Verif.Model.RngLib

/-! Lemmas for C124. -/

namespace Parcels.RngLib

theorem run_snoc (h : List Op) (op : Op) : run (h ++ [op]) = (run h).bind fun s => step s op := by
  unfold run
  rw [List.foldl_append]
  rfl

/-- What holds after every sequence of calls: the names are set, `_loaded` agrees with `_lib`, and the files are all there or all removed. -/
def Inv (s : State) : Prop := s.named = true ∧ s.loaded = s.handle ∧ (s.files = ⟨true, true, true⟩ ∨ s.files = ⟨false, false, false⟩)

theorem step_inv (s s' : State) (op : Op) (hi : Inv s) (h : step s op = some s') : Inv s' := by
  obtain ⟨⟨a, b, c⟩, n, hd, l⟩ := s
  obtain ⟨h1, h2, h3⟩ := hi
  simp only at h1 h2 h3
  subst h1
  subst h2
  rcases h3 with h3 | h3 <;> (injection h3 with h3 h4 h5; subst h3; subst h4; subst h5) <;> cases op <;> cases l <;>
    simp [step, compile, load, unload, remove, use] at h <;> subst h <;> simp [Inv]

theorem run_inv (h : List Op) (s : State) (e : run h = some s) : Inv s := by
  induction h using List.reverseRecOn generalizing s with
  | nil =>
    have : run [] = some ⟨⟨true, true, true⟩, true, true, true⟩ := by decide +kernel
    rw [this] at e
    injection e with e
    subst e
    simp [Inv]
  | append_singleton h op ih =>
    rw [run_snoc, Option.bind_eq_some_iff] at e
    obtain ⟨s0, e0, e1⟩ := e
    exact step_inv s0 s op (ih s0 e0) e1

/-- Without removal all files stay. -/
theorem run_files (h : List Op) (hr : .remove ∉ h) : ∃ s, run h = some s ∧ s.files = ⟨true, true, true⟩ := by
  induction h using List.reverseRecOn with
  | nil => exact ⟨⟨⟨true, true, true⟩, true, true, true⟩, by decide +kernel, rfl⟩
  | append_singleton h op ih =>
    obtain ⟨s, e, hf⟩ := ih fun q => hr (by simp [q])
    obtain ⟨h1, h2, -⟩ := run_inv h s e
    rw [run_snoc, e]
    simp only [Option.bind_some]
    obtain ⟨f, n, hd, l⟩ := s
    simp only at hf h1 h2
    subst hf
    subst h1
    subst h2
    cases op with
    | remove => exact absurd (by simp) hr
    | _ => cases l <;> simp [step, compile, load, unload, use]

end Parcels.RngLib
