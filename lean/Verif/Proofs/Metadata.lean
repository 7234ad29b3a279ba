import Verif.Spec.Metadata

/-!
Lemmas for C130.
-/

namespace Parcels.Metadata

theorem run_snoc (a b : String) (h : List Op) (op : Op) : run a b (h ++ [op]) = (step a b (run a b h) op).1 := by
  simp [run, List.foldl_append]

/-- Without an export there is no dataset, and the metadata are the last messages. -/
theorem run_messages (a b : String) (h : List Op) (hx : .export ∉ h) :
    (run a b h).dataset = false ∧ (∀ n v, Last h n v → (run a b h).metadata n = some v) ∧ ∀ n, Never h n → (run a b h).metadata n = none := by
  induction h using List.reverseRecOn with
  | nil =>
    refine ⟨rfl, ?_, fun n _ => rfl⟩
    rintro n v ⟨h1, h2, e, -⟩
    simp at e
  | append_singleton h op ih =>
    obtain ⟨i1, i2, i3⟩ := ih (fun q => hx (by simp [q]))
    rw [run_snoc]
    have lastOf : ∀ n v, Last (h ++ [op]) n v → op = .add n v ∨ (Last h n v ∧ ∀ w, op ≠ .add n w) := by
      rintro n v ⟨h1, h2, e, hn⟩
      rcases List.eq_nil_or_concat h2 with rfl | ⟨h3, x, rfl⟩
      · left
        have := List.append_inj_right' e rfl
        simpa using this
      · right
        simp only [List.concat_eq_append] at e hn
        rw [← List.cons_append, ← List.append_assoc] at e
        have e1 := List.append_inj_right' e rfl
        have e2 := List.append_inj_left' e rfl
        simp only [List.cons.injEq, and_true] at e1
        subst e1
        refine ⟨⟨h1, h3, e2, fun w hw => hn w (by simp [hw])⟩, fun w hw => hn w (by simp [hw])⟩
    cases op with
    | add m u =>
      simp only [step, i1, Bool.false_eq_true, if_false]
      refine ⟨trivial, ?_, ?_⟩
      · intro n v hl
        rcases lastOf n v hl with e | ⟨hl, hw⟩
        · injection e with e1 e2
          simp [set, e1, e2]
        · have : n ≠ m := by rintro rfl; exact hw u rfl
          simp [set, this, i2 n v hl]
      · intro n hn
        have : n ≠ m := by rintro rfl; exact hn u (by simp)
        simp [set, this]
        exact i3 n (fun v hv => hn v (by simp [hv]))
    | write =>
      simp only [step]
      refine ⟨i1, ?_, ?_⟩
      · intro n v hl
        rcases lastOf n v hl with e | ⟨hl, -⟩
        · cases e
        · exact i2 n v hl
      · intro n hn
        exact i3 n (fun v hv => hn v (by simp [hv]))
    | «export» => exact absurd (by simp) hx

theorem run_saved (a b : String) (h : List Op) (hx : .export ∉ h) (h2 : List Op) (h2x : .export ∉ h2) (h2w : .write ∉ h2) :
    (run a b (h ++ .write :: h2)).saved = some (run a b h).metadata := by
  induction h2 using List.reverseRecOn with
  | nil => rw [run_snoc]; rfl
  | append_singleton h2 op ih =>
    rw [← List.cons_append, ← List.append_assoc, run_snoc]
    have := ih (fun q => h2x (by simp [q])) (fun q => h2w (by simp [q]))
    cases op with
    | add n v =>
      simp only [step]
      split <;> exact this
    | write => exact absurd (by simp) h2w
    | «export» => exact absurd (by simp) h2x

theorem saved_some (a b : String) (h : List Op) (hw : .write ∈ h) : (run a b h).saved.isSome = true := by
  induction h using List.reverseRecOn with
  | nil => simp at hw
  | append_singleton h op ih =>
    rw [run_snoc]
    cases op with
    | write => rfl
    | add n v =>
      have := ih (by simpa using hw)
      simp only [step]
      split <;> exact this
    | «export» =>
      have := ih (by simpa using hw)
      simp only [step]
      split <;> exact this

theorem attributes_last (a b : String) (d : Dict) (n v : String) (h : d n = some v) : attributes a b d n = some v := by simp [attributes, h]

theorem attributes_never (a b : String) (d : Dict) (n : String) (h : d n = none) : attributes a b d n = standard a b n := by simp [attributes, h]

end Parcels.Metadata
