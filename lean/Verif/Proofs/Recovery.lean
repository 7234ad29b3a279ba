import Verif.Model.Recovery
import Verif.Proofs.KernelLoop2
import Mathlib.Data.List.Perm.Basic

namespace Parcels.Recovery

open Parcels.KernelLoop

variable {W V : Type}

theorem pass_length (K : Kern W V) (E dt : ℚ) (fuel : Nat) (ps : List (Particle V)) (w w' : W)
    (b b' : Option (Particle V)) (rs) (h : pass K E dt fuel w b ps = some (w', b', rs)) :
    ps.length = rs.length :=
  (pass_forall₂ K E dt fuel (fun _ _ => True) (fun _ _ _ _ _ => trivial) ps w b w' b' rs h).length_eq

theorem zipWith_fst {α β γ : Type} (f : β → γ) :
    ∀ (ps : List (Nat × α)) (rs : List β), ps.length = rs.length →
      (List.zipWith (fun a r => (a.1, f r)) ps rs).map Prod.fst = ps.map Prod.fst := by
  intro ps
  induction ps with
  | nil => intro rs h; simp
  | cons p ps ih =>
    intro rs h
    cases rs with
    | nil => simp at h
    | cons r rs => simp at h; simp [ih rs h]

theorem runPass_tags (K : Kern W V) (E dt : ℚ) (fuel : Nat) (w w' : W) (ps ps' : List (TP V)) (cs)
    (h : runPass K E dt fuel w ps = some (w', ps', cs)) :
    ps'.map Prod.fst = ps.map Prod.fst ∧ cs.map Prod.fst = ps.map Prod.fst := by
  unfold runPass at h
  split at h
  · cases h
  · rename_i w1 b1 rs h1
    cases h
    have hl := pass_length K E dt fuel _ _ _ _ _ _ h1
    rw [List.length_map] at hl
    exact ⟨zipWith_fst _ ps rs hl, zipWith_fst _ ps rs hl⟩

theorem handleAll_tags (rm : RMap W V) : ∀ (ps : List (TP V)) (w w' : W) (ps' : List (TP V)),
    handleAll rm w ps = .done w' ps' → ps'.map Prod.fst = ps.map Prod.fst := by
  intro ps
  induction ps with
  | nil => intro w w' ps' h; simp [handleAll] at h; simp [h.2]
  | cons p ps ih =>
    intro w w' ps' h
    rw [handleAll] at h
    split at h
    · split at h
      · cases h
      · cases h
      · split at h
        · rename_i h2; cases h; simp [ih _ _ _ h2]
        · rename_i h1 h2
          exact absurd h (h2 _ _)
    · split at h
      · rename_i h2; cases h; simp [ih _ _ _ h2]
      · rename_i h1 h2
        exact absurd h (h2 _ _)

theorem kept_dropped_perm (ps : List (TP V)) : (kept ps ++ dropped ps).Perm ps := by
  have := List.filter_append_perm (fun p : TP V => decide (p.2.state ≠ .delete)) ps
  refine List.Perm.trans ?_ this
  unfold kept dropped
  apply List.Perm.append_left
  have e : (fun p : TP V => decide (p.2.state = .delete)) =
      (fun p : TP V => !decide (p.2.state ≠ .delete)) := by
    funext p; by_cases h : p.2.state = .delete <;> simp [h]
  rw [e]

theorem kept_sublist (ps : List (TP V)) : (kept ps).Sublist ps := List.filter_sublist

theorem dropped_delete (ps : List (TP V)) : ∀ p ∈ dropped ps, p.2.state = .delete := by
  intro p hp
  unfold dropped at hp
  simpa using (List.mem_filter.mp hp).2

theorem kept_not_delete (ps : List (TP V)) : ∀ p ∈ kept ps, p.2.state ≠ .delete := by
  intro p hp
  unfold kept at hp
  simpa using (List.mem_filter.mp hp).2

/-- Facts about the recovery loop started on `ps` with `removed` already removed. -/
theorem rounds_spec (K : Kern W V) (rm : RMap W V) (E dt : ℚ) (fuel : Nat) :
    ∀ (n : Nat) (w : W) (ps removed : List (TP V)) (calls) (r : Result V),
      rounds K rm E dt fuel n w ps removed calls = some r →
      (∀ p ∈ removed, p.2.state = .delete) →
      (r.ending = .normal → ∀ p ∈ r.ps, p.2.state = .success ∨ p.2.state = .evaluate) ∧
      (∀ p ∈ r.removed, p.2.state = .delete) ∧
      (r.ps.map Prod.fst).Sublist (ps.map Prod.fst) ∧
      (r.ps.map Prod.fst ++ r.removed.map Prod.fst).Perm (ps.map Prod.fst ++ removed.map Prod.fst) := by
  intro n
  induction n with
  | zero => intro w ps removed calls r h; simp [rounds] at h
  | succ n ih =>
    intro w ps removed calls r h hrem
    rw [rounds] at h
    split at h
    · split at h
      · cases h; exact ⟨(by intro h; cases h), hrem, List.Sublist.refl _, List.Perm.refl _⟩
      · cases h; exact ⟨(by intro h; cases h), hrem, List.Sublist.refl _, List.Perm.refl _⟩
      · rename_i w1 ps1 h1
        split at h
        · cases h
        · rename_i w2 ps2 cs h2
          have ht := (runPass_tags K E dt fuel _ _ _ _ _ h2).1
          have ht1 := handleAll_tags rm ps w w1 ps1 h1
          obtain ⟨a1, a2, a3, a4⟩ := ih w2 ps2 (removed ++ dropped ps1) _ r h (by
            intro p hp
            rcases List.mem_append.mp hp with h | h
            · exact hrem p h
            · exact dropped_delete ps1 p h)
          refine ⟨a1, a2, ?_, ?_⟩
          · rw [ht] at a3
            rw [← ht1]
            exact a3.trans ((kept_sublist ps1).map _)
          · refine a4.trans ?_
            rw [ht, ← ht1, List.map_append]
            have := ((kept_dropped_perm ps1).map Prod.fst)
            rw [List.map_append] at this
            refine List.Perm.trans ?_ (this.append_right _)
            rw [List.append_assoc]
            exact List.Perm.append_left _ List.perm_append_comm
    · rename_i hne
      cases h
      refine ⟨fun _ p hp => ?_, hrem, List.Sublist.refl _, List.Perm.refl _⟩
      simp only [List.any_eq_true, decide_eq_true_eq, not_exists, not_and] at hne
      have := hne p hp
      unfold isError at this
      by_cases h1 : p.2.state = .success
      · exact Or.inl h1
      · right
        by_contra h2
        exact this ⟨h1, h2⟩

theorem handleAll_forall₂ (rm : RMap W V) : ∀ (ps : List (TP V)) (w w' : W) (ps' : List (TP V)),
    handleAll rm w ps = .done w' ps' →
    List.Forall₂ (fun p p' => p'.1 = p.1 ∧
      (¬ isError p.2 → p'.2 = p.2) ∧
      (isError p.2 → ∃ v v', handleOne rm v p.2 = .cont v' p'.2)) ps ps' := by
  intro ps
  induction ps with
  | nil => intro w w' ps' h; simp [handleAll] at h; rw [h.2]; exact List.Forall₂.nil
  | cons p ps ih =>
    intro w w' ps' h
    rw [handleAll] at h
    split at h
    · rename_i herr
      split at h
      · cases h
      · cases h
      · rename_i v' p1 hp1
        split at h
        · rename_i h2
          cases h
          exact List.Forall₂.cons ⟨rfl, fun h => absurd herr h, fun _ => ⟨_, _, hp1⟩⟩ (ih _ _ _ h2)
        · rename_i h1 h2
          exact absurd h (h2 _ _)
    · rename_i herr
      split at h
      · rename_i h2; cases h
        exact List.Forall₂.cons ⟨rfl, fun _ => rfl, fun h => absurd h herr⟩ (ih _ _ _ h2)
      · rename_i h1 h2
        exact absurd h (h2 _ _)

end Parcels.Recovery
