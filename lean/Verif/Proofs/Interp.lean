import Verif.Model.Interp
import Verif.Proofs.Search
import Mathlib.Tactic.Linarith
import Mathlib.Tactic.Ring
import Mathlib.Tactic.LinearCombination
import Mathlib.Tactic.Positivity
import Mathlib.Tactic.FieldSimp

/-!
Lemmas for C29-C31.
-/

namespace Parcels.Interp
open Parcels.Search

theorem bilin_le {xsi eta M : ℚ} {c : Cell2} (x0 : 0 ≤ xsi) (x1 : xsi ≤ 1) (e0 : 0 ≤ eta) (e1 : eta ≤ 1)
    (h : ∀ j i, j ≤ 1 → i ≤ 1 → c j i ≤ M) : bilin xsi eta c ≤ M := by
  have a1 : 0 ≤ (1 - xsi) * (1 - eta) := mul_nonneg (by linarith) (by linarith)
  have a2 : 0 ≤ xsi * (1 - eta) := mul_nonneg x0 (by linarith)
  have a3 : 0 ≤ xsi * eta := mul_nonneg x0 e0
  have a4 : 0 ≤ (1 - xsi) * eta := mul_nonneg (by linarith) e0
  have b1 := mul_le_mul_of_nonneg_left (h 0 0 (by omega) (by omega)) a1
  have b2 := mul_le_mul_of_nonneg_left (h 0 1 (by omega) (by omega)) a2
  have b3 := mul_le_mul_of_nonneg_left (h 1 1 (by omega) (by omega)) a3
  have b4 := mul_le_mul_of_nonneg_left (h 1 0 (by omega) (by omega)) a4
  have e : M = (1 - xsi) * (1 - eta) * M + xsi * (1 - eta) * M + xsi * eta * M + (1 - xsi) * eta * M := by ring
  unfold bilin
  linarith

theorem bilin_ge {xsi eta M : ℚ} {c : Cell2} (x0 : 0 ≤ xsi) (x1 : xsi ≤ 1) (e0 : 0 ≤ eta) (e1 : eta ≤ 1)
    (h : ∀ j i, j ≤ 1 → i ≤ 1 → M ≤ c j i) : M ≤ bilin xsi eta c := by
  have := bilin_le (M := -M) (c := fun j i => - c j i) x0 x1 e0 e1 (fun j i hj hi => by
    have := h j i hj hi; linarith)
  unfold bilin at *
  linarith

theorem trilin_le {xsi eta zeta M : ℚ} {c : Cell3} (x0 : 0 ≤ xsi) (x1 : xsi ≤ 1) (e0 : 0 ≤ eta) (e1 : eta ≤ 1)
    (z0 : 0 ≤ zeta) (z1 : zeta ≤ 1)
    (h : ∀ k j i, k ≤ 1 → j ≤ 1 → i ≤ 1 → c k j i ≤ M) : trilin xsi eta zeta c ≤ M := by
  have b0 := bilin_le (c := c 0) x0 x1 e0 e1 (fun j i hj hi => h 0 j i (by omega) hj hi)
  have b1 := bilin_le (c := c 1) x0 x1 e0 e1 (fun j i hj hi => h 1 j i (by omega) hj hi)
  unfold trilin
  have := mul_le_mul_of_nonneg_left b0 (show 0 ≤ 1 - zeta by linarith)
  have := mul_le_mul_of_nonneg_left b1 z0
  nlinarith

theorem trilin_ge {xsi eta zeta M : ℚ} {c : Cell3} (x0 : 0 ≤ xsi) (x1 : xsi ≤ 1) (e0 : 0 ≤ eta) (e1 : eta ≤ 1)
    (z0 : 0 ≤ zeta) (z1 : zeta ≤ 1)
    (h : ∀ k j i, k ≤ 1 → j ≤ 1 → i ≤ 1 → M ≤ c k j i) : M ≤ trilin xsi eta zeta c := by
  have b0 := bilin_ge (c := c 0) x0 x1 e0 e1 (fun j i hj hi => h 0 j i (by omega) hj hi)
  have b1 := bilin_ge (c := c 1) x0 x1 e0 e1 (fun j i hj hi => h 1 j i (by omega) hj hi)
  unfold trilin
  have := mul_le_mul_of_nonneg_left b0 (show 0 ≤ 1 - zeta by linarith)
  have := mul_le_mul_of_nonneg_left b1 z0
  nlinarith

/-- The value along one axis does not depend on which of two neighbouring cells was chosen. -/
theorem lin_unique {l : List ℚ} (hl : Increasing l) {x : ℚ} {n m : Nat} {r s : ℚ}
    (h1 : Locates l x n r) (h2 : Locates l x m s) (f : Nat → ℚ) :
    (1 - r) * f n + r * f (n + 1) = (1 - s) * f m + s * f (m + 1) := by
  rcases locates_agree hl h1 h2 with ⟨e, e'⟩ | ⟨e, e1, e2⟩ | ⟨e, e1, e2⟩
  · have : n = m := by omega
    subst this; rw [e']
  · have : m = n + 1 := by omega
    subst this; rw [e1, e2]; ring
  · have : n = m + 1 := by omega
    subst this; rw [e1, e2]; ring

/-! ### Inverse distance -/

/-- Bounds of the weighted mean, with accumulators. -/
theorem invLoop_bounds {N : Type} (onNode : ℚ → Bool) (land skip : N → Bool) (dist hit v : N → ℚ) (lo hi : ℚ)
    (hd : ∀ n, onNode (dist n) = false → 0 < dist n) :
    ∀ (ns : List N) (val w : ℚ), (∀ n ∈ ns, onNode (dist n) = false) →
      (∀ n ∈ ns, skip n = false → lo ≤ v n ∧ v n ≤ hi) → 0 ≤ w → lo * w ≤ val → val ≤ hi * w →
      (0 < w ∨ ∃ n ∈ ns, skip n = false) →
      lo ≤ invLoop onNode land skip dist hit v ns val w ∧ invLoop onNode land skip dist hit v ns val w ≤ hi := by
  intro ns
  induction ns with
  | nil =>
    intro val w _ _ hw h1 h2 hex
    have hw' : 0 < w := by
      rcases hex with h | ⟨n, hn, _⟩
      · exact h
      · simp at hn
    unfold invLoop
    exact ⟨(le_div_iff₀ hw').mpr h1, (div_le_iff₀ hw').mpr h2⟩
  | cons n ns ih =>
    intro val w hon hv hw h1 h2 hex
    unfold invLoop
    have hn := hon n (by simp)
    rw [hn, cond_false]
    rcases hs : skip n with _ | _
    · rw [cond_false]
      have hdn := hd n hn
      obtain ⟨k1, k2⟩ := hv n (by simp) hs
      have hinv : 0 < 1 / dist n := by positivity
      refine ih _ _ (fun m hm => hon m (by simp [hm])) (fun m hm => hv m (by simp [hm])) (by linarith) ?_ ?_
        (Or.inl (by linarith))
      · have : lo * (1 / dist n) ≤ v n / dist n := by
          rw [mul_one_div, div_le_div_iff_of_pos_right hdn]; exact k1
        nlinarith
      · have : v n / dist n ≤ hi * (1 / dist n) := by
          rw [mul_one_div, div_le_div_iff_of_pos_right hdn]; exact k2
        nlinarith
    · rw [cond_true]
      refine ih _ _ (fun m hm => hon m (by simp [hm])) (fun m hm => hv m (by simp [hm])) hw h1 h2 ?_
      rcases hex with h | ⟨m, hm, hms⟩
      · exact Or.inl h
      · rcases List.mem_cons.mp hm with rfl | hm
        · rw [hs] at hms; exact absurd hms (by decide)
        · exact Or.inr ⟨m, hm, hms⟩

/-- On a node of the list (and on no other), the loop returns the node's value, or 0 on land. -/
theorem invLoop_hit {N : Type} (onNode : ℚ → Bool) (land skip : N → Bool) (dist hit v : N → ℚ) :
    ∀ (ns : List N) (val w : ℚ) (n : N), n ∈ ns → onNode (dist n) = true →
      (∀ m ∈ ns, m ≠ n → onNode (dist m) = false) →
      invLoop onNode land skip dist hit v ns val w = bif land n then 0 else hit n := by
  intro ns
  induction ns with
  | nil => intro val w n hn; simp at hn
  | cons m ns ih =>
    intro val w n hn hon huniq
    unfold invLoop
    by_cases hmn : m = n
    · subst hmn; rw [hon, cond_true]
    · rw [huniq m (by simp) hmn, cond_false]
      have hn' : n ∈ ns := by
        rcases List.mem_cons.mp hn with h | h
        · exact absurd h.symm hmn
        · exact h
      have hu : ∀ m ∈ ns, m ≠ n → onNode (dist m) = false := fun k hk => huniq k (by simp [hk])
      rcases skip m with _ | _
      · rw [cond_false]; exact ih _ _ n hn' hon hu
      · rw [cond_true]; exact ih _ _ n hn' hon hu

end Parcels.Interp
