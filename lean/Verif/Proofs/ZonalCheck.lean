import Verif.Spec.ZonalCheck
import Verif.Proofs.SearchLon
import Mathlib.Tactic.Linarith
import Mathlib.Tactic.Ring
import Mathlib.Tactic.NormNum

namespace Parcels.ZonalCheck

theorem fold_eq {d e : ℚ} {k : ℤ} (hd : |d| < 540) (he : |e| < 180) (h : e = d + 360 * k) : fold d = e := by
  rw [abs_lt] at hd he
  have h1 : (-2 : ℚ) < k := by linarith
  have h2 : (k : ℚ) < 2 := by linarith
  have h1' : -2 < k := by exact_mod_cast h1
  have h2' : k < 2 := by exact_mod_cast h2
  unfold fold
  obtain rfl | rfl | rfl : k = -1 ∨ k = 0 ∨ k = 1 := by omega
  · push_cast at h
    dsimp only
    rw [if_neg (by linarith : ¬ d < -180), if_pos (by linarith : 180 < d)]
    linarith
  · push_cast at h
    dsimp only
    rw [if_neg (by linarith : ¬ d < -180), if_neg (by linarith : ¬ 180 < d)]
    linarith
  · push_cast at h
    dsimp only
    rw [if_pos (by linarith : d < -180), if_neg (by linarith : ¬ 180 < d + 360)]
    linarith

theorem sum_fold : ∀ (l U : List ℚ), SameMeridians l U → StepsBelow 540 l → StepsBelow 180 U →
    ((diffs l).map fold).sum = U.getLastD 0 - U.headD 0
  | [], U, h, _, _ => by
    have : U = [] := List.length_eq_zero_iff.mp h.1.symm
    subst this
    simp [diffs]
  | [a], U, h, _, _ => by
    obtain ⟨b, rfl⟩ := List.length_eq_one_iff.mp h.1.symm
    simp [diffs]
  | a :: b :: l, U, h, hl, hU => by
    rcases U with _ | ⟨c, _ | ⟨d, U⟩⟩
    · have := h.1; simp at this
    · have := h.1; simp at this
    obtain ⟨k, hk⟩ := h.2 0 a c rfl rfl
    obtain ⟨k', hk'⟩ := h.2 1 b d rfl rfl
    have ih := sum_fold (b :: l) (d :: U) ⟨by simpa using h.1, fun n x y hx hy => h.2 (n + 1) x y (by simpa using hx) (by simpa using hy)⟩
      (fun n x y hx hy => hl (n + 1) x y (by simpa using hx) (by simpa using hy))
      (fun n x y hx hy => hU (n + 1) x y (by simpa using hx) (by simpa using hy))
    have hf : fold (b - a) = d - c :=
      fold_eq (k := k' - k) (hl 0 a b rfl rfl) (hU 0 c d rfl rfl) (by rw [hk, hk']; push_cast; ring)
    rw [diffs, List.map_cons, List.sum_cons, ih, hf]
    simp

theorem eastward_same {l U : List ℚ} (h : Search.EastwardAxis l U) : SameMeridians l U ∧ StepsBelow 540 l ∧ StepsBelow 180 U := by
  have hlen := Search.eastward_length h
  obtain ⟨A, B, rfl, rfl, _, _, _, hinc, hstep⟩ := h
  have same : ∀ (n : Nat) (a b : ℚ), (A ++ B)[n]? = some a → (A ++ B.map (· + 360))[n]? = some b → b = a ∨ b = a + 360 := by
    intro n a b ha hb
    rcases Nat.lt_or_ge n A.length with hn | hn
    · rw [List.getElem?_append_left hn] at ha hb
      rw [ha] at hb
      injection hb with hb
      exact Or.inl hb.symm
    · rw [List.getElem?_append_right hn] at ha hb
      rw [List.getElem?_map, ha] at hb
      simp at hb
      exact Or.inr hb.symm
  have inc : ∀ (n : Nat) (a b : ℚ), (A ++ B.map (· + 360))[n]? = some a → (A ++ B.map (· + 360))[n + 1]? = some b → a < b := by
    intro n a b ha hb
    obtain ⟨k1, rfl⟩ := List.getElem?_eq_some_iff.mp ha
    obtain ⟨k2, rfl⟩ := List.getElem?_eq_some_iff.mp hb
    exact List.pairwise_iff_getElem.mp hinc _ _ k1 k2 (by omega)
  have hU : StepsBelow 180 (A ++ B.map (· + 360)) := by
    intro n a b ha hb
    rw [abs_lt]
    have := inc n a b ha hb
    have := hstep n a b ha hb
    constructor <;> linarith
  refine ⟨⟨hlen.symm, ?_⟩, ?_, hU⟩
  · intro n a b ha hb
    rcases same n a b ha hb with h | h
    · exact ⟨0, by rw [h]; simp⟩
    · exact ⟨1, by rw [h]; simp⟩
  · intro n a b ha hb
    have hn : n + 1 < (A ++ B.map (· + 360)).length := by
      rw [hlen]; exact (List.getElem?_eq_some_iff.mp hb).1
    have hc := List.getElem?_eq_getElem (l := A ++ B.map (· + 360)) (i := n) (by omega)
    have hd := List.getElem?_eq_getElem (l := A ++ B.map (· + 360)) hn
    have h1 := hU n _ _ hc hd
    rw [abs_lt] at h1 ⊢
    rcases same _ _ _ ha hc with e1 | e1 <;> rcases same _ _ _ hb hd with e2 | e2 <;> rw [e1, e2] at h1 <;>
      constructor <;> linarith [h1.1, h1.2]

end Parcels.ZonalCheck
