import Verif.Proofs.SearchSphere
import Verif.Props.Interp
import Verif.Props.SearchLon
import Mathlib.Data.List.GetD

/-! From eastward axes to the search of `SearchSphere`; uniqueness of linear interpolation modulo 360. -/

namespace Parcels.Search
open Parcels.Interp

theorem eastward_len {l U : List ℚ} (h : EastwardAxis l U) : 2 ≤ l.length := by
  obtain ⟨_, _, _, _, h, _⟩ := h; exact h

theorem eastward_inc {l U : List ℚ} (h : EastwardAxis l U) : Increasing U := by
  obtain ⟨_, _, _, _, _, _, _, h, _⟩ := h; exact h

/-- The unwrapped axis node by node. -/
theorem eastward_turn {l U : List ℚ} (h : EastwardAxis l U) : ∃ e : Nat → ℤ,
    (∀ i, i < l.length → U.getD i 0 = l.getD i 0 + 360 * e i) ∧ (∀ i, e i = 0 ∨ e i = 1) ∧ e 0 = 0 ∧
    (∀ i, e (i + 1) = e i ∨ e (i + 1) = e i + 1) := by
  obtain ⟨A, B, rfl, rfl, hl, hA, _⟩ := h
  refine ⟨fun i => if i < A.length then 0 else 1, ?_, ?_, ?_, ?_⟩
  · intro i hi
    rw [List.length_append] at hi
    by_cases hc : i < A.length
    · simp only [if_pos hc]
      rw [List.getD_append _ _ _ _ hc, List.getD_append _ _ _ _ hc]; push_cast; ring
    · simp only [if_neg hc]
      rw [List.getD_append_right _ _ _ _ (by omega), List.getD_append_right _ _ _ _ (by omega),
        List.getD_eq_getElem _ _ (by rw [List.length_map]; omega), List.getD_eq_getElem _ _ (by omega),
        List.getElem_map]
      push_cast; ring
  · intro i; dsimp only; split_ifs <;> simp
  · have : 0 < A.length := List.length_pos_of_ne_nil hA
    simp only [if_pos this]
  · intro i; dsimp only; split_ifs <;> first | omega | simp

theorem circ_of_eastward {l U : List ℚ} (hU : EastwardAxis l U)
    (hcell : ∀ (n : Nat) (a b : ℚ), U[n]? = some a → U[n + 1]? = some b → b - a < 135)
    (hspan : U.getLastD 0 - U.headD 0 ≤ 360) {x : ℚ} {s : ℤ} (hs : s = 0 ∨ s = 1 ∨ (s = -1 ∧ U = l))
    (h1 : U.headD 0 ≤ x + 360 * s) (h2 : x + 360 * s ≤ U.getLastD 0) :
    ∃ c k t, Circ l c k x t := by
  have hl := eastward_length hU
  have hlen := eastward_len hU
  have hinc := eastward_inc hU
  rw [headD_getD] at h1 hspan
  rw [getLastD_getD] at h2 hspan
  obtain ⟨t, ht, ha, hb, _⟩ := axisSearch_found hinc (by omega) h1 h2
  obtain ⟨e, e1, e2, e3, e4⟩ := eastward_turn hU
  have e5 : s = -1 → ∀ i, i < l.length → e i = 0 := by
    intro hs' i hi
    have : U = l := by rcases hs with h | h | h <;> [omega; omega; exact h.2]
    have hh := e1 i hi
    rw [this] at hh
    have : (e i : ℚ) = 0 := by linarith
    exact_mod_cast this
  refine ⟨fun i => U.getD i 0 - 360 * s, fun i => e i - s, t, ?_⟩
  constructor
  · exact hlen
  · intro i hi
    have := e1 i hi
    push_cast; linarith
  · intro i hi
    have := inc_lt hinc (show i < i + 1 by omega) (by omega)
    linarith
  · intro i hi
    have := hcell i (U.getD i 0) (U.getD (i + 1) 0)
      (by rw [List.getD_eq_getElem _ _ (by omega)]; exact List.getElem?_eq_getElem _)
      (by rw [List.getD_eq_getElem _ _ (by omega)]; exact List.getElem?_eq_getElem _)
    linarith
  · intro i hi
    have := inc_le hinc (Nat.zero_le i) (by omega)
    linarith
  · intro i hi
    have := inc_le hinc (show i ≤ U.length - 1 by omega) (by omega)
    linarith
  · intro i hi
    rcases hs with h | h | h
    · have := e2 i; omega
    · have := e2 i; omega
    · have := e5 h.1 i hi; omega
  · intro i hi
    have := e4 i
    omega
  · intro i hi
    have := e2 i
    omega
  · omega
  · intro i hi
    have := inc_le hinc hi (by omega)
    linarith
  · intro i hi hil
    have := inc_le hinc (show t + 1 ≤ i by omega) (by omega)
    linarith

/-- A place on the circle is a place on the unwrapped axis. -/
theorem locates_unwrapped {l U : List ℚ} (hU : EastwardAxis l U) {x : ℚ} {n : Nat} {r : ℚ}
    (h : LocatesMod360 l x n r) : ∃ s : ℤ, Locates U (x + 360 * s) n r := by
  have hl := eastward_length hU
  have hinc := eastward_inc hU
  obtain ⟨e, e1, _⟩ := eastward_turn hU
  obtain ⟨n', a, b, w, p, q, hn, ha, hb, hw, hw0, hw1, hr0, hr1, hx⟩ := h
  obtain rfl : n = n' := by exact_mod_cast hn
  have hbl : n + 1 < l.length := (List.getElem?_eq_some_iff.mp hb).1
  have ha' : l.getD n 0 = a := by
    rw [List.getD_eq_getElem _ _ (by omega)]; exact (List.getElem?_eq_some_iff.mp ha).2
  have hb' : l.getD (n + 1) 0 = b := by
    rw [List.getD_eq_getElem _ _ (by omega)]; exact (List.getElem?_eq_some_iff.mp hb).2
  have hua := e1 n (by omega)
  have hub := e1 (n + 1) (by omega)
  rw [ha'] at hua
  rw [hb'] at hub
  have hga : U[n]? = some (U.getD n 0) := by
    rw [List.getD_eq_getElem _ _ (by omega)]; exact List.getElem?_eq_getElem _
  have hgb : U[n + 1]? = some (U.getD (n + 1) 0) := by
    rw [List.getD_eq_getElem _ _ (by omega)]; exact List.getElem?_eq_getElem _
  have hwd : U.getD (n + 1) 0 - U.getD n 0 < 180 := by
    obtain ⟨_, _, _, _, _, _, _, _, h⟩ := hU; exact h n _ _ hga hgb
  have hpos := inc_lt hinc (show n < n + 1 by omega) (by omega)
  have hz : (p : ℚ) = e (n + 1) - e n := by
    have hI : ((p - (e (n + 1) - e n) : ℤ) : ℚ) * 360 = w - (U.getD (n + 1) 0 - U.getD n 0) := by
      push_cast; rw [hw, hua, hub]; ring
    have k1 : -1 < ((p - (e (n + 1) - e n) : ℤ) : ℚ) := by linarith
    have k2 : ((p - (e (n + 1) - e n) : ℤ) : ℚ) < 1 := by linarith
    have k1' : -1 < p - (e (n + 1) - e n) := by exact_mod_cast k1
    have k2' : p - (e (n + 1) - e n) < 1 := by exact_mod_cast k2
    have : p = e (n + 1) - e n := by omega
    rw [this]; push_cast; ring
  refine ⟨q + e n, n, U.getD n 0, U.getD (n + 1) 0, rfl, hga, hgb, hr0, hr1, ?_⟩
  have hw' : w = U.getD (n + 1) 0 - U.getD n 0 := by rw [hw, hz, hua, hub]; ring
  rw [hw'] at hx
  push_cast
  linear_combination hx - hua

/-- Linear interpolation at a place on the circle does not depend on the cell, if the axis covers less than one turn,
or one turn with the same value at both ends. -/
theorem lin_unique_mod {l U : List ℚ} (hU : EastwardAxis l U) (f : Nat → ℚ)
    (hspan : U.getLastD 0 - U.headD 0 < 360 ∨ (U.getLastD 0 - U.headD 0 = 360 ∧ f 0 = f (l.length - 1)))
    {x : ℚ} {n n' : Nat} {r r' : ℚ} (h : LocatesMod360 l x n r) (h' : LocatesMod360 l x n' r') :
    (1 - r) * f n + r * f (n + 1) = (1 - r') * f n' + r' * f (n' + 1) := by
  have hl := eastward_length hU
  have hlen := eastward_len hU
  have hinc := eastward_inc hU
  obtain ⟨s, hs⟩ := locates_unwrapped hU h
  obtain ⟨s', hs'⟩ := locates_unwrapped hU h'
  have r1 := (inRange_inc hinc (by omega) _).mp (locates_inRange hinc hs)
  have r2 := (inRange_inc hinc (by omega) _).mp (locates_inRange hinc hs')
  rw [headD_getD, getLastD_getD] at hspan
  have hle : U.getD (U.length - 1) 0 - U.getD 0 0 ≤ 360 := by rcases hspan with h | h <;> [exact h.le; exact h.1.le]
  have first : Locates U (U.getD 0 0) (0 : Nat) 0 := by
    refine ⟨0, U.getD 0 0, U.getD 1 0, rfl, ?_, ?_, le_refl _, by norm_num, by ring⟩ <;>
      (rw [List.getD_eq_getElem _ _ (by omega)]; exact List.getElem?_eq_getElem _)
  have last : Locates U (U.getD (U.length - 1) 0) (U.length - 2 : Nat) 1 := by
    refine ⟨U.length - 2, U.getD (U.length - 2) 0, U.getD (U.length - 1) 0, rfl, ?_, ?_, by norm_num, by norm_num,
      by ring⟩
    · rw [List.getD_eq_getElem _ _ (by omega)]; exact List.getElem?_eq_getElem _
    · rw [show U.length - 2 + 1 = U.length - 1 by omega, List.getD_eq_getElem _ _ (by omega)]
      exact List.getElem?_eq_getElem _
  have key : ∀ {s s' : ℤ} {n n' : Nat} {r r' : ℚ}, Locates U (x + 360 * s) n r → Locates U (x + 360 * s') n' r' →
      s < s' → (1 - r) * f n + r * f (n + 1) = (1 - r') * f n' + r' * f (n' + 1) := by
    intro s s' n n' r r' hs hs' hlt
    have r1 := (inRange_inc hinc (by omega) _).mp (locates_inRange hinc hs)
    have r2 := (inRange_inc hinc (by omega) _).mp (locates_inRange hinc hs')
    have hge : (s : ℚ) + 1 ≤ s' := by exact_mod_cast hlt
    have q1 : x + 360 * s = U.getD 0 0 := by linarith
    have q2 : x + 360 * s' = U.getD (U.length - 1) 0 := by linarith
    rcases hspan with hsp | ⟨_, hf⟩
    · exfalso; linarith
    rw [q1] at hs
    rw [q2] at hs'
    have u1 := lin_unique hinc hs first f
    have u2 := lin_unique hinc hs' last f
    rw [show U.length - 2 + 1 = U.length - 1 by omega, hl] at u2
    rw [u1, u2, hf]
    ring
  rcases lt_trichotomy s s' with hc | hc | hc
  · exact key hs hs' hc
  · subst hc; exact lin_unique hinc hs hs' f
  · exact (key hs' hs hc).symm

end Parcels.Search
