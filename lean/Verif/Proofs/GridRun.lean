import Verif.Props.Interp
import Verif.Props.TimeInterp
import Verif.Spec.GridRun

namespace Parcels.GridRun

open Search Interp TimeInterp
open KernelLoop (Exc)

variable {V : Type}

/-! ### Time -/

theorem exact_cases {T : List ℚ} {t : ℚ} {i : Nat} (h : T[i]? = some t) :
    (T.length = 1 ∧ i = 0) ∨ ∃ j : Nat, ∃ r : ℚ, Locates T t j r ∧ ∀ v : Nat → ℚ, lerp r (v j) (v (j + 1)) = v i := by
  have hi := (List.getElem?_eq_some_iff.mp h).1
  rcases Nat.lt_or_ge (i + 1) T.length with c | c
  · right
    refine ⟨i, 0, ⟨i, t, T[i + 1], rfl, h, List.getElem?_eq_getElem c, le_rfl, by norm_num, by ring⟩, fun v => by unfold lerp; ring⟩
  · rcases Nat.eq_zero_or_pos i with c2 | c2
    · left; omega
    · right
      refine ⟨i - 1, 1, ⟨i - 1, T[i - 1], t, rfl, List.getElem?_eq_getElem (by omega), ?_, by norm_num, le_rfl, by ring⟩, fun v => ?_⟩
      · rw [Nat.sub_add_cancel c2]; exact h
      · rw [Nat.sub_add_cancel c2]; unfold lerp; ring

theorem first_or {T : List ℚ} (hlen : 1 ≤ T.length) {t : ℚ} (h : ∀ a ∈ T, t ≤ a) : t < T.headD 0 ∨ T[0]? = some t := by
  cases T with
  | nil => simp at hlen
  | cons a T =>
    rcases lt_or_eq_of_le (h a List.mem_cons_self) with c | c
    · exact Or.inl c
    · right; rw [c]; rfl

theorem last_or {T : List ℚ} (hlen : 1 ≤ T.length) {t : ℚ} (h : ∀ a ∈ T, a ≤ t) : T.getLastD 0 < t ∨ T[T.length - 1]? = some t := by
  have e : T[T.length - 1]? = some (T.getLastD 0) := by
    rw [getLastD_getD]
    exact getD_some (by omega)
  rcases lt_or_eq_of_le (h _ (List.mem_of_getElem? e)) with c | c
  · exact Or.inl c
  · right; rw [e, c]

theorem time_total {T : List ℚ} (hT : Increasing T) (hlen : 1 ≤ T.length) (extrap : Bool) (t : ℚ) (v : Nat → ℚ) :
    (∃ w, TimeValue T extrap t v w) ∨ (extrap = false ∧ (t < T.headD 0 ∨ T.getLastD 0 < t)) := by
  have hh := headD_getD T
  have hl := getLastD_getD T
  rcases lt_or_ge t (T.headD 0) with c | c
  · cases extrap with
    | false => exact Or.inr ⟨rfl, Or.inl c⟩
    | true =>
      refine Or.inl ⟨_, Or.inr (Or.inr (Or.inl ⟨rfl, ?_, rfl⟩))⟩
      intro a ha
      obtain ⟨i, hi, rfl⟩ := List.getElem_of_mem ha
      have := inc_le hT (Nat.zero_le i) hi
      rw [List.getD_eq_getElem T 0 hi] at this
      rw [hh] at c
      linarith
  · rcases lt_or_ge (T.getLastD 0) t with c2 | c2
    · cases extrap with
      | false => exact Or.inr ⟨rfl, Or.inr c2⟩
      | true =>
        refine Or.inl ⟨_, Or.inr (Or.inr (Or.inr ⟨rfl, ?_, rfl⟩))⟩
        intro a ha
        obtain ⟨i, hi, rfl⟩ := List.getElem_of_mem ha
        have := inc_le hT (show i ≤ T.length - 1 by omega) (by omega)
        rw [List.getD_eq_getElem T 0 hi] at this
        rw [hl] at c2
        linarith
    · left
      rw [hh] at c
      rw [hl] at c2
      rcases Nat.lt_or_ge T.length 2 with c3 | c3
      · refine ⟨v 0, Or.inl ⟨0, ?_, rfl⟩⟩
        have e : T.length - 1 = 0 := by omega
        rw [e] at c2
        rw [getD_some (show 0 < T.length by omega), le_antisymm c2 c]
      · obtain ⟨n, hn, ha, hb, -⟩ := axisSearch_found hT c3 c c2
        exact ⟨_, Or.inr (Or.inl ⟨n, _, locates_of_cell hT hn ha hb, rfl⟩)⟩

theorem time_scipy {T : List ℚ} (hT : Increasing T) (hlen : 1 ≤ T.length) (extrap : Bool) (sn : Nat → Except Err ℚ) (v : Nat → ℚ)
    (hs : ∀ j, j < T.length → sn j = .ok (v j)) (t w : ℚ) (h : TimeValue T extrap t v w) :
    evalTime (TAxis.full T false extrap) sn t = .ok w := by
  have hne : T ≠ [] := List.length_pos_iff.mp hlen
  have hex : ∀ i : Nat, T[i]? = some t → evalTime (TAxis.full T false extrap) sn t = .ok (v i) := by
    intro i hi
    rcases exact_cases hi with ⟨c1, rfl⟩ | ⟨j, r, hl, hv⟩
    · have e : T.getD (T.length - 1) 0 = t := by
        rw [c1, Nat.sub_self]
        rw [getD_some (show 0 < T.length by omega)] at hi
        exact Option.some.inj hi
      have hn := timeIndex_last hT extrap hne e.le (Or.inr e.symm)
      rw [evalTime_at (a := TAxis.full T false extrap) hs hn (show T.length - 1 < T.length by omega) rfl]
      rw [if_neg (by rintro ⟨h', -⟩; exact absurd h' (show ¬ T.length - 1 + 1 < T.length by omega))]
      rw [c1]
    · rw [C32_scipy_inside T hT extrap sn v hs t j r hl, hv]
  rcases h with ⟨i, hi, rfl⟩ | ⟨i, r, hl, rfl⟩ | ⟨he, ha, rfl⟩ | ⟨he, ha, rfl⟩
  · exact hex i hi
  · exact C32_scipy_inside T hT extrap sn v hs t i r hl
  · subst he
    rcases first_or hlen ha with c | c
    · exact ((C32_scipy_outside T hT hne sn v hs t).1 c).2
    · exact hex 0 c
  · subst he
    rcases last_or hlen ha with c | c
    · exact ((C32_scipy_outside T hT hne sn v hs t).2 c).2
    · exact hex _ c

theorem time_jit {T : List ℚ} (hT : Increasing T) (hlen : 1 ≤ T.length) (extrap : Bool) (sn : Nat → Except Err ℚ) (v : Nat → ℚ)
    (hs : ∀ j, j < T.length → sn j = .ok (v j)) (f : Nat) (ti : ℤ) (hti : ti < T.length) (t w : ℚ) (h : TimeValue T extrap t v w) :
    cEvalTime (TAxis.full T false extrap) sn (f + 1) t ti = some (.ok w) := by
  have hne : T ≠ [] := List.length_pos_iff.mp hlen
  have hex : ∀ i : Nat, T[i]? = some t → cEvalTime (TAxis.full T false extrap) sn (f + 1) t ti = some (.ok (v i)) := by
    intro i hi
    rcases exact_cases hi with ⟨c1, rfl⟩ | ⟨j, r, hl, hv⟩
    · have e0 : T.getD 0 0 = t := by
        rw [getD_some (show 0 < T.length by omega)] at hi
        exact Option.some.inj hi
      have hst : startIdx ti < T.length := by unfold startIdx; split_ifs <;> omega
      obtain ⟨w1, w2, w3⟩ := walk_in hT (startIdx ti) hst e0.le
      have hidx := cSearch_direct (T := T) false (TAxis.full T false extrap).fullMin (TAxis.full T false extrap).fullMax f t ti 0
        (Or.inl rfl)
      have hw : cWalk ltB T t (startIdx ti) = 0 := by omega
      rw [hw] at hidx
      rw [cEvalTime_at (a := TAxis.full T false extrap) hs ?_ hidx (show 0 < T.length by omega)]
      · congr 2
        exact if_neg (by rintro ⟨h', -⟩; exact absurd h' (show ¬ 0 + 1 < T.length by omega))
      · rintro ⟨-, -, h | h⟩
        · have : t < T.getD 0 0 := by rw [← headD_getD]; exact h
          linarith
        · have : T.getD (T.length - 1) 0 < t := by rw [← getLastD_getD]; exact h
          rw [c1] at this
          linarith
    · rw [C32_jit_inside T hT extrap sn v hs f ti hti t j r hl, hv]
  rcases h with ⟨i, hi, rfl⟩ | ⟨i, r, hl, rfl⟩ | ⟨he, ha, rfl⟩ | ⟨he, ha, rfl⟩
  · exact hex i hi
  · exact C32_jit_inside T hT extrap sn v hs f ti hti t i r hl
  · subst he
    rcases first_or hlen ha with c | c
    · exact ((C32_jit_outside T hT hne sn v hs f ti hti t).1 c).2
    · exact hex 0 c
  · subst he
    rcases last_or hlen ha with c | c
    · exact ((C32_jit_outside T hT hne sn v hs f ti hti t).2 c).2
    · exact hex _ c

end Parcels.GridRun
