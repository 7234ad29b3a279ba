import Verif.Proofs.TimeInterp
import Verif.Spec.Interp

/-!
C32: sampling interpolates linearly in time; C33: time-periodic fields are periodic.
-/

namespace Parcels.TimeInterp
open Parcels.Search Parcels.Interp

theorem lerp_eq (r a b : ℚ) : lerp r a b = (1 - r) * a + r * b := by unfold lerp; ring

/-- C32 (Scipy): within the range, the linear interpolation between the snapshots `i` and `i+1`, for every `i` such that
the time is at fraction `r` between them (at a snapshot time this is the snapshot, from both sides). -/
theorem C32_scipy_inside (T : List ℚ) (hT : Increasing T) (extrap : Bool) (snap : Nat → Except Err ℚ) (v : Nat → ℚ)
    (hs : ∀ j, j < T.length → snap j = .ok (v j)) (t : ℚ) (i : Nat) (r : ℚ) (hl : Locates T t i r) :
    evalTime (TAxis.full T false extrap) snap t = .ok (lerp r (v i) (v (i + 1))) := by
  obtain ⟨hlen, h1, h2⟩ := locates_range hT hl
  have hne : T ≠ [] := by intro h; rw [h] at hlen; simp at hlen
  rw [lerp_eq]
  rcases lt_or_eq_of_le h2 with h3 | h3
  · obtain ⟨n, hn, hn1, ha, hb⟩ := timeIndex_inside hT false extrap h1 h3
    rw [evalTime_at (a := TAxis.full T false extrap) hs hn (show n < T.length by omega) rfl]
    obtain ⟨p1, p2⟩ := pick hT (v := v) (show n < T.length by omega) ha (fun _ => hb.le) hl
    have e : t - ((0 : ℤ) : ℚ) * ((TAxis.full T false extrap).fullMax - (TAxis.full T false extrap).fullMin) = t := by
      push_cast; ring
    rw [e]
    congr 1
    by_cases hc : n + 1 < T.length ∧ T.getD n 0 < t
    · exact (if_pos hc).trans (p1 hc.1 hc.2)
    · exact (if_neg hc).trans (p2 hc)
  · have hn := timeIndex_last hT extrap hne h3.ge (Or.inr h3)
    rw [evalTime_at (a := TAxis.full T false extrap) hs hn (show T.length - 1 < T.length by omega) rfl]
    obtain ⟨p1, p2⟩ := pick hT (v := v) (show T.length - 1 < T.length by omega) h3.ge (fun h => by omega) hl
    congr 1
    have hc : ¬ (T.length - 1 + 1 < T.length ∧ T.getD (T.length - 1) 0 < t) := by omega
    exact (if_neg (by rintro ⟨h, _⟩; exact absurd h (show ¬ T.length - 1 + 1 < T.length by omega))).trans (p2 hc)

/-- C32 (Scipy): before the first and after the last snapshot: error, or the first and last snapshot with extrapolation
allowed. -/
theorem C32_scipy_outside (T : List ℚ) (hT : Increasing T) (hne : T ≠ []) (snap : Nat → Except Err ℚ) (v : Nat → ℚ)
    (hs : ∀ j, j < T.length → snap j = .ok (v j)) (t : ℚ) :
    (t < T.headD 0 → evalTime (TAxis.full T false false) snap t = .error .time ∧
      evalTime (TAxis.full T false true) snap t = .ok (v 0)) ∧
    (T.getLastD 0 < t → evalTime (TAxis.full T false false) snap t = .error .time ∧
      evalTime (TAxis.full T false true) snap t = .ok (v (T.length - 1))) := by
  have hlen : 1 ≤ T.length := List.length_pos_iff.mpr hne
  have herr : (t < T.headD 0 ∨ T.getLastD 0 < t) → evalTime (TAxis.full T false false) snap t = .error .time := by
    intro h
    have : timeIndex (TAxis.full T false false) t = .error .time := by
      unfold timeIndex; exact if_pos ⟨rfl, rfl, h⟩
    unfold evalTime; rw [this]
  constructor
  · intro h
    refine ⟨herr (Or.inl h), ?_⟩
    rw [headD_getD] at h
    have c1 : (T.all fun v => decide (v ≤ t)) = false := by
      rw [Bool.eq_false_iff]; intro hh; rw [all_le_iff hT hne] at hh
      have := inc_le hT (show 0 ≤ T.length - 1 by omega) (by omega); linarith
    have c2 := (all_gt_iff hT hne t).mpr h
    have hidx : timeIndex (TAxis.full T false true) t = .ok (((0 : Nat) : ℤ), 0) := by
      unfold timeIndex TAxis.full
      simp only [c1, c2, Bool.true_eq_false, false_and, and_false, Bool.false_eq_true, if_false, if_true, Nat.cast_zero]
    rw [evalTime_at (a := TAxis.full T false true) hs hidx (show 0 < T.length by omega) rfl]
    congr 1
    apply if_neg
    rintro ⟨_, h'⟩
    have : T.getD 0 0 < t := by simpa [TAxis.full] using h'
    linarith
  · intro h
    refine ⟨herr (Or.inr h), ?_⟩
    rw [getLastD_getD] at h
    rw [evalTime_at (a := TAxis.full T false true) hs (timeIndex_last hT true hne h.le (Or.inl rfl))
      (show T.length - 1 < T.length by omega) rfl]
    congr 1
    apply if_neg
    rintro ⟨h', _⟩
    exact absurd h' (show ¬ T.length - 1 + 1 < T.length by omega)

/-- C32 (JIT), from every stored time index of the particle. -/
theorem C32_jit_inside (T : List ℚ) (hT : Increasing T) (extrap : Bool) (snap : Nat → Except Err ℚ) (v : Nat → ℚ)
    (hs : ∀ j, j < T.length → snap j = .ok (v j)) (f : Nat) (ti : ℤ) (hti : ti < T.length) (t : ℚ) (i : Nat) (r : ℚ)
    (hl : Locates T t i r) :
    cEvalTime (TAxis.full T false extrap) snap (f + 1) t ti = some (.ok (lerp r (v i) (v (i + 1)))) := by
  obtain ⟨hlen, h1, h2⟩ := locates_range hT hl
  have hst : startIdx ti < T.length := by unfold startIdx; split_ifs <;> omega
  obtain ⟨w1, w2, w3⟩ := walk_in hT (startIdx ti) hst h1
  have hidx := cSearch_direct (T := T) false (TAxis.full T false extrap).fullMin (TAxis.full T false extrap).fullMax f t ti 0
    (Or.inl rfl)
  rw [lerp_eq, cEvalTime_at (a := TAxis.full T false extrap) hs ?_ hidx w1]
  · obtain ⟨p1, p2⟩ := pick hT (v := v) w1 w2 w3 hl
    congr 2
    by_cases hc : cWalk ltB T t (startIdx ti) + 1 < T.length ∧ T.getD (cWalk ltB T t (startIdx ti)) 0 < t
    · exact (if_pos hc).trans (p1 hc.1 hc.2)
    · exact (if_neg hc).trans (p2 hc)
  · rintro ⟨_, _, h | h⟩
    · have : t < T.getD 0 0 := by rw [← headD_getD]; exact h
      linarith
    · have : T.getD (T.length - 1) 0 < t := by rw [← getLastD_getD]; exact h
      linarith

/-- C32 (JIT): outside the range. -/
theorem C32_jit_outside (T : List ℚ) (hT : Increasing T) (hne : T ≠ []) (snap : Nat → Except Err ℚ) (v : Nat → ℚ)
    (hs : ∀ j, j < T.length → snap j = .ok (v j)) (f : Nat) (ti : ℤ) (hti : ti < T.length) (t : ℚ) :
    (t < T.headD 0 → cEvalTime (TAxis.full T false false) snap (f + 1) t ti = some (.error .time) ∧
      cEvalTime (TAxis.full T false true) snap (f + 1) t ti = some (.ok (v 0))) ∧
    (T.getLastD 0 < t → cEvalTime (TAxis.full T false false) snap (f + 1) t ti = some (.error .time) ∧
      cEvalTime (TAxis.full T false true) snap (f + 1) t ti = some (.ok (v (T.length - 1)))) := by
  have hlen : 1 ≤ T.length := List.length_pos_iff.mpr hne
  have hst : startIdx ti < T.length := by unfold startIdx; split_ifs <;> omega
  have herr : (t < T.headD 0 ∨ T.getLastD 0 < t) →
      cEvalTime (TAxis.full T false false) snap (f + 1) t ti = some (.error .time) := by
    intro h; unfold cEvalTime; rw [getLastD_getD] at h; exact if_pos ⟨rfl, rfl, h⟩
  have hidx := cSearch_direct (T := T) false (TAxis.full T false true).fullMin (TAxis.full T false true).fullMax f t ti 0
    (Or.inl rfl)
  have hok : ¬ ((TAxis.full T false true).periodic = false ∧ (TAxis.full T false true).extrap = false ∧
      (t < (TAxis.full T false true).time.headD 0 ∨ (TAxis.full T false true).time.getLastD 0 < t)) := by
    rintro ⟨_, h, _⟩; exact Bool.noConfusion h
  constructor
  · intro h
    refine ⟨herr (Or.inl h), ?_⟩
    rw [headD_getD] at h
    rw [walk_before hT _ hst h] at hidx
    rw [cEvalTime_at (a := TAxis.full T false true) hs hok hidx (show 0 < T.length by omega)]
    congr 2
    apply if_neg
    rintro ⟨_, h'⟩
    have : T.getD 0 0 < t := by simpa [TAxis.full] using h'
    linarith
  · intro h
    refine ⟨herr (Or.inr h), ?_⟩
    rw [getLastD_getD] at h
    have h0 := inc_le hT (show 0 ≤ T.length - 1 by omega) (by omega)
    obtain ⟨w1, w2, w3⟩ := walk_in hT (startIdx ti) hst (by linarith : T.getD 0 0 ≤ t)
    have hw : cWalk ltB T t (startIdx ti) = T.length - 1 := by
      by_contra hne'
      have := w3 (by omega)
      have := inc_le hT (show cWalk ltB T t (startIdx ti) + 1 ≤ T.length - 1 by omega) (by omega)
      linarith
    rw [hw] at hidx
    rw [cEvalTime_at (a := TAxis.full T false true) hs hok hidx (show T.length - 1 < T.length by omega)]
    congr 2
    apply if_neg
    rintro ⟨h', _⟩
    exact absurd h' (show ¬ T.length - 1 + 1 < T.length by omega)

/-- Three snapshots. -/
def exT : List ℚ := [0, 10, 30]
def exSnap (i : Nat) : Except Err ℚ := .ok (100 * i)

example : Locates exT 25 (1 : Nat) (3 / 4) ∧ Locates exT 10 (0 : Nat) 1 ∧ Locates exT 10 (1 : Nat) 0 ∧ Increasing exT :=
  ⟨⟨1, 10, 30, rfl, by decide +kernel, by decide +kernel, by norm_num, by norm_num, by norm_num⟩,
   ⟨0, 0, 10, rfl, by decide +kernel, by decide +kernel, by norm_num, by norm_num, by norm_num⟩,
   ⟨1, 10, 30, rfl, by decide +kernel, by decide +kernel, by norm_num, by norm_num, by norm_num⟩,
   by unfold Increasing; decide +kernel⟩

example : evalTime (TAxis.full exT false false) exSnap 25 = .ok 175 ∧
    cEvalTime (TAxis.full exT false false) exSnap 1 25 (-1) = some (.ok 175) ∧
    evalTime (TAxis.full exT false false) exSnap 31 = .error .time ∧
    evalTime (TAxis.full exT false true) exSnap 31 = .ok 200 ∧
    evalTime (TAxis.full exT false true) exSnap (-1) = .ok 0 := by decide +kernel

/-! ### Periodic fields -/

/-- Scipy: the value at `t' + k P` is the interpolation at `t'`. -/
theorem periodic_value {T : List ℚ} (hT : Increasing T) (hlen : 2 ≤ T.length) (e : Bool) {snap : Nat → Except Err ℚ}
    {v : Nat → ℚ} (hs : ∀ j, j < T.length → snap j = .ok (v j)) {t' : ℚ} (k : ℤ)
    (h2 : t' < T.getD (T.length - 1) 0) {i : Nat} {r : ℚ} (hl : Locates T t' i r) :
    evalTime (TAxis.full T true e) snap (t' + k * (T.getD (T.length - 1) 0 - T.getD 0 0)) =
      .ok (lerp r (v i) (v (i + 1))) := by
  obtain ⟨_, h1, _⟩ := locates_range hT hl
  obtain ⟨n, hn, hn1, ha, hb⟩ := timeIndex_periodic hT hlen e h1 h2 rfl (k := k)
  rw [lerp_eq, evalTime_at (a := TAxis.full T true e) (t' := t') hs hn (show n < T.length by omega) ?_]
  · obtain ⟨p1, p2⟩ := pick hT (v := v) (show n < T.length by omega) ha (fun _ => hb.le) hl
    congr 1
    by_cases hc : n + 1 < T.length ∧ T.getD n 0 < t'
    · exact (if_pos hc).trans (p1 hc.1 hc.2)
    · exact (if_neg hc).trans (p2 hc)
  · unfold TAxis.full
    simp only [headD_getD, getLastD_getD]
    ring

/-- Every time is `k` periods away from a time in the first period. -/
theorem reduce_time {lo P : ℚ} (hP : 0 < P) (t : ℚ) : ∃ (t' : ℚ) (k : ℤ), lo ≤ t' ∧ t' < lo + P ∧ t = t' + k * P := by
  refine ⟨t - ⌊(t - lo) / P⌋ * P, ⌊(t - lo) / P⌋, ?_, ?_, by ring⟩
  · have := Int.floor_le ((t - lo) / P)
    rw [le_div_iff₀ hP] at this; linarith
  · have := Int.lt_floor_add_one ((t - lo) / P)
    rw [div_lt_iff₀ hP] at this; linarith

theorem locate {T : List ℚ} (hT : Increasing T) (hlen : 2 ≤ T.length) {t : ℚ} (h1 : T.getD 0 0 ≤ t)
    (h2 : t ≤ T.getD (T.length - 1) 0) : ∃ (i : Nat) (r : ℚ), Locates T t i r := by
  obtain ⟨n, hn, ha, hb, _⟩ := axisSearch_found hT hlen h1 h2
  exact ⟨n, _, locates_of_cell hT hn ha hb⟩

/-- What the constructor makes of a time axis and `time_periodic = P`. -/
theorem periodicAxis_inc {T T' : List ℚ} {P : ℚ} {app : Bool} (hT : Increasing T) (hne : T ≠ [])
    (h : periodicAxis T P = some (T', app)) :
    Increasing T' ∧ (app = true → T'.length = T.length + 1 ∧ T'.getLastD 0 - T'.headD 0 = P) ∧
      (app = false → T' = T) ∧ T'.headD 0 = T.headD 0 := by
  unfold periodicAxis at h
  split_ifs at h with h1 h2
  · simp only [Option.some.injEq, Prod.mk.injEq] at h
    obtain ⟨rfl, rfl⟩ := h
    exact ⟨hT, fun h => absurd h (by decide), fun _ => rfl, rfl⟩
  · simp only [Option.some.injEq, Prod.mk.injEq] at h
    obtain ⟨rfl, rfl⟩ := h
    have hlen : 1 ≤ T.length := List.length_pos_iff.mpr hne
    have hh : (T ++ [T.headD 0 + P]).headD 0 = T.headD 0 := by
      cases T with
      | nil => exact absurd rfl hne
      | cons a l => rfl
    have hne2 : T.getLastD 0 - T.headD 0 ≠ P := by
      intro e
      apply h1
      unfold isclose
      rw [e, sub_self, abs_zero, decide_eq_true_iff]
      positivity
    refine ⟨?_, ?_, fun h => absurd h (by decide), hh⟩
    · unfold Increasing at *
      rw [List.pairwise_append]
      refine ⟨hT, List.pairwise_singleton _ _, ?_⟩
      intro a ha b hb
      rw [List.mem_singleton] at hb
      subst hb
      obtain ⟨i, hi, rfl⟩ := List.getElem_of_mem ha
      have := inc_le (l := T) hT (show i ≤ T.length - 1 by omega) (by omega)
      rw [List.getD_eq_getElem T 0 hi, ← getLastD_getD] at this
      have : T.getLastD 0 - T.headD 0 < P := lt_of_le_of_ne (not_lt.mp h2) hne2
      linarith
    · intro _
      refine ⟨by simp, ?_⟩
      rw [hh]
      simp

/-- What the constructor makes of the axis, with the length of the period. -/
theorem periodicAxis_span {T T' : List ℚ} {P : ℚ} {app : Bool} (hT : Increasing T) (hne : T ≠ []) (hP : 0 < P)
    (hax : periodicAxis T P = some (T', app)) (hspan : app = true ∨ T.getLastD 0 - T.headD 0 = P) :
    Increasing T' ∧ 2 ≤ T'.length ∧ T'.getD (T'.length - 1) 0 - T'.getD 0 0 = P ∧ T.length ≤ T'.length ∧
      (app = true → T'.length = T.length + 1) ∧ (app = false → T' = T) := by
  obtain ⟨hinc, happ, hnot, hhead⟩ := periodicAxis_inc hT hne hax
  have hPe : T'.getLastD 0 - T'.headD 0 = P := by
    rcases hspan with h | h
    · exact (happ h).2
    · rcases app with _ | _
      · rw [hnot rfl]; exact h
      · exact (happ rfl).2
  rw [headD_getD, getLastD_getD] at hPe
  have hlen : 2 ≤ T'.length := by
    by_contra hh
    have : T'.length = 0 ∨ T'.length = 1 := by omega
    rcases this with h | h <;> rw [h] at hPe <;> simp at hPe <;> linarith
  refine ⟨hinc, hlen, hPe, ?_, fun h => (happ h).1, hnot⟩
  rcases app with _ | _
  · rw [hnot rfl]
  · rw [(happ rfl).1]; omega

/-- Scipy, any number of snapshots: what the field gives `k` periods later depends on the time within the period only. -/
theorem periodic_at {T' : List ℚ} (hT : Increasing T') (hlen : 2 ≤ T'.length) (m : Nat) (hm : m ≤ T'.length) (e : Bool)
    {snap : Nat → Except Err ℚ} {v : Nat → ℚ} (hs : ∀ j, j < T'.length → snap j = .ok (v j)) {t' : ℚ}
    (h1 : T'.getD 0 0 ≤ t') (h2 : t' < T'.getD (T'.length - 1) 0) :
    ∃ n, n + 1 < T'.length ∧ T'.getD n 0 ≤ t' ∧ t' < T'.getD (n + 1) 0 ∧ ∀ k : ℤ,
      evalTime (TAxis.periodicOf m T' e) snap (t' + k * (T'.getD (T'.length - 1) 0 - T'.getD 0 0)) =
        .ok (if n + 1 < m ∧ T'.getD n 0 < t' then
          v n + (v (n + 1) - v n) * ((t' - T'.getD n 0) / (T'.getD (n + 1) 0 - T'.getD n 0)) else v n) := by
  obtain ⟨n, hn, hn1, ha, hb⟩ := timeIndex_periodic hT hlen e h1 h2 (k := 0) rfl
  refine ⟨n, hn1, ha, hb, fun k => ?_⟩
  obtain ⟨n', hn', hn1', ha', hb'⟩ := timeIndex_periodic hT hlen e h1 h2 (k := k) rfl
  have hnn : n' = n := by
    rcases Nat.lt_trichotomy n' n with h | h | h
    · have := inc_le hT (show n' + 1 ≤ n by omega) (by omega); linarith
    · exact h
    · have := inc_le hT (show n + 1 ≤ n' by omega) (by omega); linarith
  subst hnn
  have hidx : timeIndex (TAxis.periodicOf m T' e) (t' + k * (T'.getD (T'.length - 1) 0 - T'.getD 0 0)) = .ok ((n' : ℤ), k) := hn'
  refine evalTime_at (a := TAxis.periodicOf m T' e) (t' := t') hs hidx (show n' < T'.length by omega) ?_ hm
  unfold TAxis.periodicOf
  simp only [headD_getD, getLastD_getD]
  ring

/-- The snapshots after construction. -/
theorem periodicSnap_ok {n : Nat} (app : Bool) {snap : Nat → Except Err ℚ} {v : Nat → ℚ} (hn : 1 ≤ n) (hs : ∀ j, j < n → snap j = .ok (v j))
    (j : Nat) (hj : j < n ∨ (app = true ∧ j = n)) :
    periodicSnap n app snap j = .ok (if app && decide (j = n) then v 0 else v j) := by
  unfold periodicSnap
  split_ifs with h
  · exact hs 0 (by omega)
  · rcases hj with hj | ⟨h1, h2⟩
    · exact hs j hj
    · exact absurd (by rw [h1, h2]; simp) h

/-- C33 (Scipy): a field constructed with `time_periodic = P`, on an axis that is extended by the constructor or already
spans exactly `P`, has the same value at `t` and `t + n P`, for every time and integer. -/
theorem C33_scipy (T T' : List ℚ) (P : ℚ) (app : Bool) (hT : Increasing T) (hne : T ≠ []) (hP : 0 < P)
    (hax : periodicAxis T P = some (T', app)) (hspan : app = true ∨ T.getLastD 0 - T.headD 0 = P)
    (extrap : Bool) (snap : Nat → Except Err ℚ) (v : Nat → ℚ) (hs : ∀ j, j < T.length → snap j = .ok (v j)) (t : ℚ) (n : ℤ) :
    evalTime (TAxis.periodicOf T.length T' extrap) (periodicSnap T.length app snap) (t + n * P) =
      evalTime (TAxis.periodicOf T.length T' extrap) (periodicSnap T.length app snap) t := by
  obtain ⟨hinc, hlen, hPe, hle, ha, hb⟩ := periodicAxis_span hT hne hP hax hspan
  have hs' : ∀ j, j < T'.length → periodicSnap T.length app snap j = .ok (if app && decide (j = T.length) then v 0 else v j) := by
    intro j hj
    apply periodicSnap_ok app (List.length_pos_iff.mpr hne) hs
    rcases app with _ | _
    · rw [hb rfl] at hj; exact Or.inl hj
    · have := ha rfl
      rcases Nat.lt_or_ge j T.length with h | h
      · exact Or.inl h
      · exact Or.inr ⟨rfl, by omega⟩
  obtain ⟨t', k, a1, a2, ht⟩ := reduce_time (lo := T'.getD 0 0) hP t
  obtain ⟨i, _, _, _, hk⟩ := periodic_at hinc hlen T.length hle extrap hs' a1 (by linarith)
  have e1 := hk k
  have e2 := hk (k + n)
  rw [hPe] at e1 e2
  rw [ht, e1, show t' + (k : ℚ) * P + n * P = t' + ((k + n : ℤ) : ℚ) * P by push_cast; ring, e2]

/-- C33 (Scipy), the value: at a time between two snapshots, and every number of periods before or after, the field is the interpolation
between them. Partial: between the last snapshot and the end of the period the full claim (interpolation towards the first snapshot) is
false, see `C33_last_interval_fails`. -/
theorem C33_scipy_value_partial (T T' : List ℚ) (P : ℚ) (app : Bool) (hT : Increasing T) (hne : T ≠ []) (hP : 0 < P)
    (hax : periodicAxis T P = some (T', app)) (hspan : app = true ∨ T.getLastD 0 - T.headD 0 = P)
    (extrap : Bool) (snap : Nat → Except Err ℚ) (v : Nat → ℚ) (hs : ∀ j, j < T.length → snap j = .ok (v j))
    (t : ℚ) (k : ℤ) (h2 : app = false → t < T.getLastD 0) (i : Nat) (r : ℚ) (hl : Locates T t i r) :
    evalTime (TAxis.periodicOf T.length T' extrap) (periodicSnap T.length app snap) (t + k * P) = .ok (lerp r (v i) (v (i + 1))) := by
  obtain ⟨hinc, hlen, hPe, hle, ha, hb⟩ := periodicAxis_span hT hne hP hax hspan
  obtain ⟨hl2, r1, r2⟩ := locates_range hT hl
  have hs' : ∀ j, j < T'.length → periodicSnap T.length app snap j = .ok (if app && decide (j = T.length) then v 0 else v j) := by
    intro j hj
    apply periodicSnap_ok app (List.length_pos_iff.mpr hne) hs
    rcases app with _ | _
    · rw [hb rfl] at hj; exact Or.inl hj
    · have := ha rfl
      rcases Nat.lt_or_ge j T.length with h | h
      · exact Or.inl h
      · exact Or.inr ⟨rfl, by omega⟩
  have hget : ∀ j, j < T.length → T'.getD j 0 = T.getD j 0 := by
    intro j hj
    unfold periodicAxis at hax
    split_ifs at hax with c1 c2
    · simp only [Option.some.injEq, Prod.mk.injEq] at hax; rw [hax.1]
    · simp only [Option.some.injEq, Prod.mk.injEq] at hax
      rw [← hax.1]
      simp [List.getD_eq_getElem?_getD, List.getElem?_append_left hj]
  have hlast : t < T'.getD (T'.length - 1) 0 := by
    rcases app with _ | _
    · rw [hb rfl, ← getLastD_getD]; exact h2 rfl
    · have h1 := ha rfl
      have := inc_lt hinc (show T.length - 1 < T'.length - 1 by omega) (by omega)
      rw [hget _ (by omega)] at this
      linarith
  obtain ⟨n, hn1, na, nb, hk⟩ := periodic_at hinc hlen T.length hle extrap hs' (t' := t) (by rw [hget 0 (by omega)]; exact r1) hlast
  have hkk := hk k
  rw [hPe] at hkk
  rw [hkk, lerp_eq]
  have hn : n < T.length := by
    rcases app with _ | _
    · rw [hb rfl] at hn1; omega
    · have := ha rfl; omega
  have hvn : (if app && decide (n = T.length) then v 0 else v n) = v n := by
    rw [if_neg]; simp; intro _; omega
  obtain ⟨p1, p2⟩ := pick hT (v := v) hn (by rw [← hget n hn]; exact na) (fun h => by rw [← hget _ h]; exact nb.le) hl
  congr 1
  by_cases hc : n + 1 < T.length ∧ T'.getD n 0 < t
  · have hvn1 : (if app && decide (n + 1 = T.length) then v 0 else v (n + 1)) = v (n + 1) := by
      rw [if_neg]; simp; intro _; omega
    rw [if_pos hc, hvn, hvn1, hget n hn, hget _ hc.1]
    exact p1 hc.1 (by rw [← hget n hn]; exact hc.2)
  · rw [if_neg hc, hvn]
    exact p2 (by rw [← hget n hn]; exact hc)

/-- C33 is false in Scipy mode for every field that the constructor extends, between the last snapshot and the end of the period: the field
should go from the last snapshot to the first, but it stays at the last snapshot, and jumps at the end of the period. (The appended
snapshot is never used, because `tdim` does not count it.) -/
theorem C33_last_interval_fails (T T' : List ℚ) (P : ℚ) (hT : Increasing T) (hne : T ≠ []) (hP : 0 < P)
    (hax : periodicAxis T P = some (T', true)) (extrap : Bool) (snap : Nat → Except Err ℚ) (v : Nat → ℚ)
    (hs : ∀ j, j < T.length → snap j = .ok (v j)) (t : ℚ) (k : ℤ) (h1 : T.getLastD 0 ≤ t) (h2 : t < T.headD 0 + P) :
    evalTime (TAxis.periodicOf T.length T' extrap) (periodicSnap T.length true snap) (t + k * P) = .ok (v (T.length - 1)) := by
  obtain ⟨hinc, hlen, hPe, hle, ha, _⟩ := periodicAxis_span hT hne hP hax (Or.inl rfl)
  have hl := ha rfl
  have hpos : 1 ≤ T.length := List.length_pos_iff.mpr hne
  have hs' : ∀ j, j < T'.length → periodicSnap T.length true snap j = .ok (if true && decide (j = T.length) then v 0 else v j) := by
    intro j hj
    apply periodicSnap_ok true hpos hs
    rcases Nat.lt_or_ge j T.length with h | h
    · exact Or.inl h
    · exact Or.inr ⟨rfl, by omega⟩
  have hget : ∀ j, j < T.length → T'.getD j 0 = T.getD j 0 := by
    intro j hj
    unfold periodicAxis at hax
    split_ifs at hax with c1 c2
    · simp at hax
    · simp only [Option.some.injEq, Prod.mk.injEq] at hax
      rw [← hax.1]
      simp [List.getD_eq_getElem?_getD, List.getElem?_append_left hj]
  rw [getLastD_getD] at h1
  rw [headD_getD] at h2
  have hle0 := inc_le hT (show 0 ≤ T.length - 1 by omega) (by omega)
  obtain ⟨n, hn1, na, nb, hk⟩ := periodic_at hinc hlen T.length hle extrap hs' (t' := t) (by rw [hget 0 (by omega)]; linarith)
    (by rw [← hget 0 (by omega)] at h2; linarith)
  have hkk := hk k
  rw [hPe] at hkk
  have hn : n = T.length - 1 := by
    by_contra hc
    have := inc_le hT (show n + 1 ≤ T.length - 1 by omega) (by omega)
    rw [hget (n + 1) (by omega)] at nb
    linarith
  rw [hkk, if_neg (by omega), hn, if_neg]
  simp; omega

/-- JIT: the value at `t' + k P`, for `t'` strictly inside the axis or at the start (then `k ≠ 1`). -/
theorem c_periodic_value {T : List ℚ} (hT : Increasing T) (hlen : 2 ≤ T.length) (e : Bool) {snap : Nat → Except Err ℚ}
    {v : Nat → ℚ} (hs : ∀ j, j < T.length → snap j = .ok (v j)) (f : Nat) (ti : ℤ) (hti : ti < T.length) {t' : ℚ} (k : ℤ)
    (h2 : t' < T.getD (T.length - 1) 0) {i : Nat} {r : ℚ} (hl : Locates T t' i r)
    (hk : t' = T.getD 0 0 → k ≠ 1) :
    cEvalTime (TAxis.full T true e) snap (f + 2) (t' + k * (T.getD (T.length - 1) 0 - T.getD 0 0)) ti =
      some (.ok (lerp r (v i) (v (i + 1)))) := by
  obtain ⟨_, h1, _⟩ := locates_range hT hl
  have hP : 0 < T.getD (T.length - 1) 0 - T.getD 0 0 := by linarith
  have hst : startIdx ti < T.length := by unfold startIdx; split_ifs <;> omega
  set P := T.getD (T.length - 1) 0 - T.getD 0 0 with hPdef
  have hfl : ⌊(t' + k * P - T.headD 0) / (T.getLastD 0 - T.headD 0)⌋ = k := by
    rw [headD_getD, getLastD_getD]
    exact floor_shift hP h1 (by linarith) rfl
  have hback : t' + k * P - k * (T.getLastD 0 - T.headD 0) = t' := by
    rw [headD_getD, getLastD_getD]; ring
  have key : ∃ n kk, cSearchTime T true (T.headD 0) (T.getLastD 0) (f + 2) (t' + k * P) ti 0 = some (t', n, kk) ∧
      n < T.length ∧ T.getD n 0 ≤ t' ∧ (n + 1 < T.length → t' ≤ T.getD (n + 1) 0) := by
    by_cases hlow : t' + k * P < T.headD 0
    · have hin : ¬ t' < T.headD 0 := by rw [headD_getD]; linarith
      have e1 : cSearchTime T true (T.headD 0) (T.getLastD 0) (f + 2) (t' + k * P) ti 0 =
          (cSearchTime T true (T.headD 0) (T.getLastD 0) (f + 1) t' ((T.length : ℤ) - 1) k).bind
            (fun r => some (r.1, cWalk ltB T r.1 r.2.1, r.2.2)) := by
        rw [cSearchTime]
        simp only [hlow, and_self, if_true, hfl, hback, if_neg hin]
      rw [e1, cSearch_direct true _ _ f t' _ k (Or.inr ⟨h1, h2.le⟩)]
      have hs0 : startIdx ((T.length : ℤ) - 1) < T.length := by unfold startIdx; split_ifs <;> omega
      obtain ⟨w1, w2, w3⟩ := walk_in hT _ hs0 h1
      obtain ⟨x1, x2, x3⟩ := walk_in hT _ w1 h1
      exact ⟨_, _, rfl, x1, x2, x3⟩
    · by_cases hhigh : T.getLastD 0 < t' + k * P
      · have e1 : cSearchTime T true (T.headD 0) (T.getLastD 0) (f + 2) (t' + k * P) ti 0 =
            (cSearchTime T true (T.headD 0) (T.getLastD 0) (f + 1) t' 0 k).bind
              (fun r => some (r.1, cWalk ltB T r.1 r.2.1, r.2.2)) := by
          rw [cSearchTime]
          simp only [hlow, hhigh, and_self, and_false, if_true, if_false, hfl, hback]
        rw [e1, cSearch_direct true _ _ f t' _ k (Or.inr ⟨h1, h2.le⟩)]
        have hs0 : startIdx 0 < T.length := by unfold startIdx; split_ifs <;> omega
        obtain ⟨w1, w2, w3⟩ := walk_in hT _ hs0 h1
        obtain ⟨x1, x2, x3⟩ := walk_in hT _ w1 h1
        exact ⟨_, _, rfl, x1, x2, x3⟩
      · rw [headD_getD] at hlow
        rw [getLastD_getD] at hhigh
        have hk0 : k = 0 := by
          have a : (k : ℚ) * P < 1 * P + P := by nlinarith
          have b : -1 * P < (k : ℚ) * P := by nlinarith
          have a' : (k : ℚ) < 2 := by
            have := lt_of_mul_lt_mul_right (by linarith : (k : ℚ) * P < 2 * P) hP.le; exact this
          have b' : (-1 : ℚ) < k := lt_of_mul_lt_mul_right b hP.le
          have a'' : k < 2 := by exact_mod_cast a'
          have b'' : -1 < k := by exact_mod_cast b'
          by_contra hne
          have h1k : k = 1 := by omega
          subst h1k
          push_cast at hhigh
          have : t' = T.getD 0 0 := by linarith
          exact hk this rfl
        subst hk0
        rw [show t' + ((0 : ℤ) : ℚ) * P = t' by push_cast; ring]
        refine ⟨_, _, cSearch_direct true _ _ (f + 1) t' ti 0 (Or.inr ⟨h1, h2.le⟩), ?_⟩
        exact walk_in hT _ hst h1
  obtain ⟨n, kk, hidx, w1, w2, w3⟩ := key
  rw [lerp_eq, cEvalTime_at (a := TAxis.full T true e) hs ?_ hidx w1]
  · obtain ⟨p1, p2⟩ := pick hT (v := v) w1 w2 w3 hl
    congr 2
    by_cases hc : n + 1 < T.length ∧ T.getD n 0 < t'
    · exact (if_pos hc).trans (p1 hc.1 hc.2)
    · exact (if_neg hc).trans (p2 hc)
  · rintro ⟨h, _⟩; exact Bool.noConfusion h

/-- JIT: at the last time of the axis, the last snapshot. -/
theorem c_periodic_end {T : List ℚ} (hT : Increasing T) (hlen : 2 ≤ T.length) (e : Bool) {snap : Nat → Except Err ℚ}
    {v : Nat → ℚ} (hs : ∀ j, j < T.length → snap j = .ok (v j)) (f : Nat) (ti : ℤ) (hti : ti < T.length) :
    cEvalTime (TAxis.full T true e) snap (f + 1) (T.getD (T.length - 1) 0) ti = some (.ok (v (T.length - 1))) := by
  have hst : startIdx ti < T.length := by unfold startIdx; split_ifs <;> omega
  have h0 := inc_le hT (show 0 ≤ T.length - 1 by omega) (by omega)
  have hidx := cSearch_direct (T := T) true (T.headD 0) (T.getLastD 0) f (T.getD (T.length - 1) 0) ti 0 (Or.inr ⟨h0, le_rfl⟩)
  obtain ⟨w1, w2, w3⟩ := walk_in hT (startIdx ti) hst h0
  rw [cEvalTime_at (a := TAxis.full T true e) hs ?_ hidx w1]
  · have hl : Locates T (T.getD (T.length - 1) 0) (T.length - 2 : Nat) 1 :=
      ⟨T.length - 2, _, _, rfl, getD_some (by omega), getD_some (show T.length - 2 + 1 < T.length by omega),
        by norm_num, le_rfl, by rw [show T.length - 2 + 1 = T.length - 1 by omega]; ring⟩
    obtain ⟨p1, p2⟩ := pick hT (v := v) w1 w2 w3 hl
    congr 2
    have e : (1 - 1 : ℚ) * v (T.length - 2) + 1 * v (T.length - 2 + 1) = v (T.length - 1) := by
      rw [show T.length - 2 + 1 = T.length - 1 by omega]; ring
    rw [e] at p1 p2
    by_cases hc : cWalk ltB T (T.getD (T.length - 1) 0) (startIdx ti) + 1 < T.length ∧
        T.getD (cWalk ltB T (T.getD (T.length - 1) 0) (startIdx ti)) 0 < T.getD (T.length - 1) 0
    · exact (if_pos hc).trans (p1 hc.1 hc.2)
    · exact (if_neg hc).trans (p2 hc)
  · rintro ⟨h, _⟩; exact Bool.noConfusion h

/-- C33 (JIT), on an axis that spans exactly the period: the value at `t + n P` is the value at `t`, whatever the stored time indices, if the
first and last snapshots have the same value, or if none of the two times is the last of the axis. Partial: otherwise it is false
(`C33_jit_end_of_axis`), and for axes that the constructor extends see `C33_jit_value_partial` and `C33_jit_never_ends_fails`. -/
theorem C33_jit_partial (T T' : List ℚ) (P : ℚ) (hT : Increasing T) (hne : T ≠ []) (hP : 0 < P)
    (hax : periodicAxis T P = some (T', false)) (hspan : T.getLastD 0 - T.headD 0 = P)
    (extrap : Bool) (snap : Nat → Except Err ℚ)
    (v : Nat → ℚ) (hs : ∀ j, j < T.length → snap j = .ok (v j)) (f f' : Nat) (ti ti' : ℤ) (hti : ti < T.length) (hti' : ti' < T.length)
    (t : ℚ) (n : ℤ) (hend : v 0 = v (T.length - 1) ∨ (t ≠ T.getLastD 0 ∧ t + n * P ≠ T.getLastD 0)) :
    cEvalTime (TAxis.periodicOf T.length T' extrap) (periodicSnap T.length false snap) (f + 2) (t + n * P) ti =
      cEvalTime (TAxis.periodicOf T.length T' extrap) (periodicSnap T.length false snap) (f' + 2) t ti' := by
  obtain ⟨hinc, hlen, hPe, hle, _, hb⟩ := periodicAxis_span hT hne hP hax (Or.inr hspan)
  have hTT := hb rfl
  subst hTT
  have hax2 : TAxis.periodicOf T'.length T' extrap = TAxis.full T' true extrap := rfl
  rw [hax2]
  have hs' : ∀ j, j < T'.length → periodicSnap T'.length false snap j = .ok (v j) := by
    intro j hj; unfold periodicSnap; simpa using hs j hj
  obtain ⟨t', k, a1, a2, ht⟩ := reduce_time (lo := T'.getD 0 0) hP t
  obtain ⟨i, r, hl⟩ := locate hinc hlen a1 (by linarith)
  rw [getLastD_getD] at hend
  have all : ∀ (f : Nat) (ti : ℤ), ti < T'.length → ∀ k : ℤ, (v 0 = v (T'.length - 1) ∨ t' + k * P ≠ T'.getD (T'.length - 1) 0) →
      cEvalTime (TAxis.full T' true extrap) (periodicSnap T'.length false snap) (f + 2) (t' + k * P) ti =
        some (.ok (lerp r (v i) (v (i + 1)))) := by
    intro f ti hti k he
    by_cases hk : t' = T'.getD 0 0 → k ≠ 1
    · rw [← hPe]
      exact c_periodic_value hinc hlen extrap hs' f ti hti k (by linarith) hl hk
    · push Not at hk
      obtain ⟨ht0, hk1⟩ := hk
      have e1 : t' + (k : ℚ) * P = T'.getD (T'.length - 1) 0 := by rw [hk1, ht0, ← hPe]; push_cast; ring
      have he' : v 0 = v (T'.length - 1) := by
        rcases he with h | h
        · exact h
        · exact absurd e1 h
      rw [e1, c_periodic_end hinc hlen extrap hs' (f + 1) ti hti]
      have hl0 : Locates T' t' (0 : Nat) 0 :=
        ⟨0, _, _, rfl, getD_some (by omega), getD_some (by omega), le_rfl, by norm_num, by rw [ht0]; ring⟩
      have := lin_unique hinc hl0 hl v
      rw [lerp_eq, ← this, ← he']
      simp
  have e2 : t + n * P = t' + ((k + n : ℤ) : ℚ) * P := by rw [ht]; push_cast; ring
  rw [e2, all f ti hti (k + n) (by rw [← e2]; exact hend.imp id (·.2))]
  rw [ht] at hend ⊢
  rw [all f' ti' hti' k (hend.imp id (·.1))]

/-- JIT, extended axis: the search ends at the time within the period. -/
theorem c_extended_search {T : List ℚ} (hT : Increasing T) (hlen : 2 ≤ T.length) {P : ℚ}
    (hlt : T.getD (T.length - 1) 0 < T.getD 0 0 + P) (f : Nat) (ti : ℤ) (hti : ti < T.length) {t' : ℚ} (k : ℤ)
    (h1 : T.getD 0 0 ≤ t') (h2 : t' ≤ T.getD (T.length - 1) 0) :
    ∃ n kk, cSearchTime T true (T.getD 0 0) (T.getD 0 0 + P) (f + 2) (t' + k * P) ti 0 = some (t', n, kk) ∧
      n < T.length ∧ T.getD n 0 ≤ t' ∧ (n + 1 < T.length → t' ≤ T.getD (n + 1) 0) := by
  have hP : 0 < P := by linarith
  have hPP : T.getD 0 0 + P - T.getD 0 0 = P := by ring
  have hfl : ⌊(t' + k * P - T.getD 0 0) / (T.getD 0 0 + P - T.getD 0 0)⌋ = k := by
    rw [hPP]; exact floor_shift hP h1 (by linarith) rfl
  have hback : t' + k * P - k * (T.getD 0 0 + P - T.getD 0 0) = t' := by rw [hPP]; ring
  have hst : startIdx ti < T.length := by unfold startIdx; split_ifs <;> omega
  by_cases hlow : t' + k * P < T.headD 0
  · have hin : ¬ t' < T.headD 0 := by rw [headD_getD]; linarith
    have e1 : cSearchTime T true (T.getD 0 0) (T.getD 0 0 + P) (f + 2) (t' + k * P) ti 0 =
        (cSearchTime T true (T.getD 0 0) (T.getD 0 0 + P) (f + 1) t' ((T.length : ℤ) - 1) k).bind
          (fun r => some (r.1, cWalk ltB T r.1 r.2.1, r.2.2)) := by
      rw [cSearchTime]
      simp only [hlow, and_self, if_true, hfl, hback, if_neg hin]
    rw [e1, cSearch_direct true _ _ f t' _ k (Or.inr ⟨h1, h2⟩)]
    have hs0 : startIdx ((T.length : ℤ) - 1) < T.length := by unfold startIdx; split_ifs <;> omega
    obtain ⟨w1, w2, w3⟩ := walk_in hT _ hs0 h1
    obtain ⟨x1, x2, x3⟩ := walk_in hT _ w1 h1
    exact ⟨_, _, rfl, x1, x2, x3⟩
  · by_cases hhigh : T.getLastD 0 < t' + k * P
    · have e1 : cSearchTime T true (T.getD 0 0) (T.getD 0 0 + P) (f + 2) (t' + k * P) ti 0 =
          (cSearchTime T true (T.getD 0 0) (T.getD 0 0 + P) (f + 1) t' 0 k).bind
            (fun r => some (r.1, cWalk ltB T r.1 r.2.1, r.2.2)) := by
        rw [cSearchTime]
        simp only [hlow, hhigh, and_self, and_false, if_true, if_false, hfl, hback]
      rw [e1, cSearch_direct true _ _ f t' _ k (Or.inr ⟨h1, h2⟩)]
      have hs0 : startIdx 0 < T.length := by unfold startIdx; split_ifs <;> omega
      obtain ⟨w1, w2, w3⟩ := walk_in hT _ hs0 h1
      obtain ⟨x1, x2, x3⟩ := walk_in hT _ w1 h1
      exact ⟨_, _, rfl, x1, x2, x3⟩
    · rw [headD_getD] at hlow
      rw [getLastD_getD] at hhigh
      have hk0 : k = 0 := by
        have a' : (k : ℚ) < 1 := lt_of_mul_lt_mul_right (by linarith : (k : ℚ) * P < 1 * P) hP.le
        have b' : (-1 : ℚ) < k := lt_of_mul_lt_mul_right (by linarith : -1 * P < (k : ℚ) * P) hP.le
        have a'' : k < 1 := by exact_mod_cast a'
        have b'' : -1 < k := by exact_mod_cast b'
        omega
      subst hk0
      rw [show t' + ((0 : ℤ) : ℚ) * P = t' by push_cast; ring]
      exact ⟨_, _, cSearch_direct true _ _ (f + 1) t' ti 0 (Or.inr ⟨h1, h2⟩), walk_in hT _ hst h1⟩

/-- The axis the constructor extends. -/
theorem periodicAxis_app {T T' : List ℚ} {P : ℚ} (hax : periodicAxis T P = some (T', true)) : T' = T ++ [T.headD 0 + P] := by
  unfold periodicAxis at hax
  split_ifs at hax with c1 c2
  · simp at hax
  · simp only [Option.some.injEq, Prod.mk.injEq, and_true] at hax
    exact hax.symm

theorem extended_parts {T T' : List ℚ} {P : ℚ} (hne : T ≠ []) (hax : periodicAxis T P = some (T', true)) (extrap : Bool) :
    (TAxis.periodicOf T.length T' extrap).time.take (TAxis.periodicOf T.length T' extrap).tdim = T ∧
    (TAxis.periodicOf T.length T' extrap).fullMin = T.getD 0 0 ∧ (TAxis.periodicOf T.length T' extrap).fullMax = T.getD 0 0 + P ∧
    ∀ j, j < T.length → T'.getD j 0 = T.getD j 0 := by
  rw [periodicAxis_app hax]
  unfold TAxis.periodicOf
  have hh : (T ++ [T.headD 0 + P]).headD 0 = T.headD 0 := by
    cases T with
    | nil => exact absurd rfl hne
    | cons a l => rfl
  refine ⟨by simp, ?_, ?_, ?_⟩
  · simp only [hh]; rw [headD_getD]
  · simp only []; rw [← headD_getD]; simp
  · intro j hj
    simp [List.getD_eq_getElem?_getD, List.getElem?_append_left hj]

/-- C33 (JIT), for axes that the constructor extends: at a time between two snapshots, and any number of periods before or after, the field
is the interpolation between them, whatever the stored time index. Partial: between the last snapshot and the end of the period see
`C33_jit_never_ends_fails`. -/
theorem C33_jit_value_partial (T T' : List ℚ) (P : ℚ) (hT : Increasing T) (hne : T ≠ []) (hP : 0 < P)
    (hax : periodicAxis T P = some (T', true)) (extrap : Bool) (snap : Nat → Except Err ℚ) (v : Nat → ℚ)
    (hs : ∀ j, j < T.length → snap j = .ok (v j)) (f : Nat) (ti : ℤ) (hti : ti < T.length)
    (t : ℚ) (k : ℤ) (i : Nat) (r : ℚ) (hl : Locates T t i r) :
    cEvalTime (TAxis.periodicOf T.length T' extrap) (periodicSnap T.length true snap) (f + 2) (t + k * P) ti =
      some (.ok (lerp r (v i) (v (i + 1)))) := by
  obtain ⟨hinc, _, hPe, _, ha, _⟩ := periodicAxis_span hT hne hP hax (Or.inl rfl)
  obtain ⟨hl2, r1, r2⟩ := locates_range hT hl
  obtain ⟨q1, q2, q3, hget⟩ := extended_parts hne hax extrap
  have hlt : T.getD (T.length - 1) 0 < T.getD 0 0 + P := by
    have h1 := ha rfl
    have := inc_lt hinc (show T.length - 1 < T'.length - 1 by omega) (by omega)
    rw [hget _ (by omega)] at this
    rw [hget 0 (by omega)] at hPe
    linarith
  obtain ⟨n, kk, hidx, w1, w2, w3⟩ := c_extended_search hT hl2 hlt f ti hti k r1 r2
  have hs' : ∀ j, j < T.length → periodicSnap T.length true snap j = .ok (v j) := by
    intro j hj
    have := periodicSnap_ok true (List.length_pos_iff.mpr hne) hs j (Or.inl hj)
    rw [this, if_neg]; simp; omega
  rw [cEvalTime_gen (v := v) (t' := t) (n := n) (k := kk) hs' (by rintro ⟨h, _⟩; exact Bool.noConfusion h)
    (by rw [q1, q2, q3]; exact hidx) w1, lerp_eq]
  obtain ⟨p1, p2⟩ := pick hT (v := v) w1 w2 w3 hl
  congr 2
  show (if n + 1 < T.length ∧ T'.getD n 0 < t then
      v n + (v (n + 1) - v n) * ((t - T'.getD n 0) / (T'.getD (n + 1) 0 - T'.getD n 0)) else v n) = _
  rw [hget n w1]
  by_cases hc : n + 1 < T.length ∧ T.getD n 0 < t
  · rw [if_pos hc, hget _ hc.1]
    exact p1 hc.1 hc.2
  · rw [if_neg hc]
    exact p2 hc

theorem c_extended_loops {T : List ℚ} {P : ℚ} (hP : 0 < P) {t' : ℚ} (h0 : T.getD 0 0 ≤ t') (h1 : T.getD (T.length - 1) 0 < t')
    (h2 : t' < T.getD 0 0 + P) : ∀ (f : Nat) (ti p : ℤ), cSearchTime T true (T.getD 0 0) (T.getD 0 0 + P) f t' ti p = none := by
  have hPP : T.getD 0 0 + P - T.getD 0 0 = P := by ring
  have hfl : ⌊(t' - T.getD 0 0) / (T.getD 0 0 + P - T.getD 0 0)⌋ = 0 := by
    rw [hPP]; exact floor_shift (n := 0) hP h0 (by linarith) (by push_cast; ring)
  intro f
  induction f with
  | zero => intro _ _; rfl
  | succ f ih =>
    intro ti p
    have hlow : ¬ t' < T.headD 0 := by rw [headD_getD]; linarith
    have hhigh : T.getLastD 0 < t' := by rw [getLastD_getD]; exact h1
    rw [cSearchTime]
    simp only [hlow, hhigh, and_self, and_false, if_true, if_false, hfl]
    have : t' - ((0 : ℤ) : ℚ) * (T.getD 0 0 + P - T.getD 0 0) = t' := by push_cast; ring
    rw [this, ih]
    rfl

/-- C33 is false in JIT mode for every field that the constructor extends, at every time between the last snapshot and the end of the period,
in this or any other period: the recursion of the C code does not end, however deep the stack. -/
theorem C33_jit_never_ends_fails (T T' : List ℚ) (P : ℚ) (hT : Increasing T) (hne : T ≠ []) (hP : 0 < P)
    (hax : periodicAxis T P = some (T', true)) (extrap : Bool) (snap : Nat → Except Err ℚ) (fuel : Nat) (ti : ℤ)
    (t : ℚ) (k : ℤ) (h1 : T.getLastD 0 < t) (h2 : t < T.headD 0 + P) :
    cEvalTime (TAxis.periodicOf T.length T' extrap) (periodicSnap T.length true snap) fuel (t + k * P) ti = none := by
  obtain ⟨q1, q2, q3, _⟩ := extended_parts hne hax extrap
  have hpos : 1 ≤ T.length := List.length_pos_iff.mpr hne
  rw [getLastD_getD] at h1
  rw [headD_getD] at h2
  have h0 := inc_le hT (show 0 ≤ T.length - 1 by omega) (by omega)
  have hPP : T.getD 0 0 + P - T.getD 0 0 = P := by ring
  have hfl : ⌊(t + k * P - T.getD 0 0) / (T.getD 0 0 + P - T.getD 0 0)⌋ = k := by
    rw [hPP]; exact floor_shift hP (by linarith) (by linarith) rfl
  have hback : t + k * P - k * (T.getD 0 0 + P - T.getD 0 0) = t := by rw [hPP]; ring
  have key : cSearchTime T true (T.getD 0 0) (T.getD 0 0 + P) fuel (t + k * P) ti 0 = none := by
    have loops := c_extended_loops (T := T) hP (t' := t) (by linarith) h1 h2
    cases fuel with
    | zero => rfl
    | succ f =>
      by_cases hlow : t + k * P < T.headD 0
      · have hin : ¬ t < T.headD 0 := by rw [headD_getD]; linarith
        rw [cSearchTime]
        simp only [hlow, and_self, if_true, hfl, hback, if_neg hin]
        rw [loops]; rfl
      · have hhigh : T.getLastD 0 < t + k * P := by
          rw [headD_getD] at hlow
          rw [getLastD_getD]
          have b' : (-1 : ℚ) < k := lt_of_mul_lt_mul_right (by linarith : -1 * P < (k : ℚ) * P) hP.le
          have b'' : (0 : ℤ) ≤ k := by
            have : (-1 : ℤ) < k := by exact_mod_cast b'
            omega
          have : (0 : ℚ) ≤ k := by exact_mod_cast b''
          nlinarith
        rw [cSearchTime]
        simp only [hlow, hhigh, and_self, and_false, if_true, if_false, hfl, hback]
        rw [loops]; rfl
  unfold cEvalTime
  rw [if_neg (by rintro ⟨h, _⟩; exact Bool.noConfusion h), q1, q2, q3]
  show (match cSearchTime T true _ _ fuel (t + k * P) ti 0 with
    | none => none
    | some (t', i, _) => _) = none
  rw [key]

/-- C33: Scipy and JIT give the same value for periodic fields whose axis spans the period, except at its last time. -/
theorem C33_modes_agree (T : List ℚ) (hT : Increasing T) (hlen : 2 ≤ T.length) (extrap : Bool)
    (snap : Nat → Except Err ℚ) (v : Nat → ℚ) (hs : ∀ j, j < T.length → snap j = .ok (v j)) (f : Nat) (ti : ℤ)
    (hti : ti < T.length) (t : ℚ) (hend : t ≠ T.getLastD 0) :
    cEvalTime (TAxis.full T true extrap) snap (f + 2) t ti = some (evalTime (TAxis.full T true extrap) snap t) := by
  have hP : 0 < T.getD (T.length - 1) 0 - T.getD 0 0 := by
    have := inc_lt hT (show 0 < T.length - 1 by omega) (by omega); linarith
  obtain ⟨t', k, a1, a2, ht⟩ := reduce_time (lo := T.getD 0 0) hP t
  obtain ⟨i, r, hl⟩ := locate hT hlen a1 (by linarith)
  rw [ht, periodic_value hT hlen extrap hs k (by linarith) hl,
    c_periodic_value hT hlen extrap hs f ti hti k (by linarith) hl]
  intro h0 hk
  apply hend
  rw [getLastD_getD, ht, h0, hk]; push_cast; ring

/-- C33 is false in JIT mode when the axis already spans the period and the last snapshot differs from the first: the last
time gives the last snapshot, one period later it is the first. (Scipy gives the first both times.) -/
theorem C33_jit_end_of_axis :
    periodicAxis [0, 10] 10 = some ([0, 10], false) ∧
    cEvalTime (TAxis.full [0, 10] true false) exSnap 2 10 0 = some (.ok 100) ∧
    cEvalTime (TAxis.full [0, 10] true false) exSnap 2 (10 + 1 * 10) 0 = some (.ok 0) ∧
    evalTime (TAxis.full [0, 10] true false) exSnap 10 = .ok 0 := by decide +kernel

/-- C33 is false in both modes when the axis spans almost, but not exactly, the period (relative difference below 1e-5):
the field then repeats with the length of the axis. Here the axis spans 100000 s and the period is 100000.5 s. -/
theorem C33_nearly_equal_span :
    periodicAxis [0, 100000] (200001 / 2) = some ([0, 100000], false) ∧
    evalTime (TAxis.full [0, 100000] true false) exSnap 0 = .ok 0 ∧
    evalTime (TAxis.full [0, 100000] true false) exSnap (0 + 1 * (200001 / 2)) = .ok (1 / 2000) ∧
    cEvalTime (TAxis.full [0, 100000] true false) exSnap 2 (0 + 1 * (200001 / 2)) 0 = some (.ok (1 / 2000)) := by
  decide +kernel

/-- C33 is false for every field made from an xarray dataset (`FieldSet.from_xarray_dataset` with `time_periodic=P`): the period is ignored. With
two snapshots or more, a period longer than the series, and no `allow_time_extrapolation`, sampling one period after the first snapshot is
an error in both modes. -/
theorem C33_xarray_fails (T : List ℚ) (P : ℚ) (hT : 2 ≤ T.length) (hP : T.getLastD 0 - T.headD 0 < P)
    (snap : Nat → Except Err ℚ) (fuel : Nat) (ti : ℤ) :
    evalTime (TAxis.ofXarray T (some P) none) snap (T.headD 0 + P) = .error .time ∧
    cEvalTime (TAxis.ofXarray T (some P) none) snap fuel (T.headD 0 + P) ti = some (.error .time) := by
  have h1 : decide (T.length = 1) = false := by simp; omega
  have h2 : T.getLastD 0 < T.headD 0 + P := by linarith
  have h3 : T.getD (T.length - 1) 0 = T.getLastD 0 := by
    rw [List.getLastD_eq_getLast?, List.getLast?_eq_getElem?, List.getD_eq_getElem?_getD]
  constructor
  · simp only [evalTime, timeIndex, TAxis.ofXarray, TAxis.full, Option.getD_none, h1]
    rw [if_pos ⟨trivial, trivial, Or.inr h2⟩]
  · simp only [cEvalTime, TAxis.ofXarray, TAxis.full, Option.getD_none, h1, h3]
    rw [if_pos ⟨trivial, trivial, Or.inr h2⟩]

example : evalTime (TAxis.ofXarray exT (some 40) none) exSnap 10 = .ok 100 ∧
    evalTime (TAxis.ofXarray exT (some 40) none) exSnap (10 + 40) = .error .time := by decide +kernel

/-- Hypotheses of C33 on concrete axes: three snapshots, period 40, and sampling after seven periods; the same with a period that is the
length of the axis. -/
example : periodicAxis exT 40 = some ([0, 10, 30, 40], true) ∧
    evalTime (TAxis.periodicOf 3 [0, 10, 30, 40] false) (periodicSnap 3 true exSnap) (25 + 7 * 40) = .ok 175 ∧
    cEvalTime (TAxis.periodicOf 3 [0, 10, 30, 40] false) (periodicSnap 3 true exSnap) 2 (25 + 7 * 40) 1 = some (.ok 175) ∧
    evalTime (TAxis.periodicOf 3 [0, 10, 30, 40] false) (periodicSnap 3 true exSnap) (25 - 2 * 40) = .ok 175 := by
  decide +kernel

example : periodicAxis exT 30 = some (exT, false) ∧ exT.getLastD 0 - exT.headD 0 = 30 ∧
    evalTime (TAxis.periodicOf 3 exT false) (periodicSnap 3 false exSnap) (25 + 7 * 30) = .ok 175 ∧
    cEvalTime (TAxis.periodicOf 3 exT false) (periodicSnap 3 false exSnap) 2 (25 + 7 * 30) 1 = some (.ok 175) := by
  decide +kernel

/-- The last interval: half way between the last snapshot (200) and the end of the period the value should be 100. -/
example : evalTime (TAxis.periodicOf 3 [0, 10, 30, 40] false) (periodicSnap 3 true exSnap) 35 = .ok 200 ∧
    evalTime (TAxis.full [0, 10, 30, 40] true false) (periodicSnap 3 true exSnap) 35 = .ok 100 ∧
    evalTime (TAxis.periodicOf 3 [0, 10, 30, 40] false) (periodicSnap 3 true exSnap) 40 = .ok 0 := by
  decide +kernel

end Parcels.TimeInterp
