import Verif.Model.TimeInterp
import Verif.Proofs.Interp
import Mathlib.Algebra.Order.Floor.Ring

/-!
Lemmas for C32 and C33.
-/

namespace Parcels.TimeInterp
open Parcels.Search Parcels.Interp

theorem wrapIdx_nat (n i : Nat) : wrapIdx n (i : ℤ) = i := by unfold wrapIdx; rw [if_neg (by omega)]; simp

/-- The value computed at a suitable index is the interpolation in every cell that contains the time. -/
theorem pick {T : List ℚ} (hT : Increasing T) {v : Nat → ℚ} {t : ℚ} {n : Nat} (hn : n < T.length)
    (h1 : T.getD n 0 ≤ t) (h2 : n + 1 < T.length → t ≤ T.getD (n + 1) 0) {i : Nat} {r : ℚ} (hl : Locates T t i r) :
    (n + 1 < T.length → T.getD n 0 < t →
      v n + (v (n + 1) - v n) * ((t - T.getD n 0) / (T.getD (n + 1) 0 - T.getD n 0)) = (1 - r) * v i + r * v (i + 1)) ∧
    (¬ (n + 1 < T.length ∧ T.getD n 0 < t) → v n = (1 - r) * v i + r * v (i + 1)) := by
  constructor
  · intro h3 _
    rw [← lin_unique hT (locates_of_cell hT h3 h1 (h2 h3)) hl v]
    ring
  · intro h3
    by_cases h4 : n + 1 < T.length
    · have ht : T.getD n 0 = t := by
        by_contra hne; exact h3 ⟨h4, lt_of_le_of_ne h1 hne⟩
      have hl2 : Locates T t n 0 := ⟨n, _, _, rfl, getD_some hn, getD_some h4, le_rfl, by norm_num, by rw [ht]; ring⟩
      rw [← lin_unique hT hl2 hl v]; ring
    · have hl' := hl
      obtain ⟨i', a, b, hi, ha, hb, r0, r1, hx⟩ := hl'
      obtain rfl : i = i' := by exact_mod_cast hi
      have hi2 := (List.getElem?_eq_some_iff.mp hb).1
      rw [getD_some (by omega)] at ha
      rw [getD_some hi2] at hb
      injection ha with ha; injection hb with hb
      have hab := inc_lt hT (Nat.lt_succ_self i) hi2
      rw [Nat.succ_eq_add_one, ha, hb] at hab
      have htb : t ≤ b := by rw [hx]; nlinarith
      have hbn : b ≤ T.getD n 0 := by rw [← hb]; exact inc_le hT (by omega) hn
      have ht : T.getD n 0 = t := by linarith
      obtain ⟨m, rfl⟩ : ∃ m, n = m + 1 := ⟨n - 1, by omega⟩
      have hl2 : Locates T t m 1 :=
        ⟨m, _, _, rfl, getD_some (by omega), getD_some hn, by norm_num, le_rfl, by rw [← ht]; ring⟩
      rw [← lin_unique hT hl2 hl v]; ring

/-- Index found by `argminIdx` when the time is at least the first and less than the last. -/
theorem argminIdx_spec {T : List ℚ} (hT : Increasing T) {t : ℚ} (h1 : T.getD 0 0 ≤ t)
    (h2 : t < T.getD (T.length - 1) 0) :
    ∃ n : Nat, argminIdx T t = n ∧ n + 1 < T.length ∧ T.getD n 0 ≤ t ∧ t < T.getD (n + 1) 0 := by
  have hlen : 2 ≤ T.length := by
    by_contra hh
    have : T.length = 0 ∨ T.length = 1 := by omega
    rcases this with h | h <;> rw [h] at h2 <;> linarith
  have hany : (T.any fun v => decide (v ≤ t)) = true := by
    rw [List.any_eq_true]
    exact ⟨T.getD 0 0, by rw [List.getD_eq_getElem T 0 (by omega)]; exact List.getElem_mem _, by simpa using h1⟩
  have hlast : T.getD (T.length - 1) 0 ∈ T := by
    rw [List.getD_eq_getElem T 0 (by omega)]; exact List.getElem_mem _
  have hall : (T.all fun v => decide (v ≤ t)) = false := by
    rw [Bool.eq_false_iff]
    intro hh
    rw [List.all_eq_true] at hh
    have := hh _ hlast
    rw [decide_eq_true_iff] at this; linarith
  obtain ⟨k1, k2, k3⟩ := findIdx_spec T (fun v => !decide (v ≤ t)) ⟨_, hlast, by simpa using h2⟩
  unfold argminIdx
  rw [hany, hall]
  simp only [if_true, Bool.false_eq_true, if_false]
  generalize T.findIdx (fun v => !decide (v ≤ t)) = k at k1 k2 k3 ⊢
  have hk : k ≠ 0 := by
    rintro rfl
    simp at k2; simp at h1; linarith
  refine ⟨k - 1, by omega, by omega, ?_, ?_⟩
  · have := k3 (k - 1) (by omega); simpa using this
  · rw [show k - 1 + 1 = k by omega]; simpa using k2

theorem all_le_iff {T : List ℚ} (hT : Increasing T) (hne : T ≠ []) (t : ℚ) :
    (T.all fun v => decide (v ≤ t)) = true ↔ T.getD (T.length - 1) 0 ≤ t := by
  have hlen : 1 ≤ T.length := List.length_pos_iff.mpr hne
  rw [List.all_eq_true]
  constructor
  · intro h
    have := h (T.getD (T.length - 1) 0) (by rw [List.getD_eq_getElem T 0 (by omega)]; exact List.getElem_mem _)
    simpa using this
  · intro h v hv
    obtain ⟨i, hi, rfl⟩ := List.getElem_of_mem hv
    have := inc_le hT (show i ≤ T.length - 1 by omega) (by omega)
    rw [List.getD_eq_getElem T 0 hi] at this
    simp; linarith

theorem all_gt_iff {T : List ℚ} (hT : Increasing T) (hne : T ≠ []) (t : ℚ) :
    (T.all fun v => !decide (v ≤ t)) = true ↔ t < T.getD 0 0 := by
  have hlen : 1 ≤ T.length := List.length_pos_iff.mpr hne
  rw [List.all_eq_true]
  constructor
  · intro h
    have := h (T.getD 0 0) (by rw [List.getD_eq_getElem T 0 (by omega)]; exact List.getElem_mem _)
    simpa using this
  · intro h v hv
    obtain ⟨i, hi, rfl⟩ := List.getElem_of_mem hv
    have := inc_le hT (show 0 ≤ i by omega) hi
    rw [List.getD_eq_getElem T 0 hi] at this
    simp; linarith

/-- Range of the times located by a cell. -/
theorem locates_range {T : List ℚ} (hT : Increasing T) {t : ℚ} {i : ℤ} {r : ℚ} (h : Locates T t i r) :
    2 ≤ T.length ∧ T.getD 0 0 ≤ t ∧ t ≤ T.getD (T.length - 1) 0 := by
  obtain ⟨n, a, b, rfl, ha, hb, r0, r1, hx⟩ := h
  have hi2 := (List.getElem?_eq_some_iff.mp hb).1
  rw [getD_some (by omega)] at ha
  rw [getD_some hi2] at hb
  injection ha with ha; injection hb with hb
  have hab := inc_lt hT (Nat.lt_succ_self n) hi2
  rw [Nat.succ_eq_add_one, ha, hb] at hab
  have e1 := inc_le hT (show 0 ≤ n by omega) (by omega)
  have e2 := inc_le hT (show n + 1 ≤ T.length - 1 by omega) (by omega)
  rw [ha] at e1; rw [hb] at e2
  exact ⟨by omega, by nlinarith, by nlinarith⟩

/-- `evalTime` once the index is known. -/
theorem evalTime_at {a : TAxis} {snap : Nat → Except Err ℚ} {v : Nat → ℚ} (hs : ∀ j, j < a.time.length → snap j = .ok (v j))
    {t t' : ℚ} {n : Nat} {k : ℤ} (hidx : timeIndex a t = .ok ((n : ℤ), k)) (hn : n < a.time.length)
    (ht' : t' = t - k * (a.fullMax - a.fullMin)) (htd : a.tdim ≤ a.time.length := by exact le_rfl) :
    evalTime a snap t = .ok (if n + 1 < a.tdim ∧ a.time.getD n 0 < t' then
      v n + (v (n + 1) - v n) * ((t' - a.time.getD n 0) / (a.time.getD (n + 1) 0 - a.time.getD n 0)) else v n) := by
  unfold evalTime
  rw [hidx]
  simp only [wrapIdx_nat, ← ht']
  have e : wrapIdx a.time.length ((n : ℤ) + 1) = n + 1 := by
    rw [show ((n : ℤ) + 1) = ((n + 1 : Nat) : ℤ) by push_cast; rfl, wrapIdx_nat]
  rw [e, hs n hn]
  by_cases hc : n + 1 < a.tdim ∧ a.time.getD n 0 < t'
  · rw [if_pos hc, if_pos ⟨by omega, hc.2⟩, hs (n + 1) (by omega)]
  · rw [if_neg hc, if_neg (by rintro ⟨h1, h2⟩; exact hc ⟨by omega, h2⟩)]

/-- `timeIndex` inside a complete axis, before the last time. -/
theorem timeIndex_inside {T : List ℚ} (hT : Increasing T) (p e : Bool) {t : ℚ} (h1 : T.getD 0 0 ≤ t)
    (h2 : t < T.getD (T.length - 1) 0) :
    ∃ n : Nat, timeIndex (TAxis.full T p e) t = .ok ((n : ℤ), 0) ∧ n + 1 < T.length ∧ T.getD n 0 ≤ t ∧
      t < T.getD (n + 1) 0 := by
  obtain ⟨n, hn, hlen, ha, hb⟩ := argminIdx_spec hT h1 h2
  have hne : T ≠ [] := by intro h; rw [h] at hlen; simp at hlen
  refine ⟨n, ?_, hlen, ha, hb⟩
  have c1 : (T.all fun v => decide (v ≤ t)) = false := by
    rw [Bool.eq_false_iff]; intro h; rw [all_le_iff hT hne] at h; linarith
  have c2 : (T.all fun v => !decide (v ≤ t)) = false := by
    rw [Bool.eq_false_iff]; intro h; rw [all_gt_iff hT hne] at h; linarith
  have c3 : ¬ (p = false ∧ e = false ∧ (t < T.headD 0 ∨ T.getLastD 0 < t)) := by
    rintro ⟨_, _, h | h⟩
    · rw [headD_getD] at h; linarith
    · rw [getLastD_getD] at h; linarith
  unfold timeIndex TAxis.full
  simp only [if_neg c3, c1, c2, Bool.or_self, Bool.false_eq_true, if_false, hn, ite_self]

theorem timeIndex_last {T : List ℚ} (hT : Increasing T) (e : Bool) (hne : T ≠ []) {t : ℚ}
    (h2 : T.getD (T.length - 1) 0 ≤ t) (hok : e = true ∨ t = T.getD (T.length - 1) 0) :
    timeIndex (TAxis.full T false e) t = .ok (((T.length - 1 : Nat) : ℤ), 0) := by
  have hlen : 1 ≤ T.length := List.length_pos_iff.mpr hne
  have c1 := (all_le_iff hT hne t).mpr h2
  have c3 : ¬ (e = false ∧ (t < T.headD 0 ∨ T.getLastD 0 < t)) := by
    rintro ⟨h, h'⟩
    rcases hok with hok | hok
    · rw [hok] at h; exact absurd h (by decide)
    · rw [headD_getD, getLastD_getD] at h'
      have := inc_le hT (show 0 ≤ T.length - 1 by omega) (by omega)
      rcases h' with h' | h' <;> linarith
  unfold timeIndex TAxis.full
  simp only [true_and, if_neg c3, c1, Bool.false_eq_true, if_false, if_true]
  congr 2; omega

/-! ### Periodic axes -/

/-- A complete axis with at least two times has a positive length. -/
theorem period_pos {T : List ℚ} (hT : Increasing T) (hlen : 2 ≤ T.length) :
    0 < (TAxis.full T true false).fullMax - (TAxis.full T true false).fullMin := by
  have := inc_lt hT (show 0 < T.length - 1 by omega) (by omega)
  unfold TAxis.full
  simp only [headD_getD, getLastD_getD]
  linarith

theorem floor_shift {lo P t t' : ℚ} {n : ℤ} (hP : 0 < P) (h1 : lo ≤ t') (h2 : t' < lo + P) (ht : t = t' + n * P) :
    ⌊(t - lo) / P⌋ = n := by
  have : (t - lo) / P = (t' - lo) / P + n := by rw [ht]; field_simp; ring
  rw [this, Int.floor_add_intCast]
  have : ⌊(t' - lo) / P⌋ = 0 := by
    rw [Int.floor_eq_zero_iff]
    constructor
    · exact div_nonneg (by linarith) hP.le
    · rw [div_lt_one hP]; linarith
  omega

theorem timeIndex_periodic {T : List ℚ} (hT : Increasing T) (hlen : 2 ≤ T.length) (e : Bool) {t t' : ℚ} {k : ℤ}
    (h1 : T.getD 0 0 ≤ t') (h2 : t' < T.getD (T.length - 1) 0)
    (ht : t = t' + k * (T.getD (T.length - 1) 0 - T.getD 0 0)) :
    ∃ n : Nat, timeIndex (TAxis.full T true e) t = .ok ((n : ℤ), k) ∧ n + 1 < T.length ∧ T.getD n 0 ≤ t' ∧
      t' < T.getD (n + 1) 0 := by
  have hP : 0 < T.getD (T.length - 1) 0 - T.getD 0 0 := by linarith
  by_cases hin : T.getD 0 0 ≤ t ∧ t < T.getD (T.length - 1) 0
  · have hk := floor_shift (lo := T.getD 0 0) hP h1 (by linarith) ht
    have hk0 := floor_shift (lo := T.getD 0 0) (n := 0) hP hin.1 (by linarith [hin.2]) (by push_cast; ring_nf : t = t + ((0 : ℤ) : ℚ) * (T.getD (T.length - 1) 0 - T.getD 0 0))
    have hk' : k = 0 := by rw [← hk, hk0]
    subst hk'
    have : t = t' := by rw [ht]; push_cast; ring
    subst this
    exact timeIndex_inside hT true e hin.1 hin.2
  · have hne : T ≠ [] := by intro h; rw [h] at hlen; simp at hlen
    obtain ⟨n, hn, hlen', ha, hb⟩ := argminIdx_spec hT h1 h2
    refine ⟨n, ?_, hlen', ha, hb⟩
    have hk := floor_shift (lo := T.getD 0 0) hP h1 (by linarith) ht
    have c : ((T.all fun v => decide (v ≤ t)) || (T.all fun v => !decide (v ≤ t))) = true := by
      rw [Bool.or_eq_true, all_le_iff hT hne, all_gt_iff hT hne]
      by_contra hh; push Not at hh
      exact hin ⟨hh.2, hh.1⟩
    have hp : periodsOf (TAxis.full T true e) t = k := by
      unfold periodsOf TAxis.full
      simp only [headD_getD, getLastD_getD]
      exact hk
    unfold timeIndex
    have e1 : (TAxis.full T true e).time = T := rfl
    have e2 : (TAxis.full T true e).periodic = true := rfl
    have e3 : t - (k : ℚ) * ((TAxis.full T true e).fullMax - (TAxis.full T true e).fullMin) = t' := by
      unfold TAxis.full
      simp only [headD_getD, getLastD_getD]
      rw [ht]; ring
    rw [e1, e2, hp, e3, if_neg (by rintro ⟨h, _⟩; exact absurd h (by decide)), if_pos rfl, if_pos c, hn]

/-! ### JIT -/

theorem walk_in {T : List ℚ} (hT : Increasing T) {t : ℚ} (s : Nat) (hs : s < T.length) (h1 : T.getD 0 0 ≤ t) :
    cWalk ltB T t s < T.length ∧ T.getD (cWalk ltB T t s) 0 ≤ t ∧
      (cWalk ltB T t s + 1 < T.length → t ≤ T.getD (cWalk ltB T t s + 1) 0) := by
  rcases Nat.lt_or_ge T.length 2 with h | h
  · obtain rfl : s = 0 := by omega
    have e : cWalk ltB T t 0 = 0 := by
      unfold cWalk
      have : T.length = 1 := by omega
      rw [this]
      unfold cUp
      rw [this, if_neg (by omega)]
      rfl
    rw [e]
    exact ⟨by omega, h1, fun h => by omega⟩
  · obtain ⟨a, b, c, _⟩ := cWalk_spec (lt := ltB) h (x := t) s (by omega) (by simpa [ltB] using h1)
      (fun i hi => by simpa [ltB] using inc_lt hT (Nat.lt_succ_self i) hi)
      (fun a b c h1 h2 => by simp [ltB] at *; linarith) (fun a => by simp [ltB])
    refine ⟨by omega, by simpa [ltB] using b, fun hh => by simpa [ltB] using c (by omega)⟩

theorem cDown_zero {T : List ℚ} (hT : Increasing T) {t : ℚ} (h : t < T.getD 0 0) : ∀ s, s < T.length →
    cDown ltB T t s = 0 := by
  intro s
  induction s with
  | zero => intro _; rfl
  | succ s ih =>
    intro hs
    unfold cDown
    have := inc_lt hT (Nat.succ_pos s) hs
    have e : ltB t (T.getD (s + 1) 0) = true := by
      unfold ltB; rw [decide_eq_true_iff]; exact lt_trans h this
    rw [e, cond_true]
    exact ih (by omega)

theorem walk_before {T : List ℚ} (hT : Increasing T) {t : ℚ} (s : Nat) (hs : s < T.length) (h : t < T.getD 0 0) :
    cWalk ltB T t s = 0 := by
  unfold cWalk
  obtain ⟨u1, _⟩ := cUp_spec ltB T t T.length s (by omega) (by omega)
  exact cDown_zero hT h _ (by omega)

/-- `cEvalTime` once the index is known. -/
theorem cEvalTime_gen {a : TAxis} {snap : Nat → Except Err ℚ} {v : Nat → ℚ}
    (hs : ∀ j, j < a.tdim → snap j = .ok (v j)) {f : Nat} {t t' : ℚ} {ti : ℤ} {n : Nat} {k : ℤ}
    (hok : ¬ (a.periodic = false ∧ a.extrap = false ∧ (t < a.time.headD 0 ∨ a.time.getD (a.tdim - 1) 0 < t)))
    (hidx : cSearchTime (a.time.take a.tdim) a.periodic a.fullMin a.fullMax f t ti 0 = some (t', n, k)) (hn : n < a.tdim) :
    cEvalTime a snap f t ti = some (.ok (if n + 1 < a.tdim ∧ a.time.getD n 0 < t' then
      v n + (v (n + 1) - v n) * ((t' - a.time.getD n 0) / (a.time.getD (n + 1) 0 - a.time.getD n 0)) else v n)) := by
  unfold cEvalTime
  rw [if_neg hok, hidx]
  simp only [hs n hn]
  by_cases hc : n + 1 < a.tdim ∧ a.time.getD n 0 < t'
  · have e : (decide (n < a.tdim - 1) && decide (a.time.getD n 0 < t')) = true := by
      rw [Bool.and_eq_true, decide_eq_true_iff, decide_eq_true_iff]; exact ⟨by omega, hc.2⟩
    rw [e, if_pos hc, cond_true, hs (n + 1) hc.1]
  · have e : (decide (n < a.tdim - 1) && decide (a.time.getD n 0 < t')) = false := by
      rw [Bool.and_eq_false_iff, decide_eq_false_iff_not, decide_eq_false_iff_not]
      by_contra hh; push Not at hh; exact hc ⟨by omega, hh.2⟩
    rw [e, if_neg hc, cond_false]
    congr 2
    rw [sub_self, zero_div, mul_zero, add_zero]

/-- The same, if there are as many snapshots as times. -/
theorem cEvalTime_at {a : TAxis} {snap : Nat → Except Err ℚ} {v : Nat → ℚ}
    (hs : ∀ j, j < a.time.length → snap j = .ok (v j)) {f : Nat} {t t' : ℚ} {ti : ℤ} {n : Nat} {k : ℤ}
    (hok : ¬ (a.periodic = false ∧ a.extrap = false ∧ (t < a.time.headD 0 ∨ a.time.getLastD 0 < t)))
    (hidx : cSearchTime a.time a.periodic a.fullMin a.fullMax f t ti 0 = some (t', n, k)) (hn : n < a.time.length)
    (htd : a.tdim = a.time.length := by rfl) :
    cEvalTime a snap f t ti = some (.ok (if n + 1 < a.time.length ∧ a.time.getD n 0 < t' then
      v n + (v (n + 1) - v n) * ((t' - a.time.getD n 0) / (a.time.getD (n + 1) 0 - a.time.getD n 0)) else v n)) := by
  rw [cEvalTime_gen (v := v) (t' := t') (n := n) (k := k) (by rw [htd]; exact hs) (by rw [htd, ← getLastD_getD]; exact hok)
    (by rw [htd, List.take_length]; exact hidx) (by rw [htd]; exact hn), htd]

/-- Start index of the C loops. -/
def startIdx (ti : ℤ) : Nat := if ti < 0 then 0 else ti.toNat

theorem cSearch_direct {T : List ℚ} (p : Bool) (lo hi : ℚ) (f : Nat) (t : ℚ) (ti k : ℤ)
    (h : p = false ∨ (T.getD 0 0 ≤ t ∧ t ≤ T.getD (T.length - 1) 0)) :
    cSearchTime T p lo hi (f + 1) t ti k = some (t, cWalk ltB T t (startIdx ti), k) := by
  unfold cSearchTime startIdx
  have c1 : ¬ (p = true ∧ t < T.headD 0) := by
    rintro ⟨h1, h2⟩
    rcases h with h | h
    · rw [h] at h1; exact absurd h1 (by decide)
    · rw [headD_getD] at h2; linarith [h.1]
  have c2 : ¬ (p = true ∧ T.getLastD 0 < t) := by
    rintro ⟨h1, h2⟩
    rcases h with h | h
    · rw [h] at h1; exact absurd h1 (by decide)
    · rw [getLastD_getD] at h2; linarith [h.2]
  simp only [if_neg c1, if_neg c2]

end Parcels.TimeInterp
