import Verif.Proofs.TimeChunk

/-!
Lemmas for C39, C40: histories, samples, and periodic fields.
-/

namespace Parcels.TimeChunk
open Parcels.Search Parcels.TimeInterp Parcels.Interp

theorem fresh_ready {full : List ℚ} (h : Increasing full) (hl : 3 ≤ full.length) : Ready (DG.fresh full) :=
  ⟨h, hl, Or.inl ⟨rfl, rfl⟩⟩

/-- A change of `periods` only. -/
theorem ready_periods {g : DG} (h : Ready g) (p : ℤ) : Ready { g with periods := p } := by
  refine ⟨h.inc, h.len, ?_⟩
  rcases h.state with c | ⟨i, c⟩
  · exact Or.inl c
  · exact Or.inr ⟨i, c.idx, c.lt, c.times, c.memory⟩

theorem holds_periods {g : DG} {i : Nat} (h : Holds g i) (p : ℤ) : Holds { g with periods := p } i :=
  ⟨h.idx, h.lt, h.times, h.memory⟩

theorem cSampled_eq (g : DG) (f : Flags) (fuel : Nat) (u : ℚ) (ti : ℤ) :
    ∃ p, g.cSampled f fuel u ti = { g with periods := p } := by
  unfold DG.cSampled
  split
  · exact ⟨_, rfl⟩
  · exact ⟨g.periods, rfl⟩

/-- The index found by `time_index` on the whole axis is an index of the axis. -/
theorem timeIndex_range {f : Flags} {full : List ℚ} (hinc : Increasing full) (hlen : 2 ≤ full.length) {t : ℚ} {i k : ℤ}
    (h : timeIndex (TAxis.full full f.periodic f.extrap) t = .ok (i, k)) : 0 ≤ i ∧ i ≤ (full.length : ℤ) - 1 := by
  cases hf : f.periodic
  · rcases timeIndex_cases hf hinc hlen t with ⟨_, _, h3⟩ | ⟨_, h2⟩ | ⟨_, h2⟩ | ⟨n, h1, h2, _⟩
    · rw [h3] at h; cases h
    · rw [h2] at h; cases h; omega
    · rw [h2] at h; cases h; omega
    · rw [h1] at h; cases h; omega
  · rw [hf] at h
    have hP : 0 < full.getD (full.length - 1) 0 - full.getD 0 0 := by
      have := inc_lt hinc (show 0 < full.length - 1 by omega) (by omega); linarith
    obtain ⟨t', p, a1, a2, ht⟩ := reduce_time (lo := full.getD 0 0) hP t
    obtain ⟨n, h1, h2, _⟩ := timeIndex_periodic hinc hlen f.extrap a1 (by linarith) ht
    rw [h1] at h; cases h; omega

theorem resetIdx_range {g : DG} (hl : 3 ≤ g.full.length) {pr : Bool} {t : ℚ} {s i p : ℤ} (h0 : 0 ≤ i) :
    ∃ j : Nat, (resetIdx g pr t s i p).1 = (j : ℤ) ∧ j + 1 < g.full.length := by
  have : 0 ≤ (resetIdx g pr t s i p).1 ∧ (resetIdx g pr t s i p).1 + 1 < g.full.length := by
    unfold resetIdx
    simp only
    split_ifs <;> omega
  exact ⟨(resetIdx g pr t s i p).1.toNat, by omega, by omega⟩

/-- Every successful request leaves a pair of consecutive snapshots in memory. -/
theorem request_holds {f : Flags} {g g' : DG} (hr : Ready g) {t : ℚ} {s : ℤ} {nx : Option ℚ}
    (h : gridChunk f g t s = .ok (g', nx)) : Ready g' ∧ g'.full = g.full ∧ ∃ i, Holds g' i := by
  have fin : g'.full = g.full → (∃ i, Holds g' i) → Ready g' ∧ g'.full = g.full ∧ ∃ i, Holds g' i := by
    intro e ⟨i, hi⟩
    exact ⟨⟨by rw [e]; exact hr.inc, by rw [e]; exact hr.len, Or.inr ⟨i, hi⟩⟩, e, i, hi⟩
  have hlen := hr.len
  have reset : ∀ now st, advance g t s = (-1, now, st) → Ready g' ∧ g'.full = g.full ∧ ∃ i, Holds g' i := by
    intro now st hadv
    cases hti : timeIndex (TAxis.full g.full f.periodic f.extrap) t with
    | error e =>
      unfold gridChunk at h; rw [hadv] at h; simp only [if_true, hti] at h; cases h
    | ok ik =>
      obtain ⟨i, k⟩ := ik
      obtain ⟨h0, _⟩ := timeIndex_range hr.inc (by omega) hti
      obtain ⟨j, e1, e2⟩ := resetIdx_range (g := g) hlen (pr := f.periodic) (t := t) (s := s)
        (p := storedPeriods (TAxis.full g.full f.periodic f.extrap) t g.periods) h0
      obtain ⟨g'', x1, x2, x3, _⟩ := gridChunk_reset hr hadv hti (Prod.ext e1 rfl) e2
      rw [x1] at h
      cases h
      exact fin x3 ⟨j, x2⟩
  have hdone : ∀ {j}, (∃ g'' nx', gridChunk f g t s = .ok (g'', nx') ∧ Done f g g'' nx' s j) →
      Ready g' ∧ g'.full = g.full ∧ ∃ i, Holds g' i := by
    rintro j ⟨g'', nx', e1, e2⟩
    rw [e1] at h; cases h
    exact fin e2.2.1 ⟨j, e2.1⟩
  rcases hr.state with ⟨h1, h2⟩ | ⟨i, hh⟩
  · apply reset g.loaded .notUpdated
    unfold advance
    rw [if_neg (by rw [h1]; omega), h1]
  · have hadv := advance_holds hh t s
    simp only at hadv
    split_ifs at hadv with c1 c2 c3 c4 c5
    · exact reset _ _ hadv
    · exact reset _ _ hadv
    · exact reset _ _ hadv
    · exact hdone (done_up hh c4.1 (by omega) hadv)
    · exact hdone (done_down hh c5.1 (by omega) hadv)
    · exact hdone (done_keep hh hadv)

theorem reachable_ready {f : Flags} {full : List ℚ} (hinc : Increasing full) (hlen : 3 ≤ full.length) {g : DG}
    (h : Reachable f full g) : Ready g ∧ g.full = full := by
  induction h with
  | fresh => exact ⟨fresh_ready hinc hlen, rfl⟩
  | request _ hc ih =>
    obtain ⟨h1, h2, _⟩ := request_holds ih.1 hc
    exact ⟨h1, h2.trans ih.2⟩
  | scipy _ ih => exact ⟨ready_periods ih.1 _, ih.2⟩
  | @jit g u ti fuel _ ih =>
    obtain ⟨p, e⟩ := cSampled_eq g f fuel u ti
    rw [e]
    exact ⟨ready_periods ih.1 _, ih.2⟩

/-- For fields that are not periodic nothing ever changes `periods`. -/
theorem request_periods {f : Flags} (hf : f.periodic = false) {g g' : DG} {t : ℚ} {s : ℤ} {nx : Option ℚ}
    (h : gridChunk f g t s = .ok (g', nx)) : g'.periods = g.periods := by
  unfold gridChunk at h
  simp only at h
  split_ifs at h with c
  · split at h
    · cases h
    · cases h; exact stored_nonperiodic hf _ _ _
  · cases h; rfl

theorem reachable_periods {f : Flags} (hf : f.periodic = false) {full : List ℚ} {g : DG} (h : Reachable f full g) :
    g.periods = 0 := by
  induction h with
  | fresh => rfl
  | request _ hc ih => rw [request_periods hf hc]; exact ih
  | @scipy g u _ ih =>
    have : (g.sampled f u).periods = g.periods := by
      unfold DG.sampled storedPeriods DG.axis; simp [hf]
    rw [this]; exact ih
  | @jit g u ti fuel _ ih =>
    unfold DG.cSampled
    rw [hf]
    cases fuel with
    | zero => exact ih
    | succ n => rw [cSearch_direct false _ _ n u ti g.periods (Or.inl rfl)]; exact ih

/-! ### Sampling from the loaded pair -/

theorem pair_inc {A B : ℚ} (h : A < B) : Increasing [A, B] := by
  simp [Increasing, h]

theorem pair_locates {full : List ℚ} (hinc : Increasing full) {i : Nat} (hi : i + 1 < full.length) {u : ℚ}
    (h1 : full.getD i 0 ≤ u) (h2 : u ≤ full.getD (i + 1) 0) :
    ∃ r, Locates full u i r ∧ Locates [full.getD i 0, full.getD (i + 1) 0] u 0 r := by
  have hab := inc_lt hinc (Nat.lt_succ_self i) hi
  have h := locates_of_cell hinc hi h1 h2
  refine ⟨_, h, ?_⟩
  have h' := locates_of_cell (pair_inc hab) (n := 0) (show 0 + 1 < [full.getD i 0, full.getD (i + 1) 0].length by simp)
    (by simpa using h1) (by simpa using h2)
  simpa using h'

/-- For a field that is not periodic only the loaded times matter. -/
theorem evalTime_congr {a : TAxis} (h : a.periodic = false) (htd : a.tdim = a.time.length) (snap : Nat → Except Err ℚ) (u : ℚ) :
    evalTime a snap u = evalTime (TAxis.full a.time false a.extrap) snap u := by
  obtain ⟨time, td, lo, hi, pr, ex⟩ := a
  simp only at h htd
  subst h htd
  unfold evalTime TAxis.full timeIndex
  simp only [true_and, Bool.false_eq_true, if_false]
  split_ifs <;> simp

theorem cEvalTime_congr {a : TAxis} (h : a.periodic = false) (htd : a.tdim = a.time.length) (snap : Nat → Except Err ℚ) (fuel : Nat) (u : ℚ) (ti : ℤ) :
    cEvalTime a snap fuel u ti = cEvalTime (TAxis.full a.time false a.extrap) snap fuel u ti := by
  obtain ⟨time, td, lo, hi, pr, ex⟩ := a
  simp only at h htd
  subst h htd
  unfold cEvalTime TAxis.full
  simp only [true_and, List.take_length]
  cases fuel with
  | zero => rfl
  | succ n =>
    rw [cSearch_direct false lo hi n u ti 0 (Or.inl rfl), cSearch_direct false (time.headD 0) (time.getLastD 0) n u ti 0 (Or.inl rfl)]

theorem sample_agree {f : Flags} (hf : f.periodic = false) {g : DG} {i : Nat} (hinc : Increasing g.full) (h : Holds g i)
    {snap : Nat → Except Err ℚ} {v : Nat → ℚ} (hs : ∀ j, j < g.full.length → snap j = .ok (v j)) {u : ℚ}
    (hu : Covers g.full i u) :
    sampleDeferred f g snap u = sampleFull f g.full snap u ∧
      ∀ (n : Nat) (ti ti' : ℤ), ti < 2 → ti' < g.full.length →
        cSampleDeferred f g snap (n + 1) u ti = cSampleFull f g.full snap (n + 1) u ti' := by
  have hil := h.lt
  have hab := inc_lt hinc (Nat.lt_succ_self i) hil
  have hs' : ∀ j, j < [g.full.getD i 0, g.full.getD (i + 1) 0].length → g.inMem snap j = .ok (v (i + j)) := by
    intro j hj
    have : j = 0 ∨ j = 1 := by simp at hj; omega
    unfold DG.inMem
    rw [h.memory]
    rcases this with rfl | rfl
    · exact hs i (by omega)
    · exact hs (i + 1) hil
  have e1 : ∀ u, sampleDeferred f g snap u =
      evalTime (TAxis.full [g.full.getD i 0, g.full.getD (i + 1) 0] false f.extrap) (g.inMem snap) u := by
    intro u
    unfold sampleDeferred
    rw [evalTime_congr (a := g.axis f) hf rfl]
    show evalTime (TAxis.full g.loaded false f.extrap) _ _ = _
    rw [h.times]
  have e2 : ∀ n u ti, cSampleDeferred f g snap n u ti =
      cEvalTime (TAxis.full [g.full.getD i 0, g.full.getD (i + 1) 0] false f.extrap) (g.inMem snap) n u ti := by
    intro n u ti
    unfold cSampleDeferred
    rw [cEvalTime_congr (a := g.axis f) hf rfl]
    show cEvalTime (TAxis.full g.loaded false f.extrap) _ _ _ _ = _
    rw [h.times]
  have hne : g.full ≠ [] := by intro e; rw [e] at hil; simp at hil
  rw [e1]
  simp only [e2]
  unfold sampleFull cSampleFull
  rw [hf]
  rcases hu with ⟨h1, h2⟩ | ⟨hi0, h1⟩ | ⟨hin, h1⟩
  · obtain ⟨r, l1, l2⟩ := pair_locates hinc hil h1 h2
    constructor
    · rw [C32_scipy_inside _ hinc f.extrap snap v hs u i r l1,
        C32_scipy_inside _ (pair_inc hab) f.extrap _ _ hs' u 0 r l2]
      rfl
    · intro n ti ti' ht ht'
      rw [C32_jit_inside _ hinc f.extrap snap v hs n ti' ht' u i r l1,
        C32_jit_inside _ (pair_inc hab) f.extrap _ _ hs' n ti (by simpa using ht) u 0 r l2]
      rfl
  · subst hi0
    have a1 := (C32_scipy_outside _ hinc hne snap v hs u).1 (by rw [headD_getD]; exact h1)
    have a2 := (C32_scipy_outside _ (pair_inc hab) (by simp) _ _ hs' u).1 (by simpa using h1)
    constructor
    · cases f.extrap
      · rw [a1.1, a2.1]
      · rw [a1.2, a2.2]
    · intro n ti ti' ht ht'
      have a1 := (C32_jit_outside _ hinc hne snap v hs n ti' ht' u).1 (by rw [headD_getD]; exact h1)
      have a2 := (C32_jit_outside _ (pair_inc hab) (by simp) _ _ hs' n ti (by simpa using ht) u).1 (by simpa using h1)
      cases f.extrap
      · rw [a1.1, a2.1]
      · rw [a1.2, a2.2]
  · have hlast : g.full.length - 1 = i + 1 := by omega
    rw [hlast] at h1
    have a1 := (C32_scipy_outside _ hinc hne snap v hs u).2 (by rw [getLastD_getD, hlast]; exact h1)
    have a2 := (C32_scipy_outside _ (pair_inc hab) (by simp) _ _ hs' u).2 (by simpa using h1)
    rw [hlast] at a1
    constructor
    · cases f.extrap
      · rw [a1.1, a2.1]
      · rw [a1.2, a2.2]; rfl
    · intro n ti ti' ht ht'
      have a1 := (C32_jit_outside _ hinc hne snap v hs n ti' ht' u).2 (by rw [getLastD_getD, hlast]; exact h1)
      have a2 := (C32_jit_outside _ (pair_inc hab) (by simp) _ _ hs' n ti (by simpa using ht) u).2 (by simpa using h1)
      rw [hlast] at a1
      cases f.extrap
      · rw [a1.1, a2.1]
      · rw [a1.2, a2.2]; rfl

/-! ### Periodic fields, forward -/

/-- The state of a forward run of a periodic field. -/
structure Window (f : Flags) (full : List ℚ) (g : DG) (t : ℚ) (nx : Option ℚ) (b : ℚ) (i : Nat) (p : ℤ) : Prop where
  isFull : g.full = full
  holds : Holds g i
  pos : 0 ≤ p
  lower : full.getD i 0 ≤ t - p * (full.getD (full.length - 1) 0 - full.getD 0 0)
  upper : t - p * (full.getD (full.length - 1) 0 - full.getD 0 0) < full.getD (i + 1) 0
  next : nx = some (full.getD (i + 1) 0 + p * (full.getD (full.length - 1) 0 - full.getD 0 0))
  first : full.getD 0 0 ≤ t
  latest : t ≤ b
  stored : g.periods = 0 ∨ full.getD (full.length - 1) 0 ≤ b

theorem span_eq (g : DG) : g.span = g.full.getD (g.full.length - 1) 0 - g.full.getD 0 0 := by
  unfold DG.span; rw [headD_getD, getLastD_getD]

theorem nextTime_forward {full : List ℚ} {P : ℚ} {s i p : ℤ} (hs : 0 ≤ s) (A B : ℚ) :
    nextTime full false P s i p [A, B] = some (B + p * P) := by
  unfold nextTime
  rw [if_pos ⟨hs, Or.inr rfl⟩]; rfl

/-- The number of periods is not negative if the time is not before the series. -/
theorem periods_nonneg {P lo hi t : ℚ} {p : ℤ} (hP : P = hi - lo) (h0 : 0 < P) (h1 : lo ≤ t) (h2 : t - p * P < hi) : 0 ≤ p := by
  by_contra hc
  have : p ≤ -1 := by omega
  have h3 : (p : ℚ) ≤ -1 := by exact_mod_cast this
  nlinarith

/-- `time_index` on the whole axis of a periodic field, at a time not before the first snapshot, if `periods` is not
stale. -/
theorem timeIndex_forward {f : Flags} (hf : f.periodic = true) {full : List ℚ} (hinc : Increasing full)
    (hlen : 2 ≤ full.length) {t : ℚ} {old : ℤ} (ht0 : full.getD 0 0 ≤ t)
    (hold : old = 0 ∨ full.getD (full.length - 1) 0 ≤ t) :
    ∃ (n : Nat) (k : ℤ), timeIndex (TAxis.full full f.periodic f.extrap) t = .ok ((n : ℤ), k) ∧ n + 1 < full.length ∧
      storedPeriods (TAxis.full full f.periodic f.extrap) t old = k ∧
      full.getD n 0 ≤ t - k * (full.getD (full.length - 1) 0 - full.getD 0 0) ∧
      t - k * (full.getD (full.length - 1) 0 - full.getD 0 0) < full.getD (n + 1) 0 := by
  have hlt := inc_lt hinc (show 0 < full.length - 1 by omega) (by omega)
  have hP : 0 < full.getD (full.length - 1) 0 - full.getD 0 0 := by linarith
  have hne : full ≠ [] := by intro e; rw [e] at hlen; simp at hlen
  obtain ⟨t', k, a1, a2, ht⟩ := reduce_time (lo := full.getD 0 0) hP t
  obtain ⟨n, h1, h2, h3, h4⟩ := timeIndex_periodic hinc hlen f.extrap a1 (by linarith) ht
  have ht' : t - k * (full.getD (full.length - 1) 0 - full.getD 0 0) = t' := by linarith
  refine ⟨n, k, by rw [hf]; exact h1, h2, ?_, by rw [ht']; exact h3, by rw [ht']; exact h4⟩
  unfold storedPeriods
  by_cases c : full.getD (full.length - 1) 0 ≤ t
  · have := (all_le_iff hinc hne t).2 c
    show (if f.periodic && ((full.all fun v => decide (v ≤ t)) || _) then _ else _) = k
    rw [this, hf]
    simp only [Bool.true_and, Bool.true_or, if_true]
    unfold periodsOf TAxis.full
    simp only [headD_getD, getLastD_getD]
    exact floor_shift hP a1 a2 ht
  · have c1 : (full.all fun v => decide (v ≤ t)) = false := by
      rw [Bool.eq_false_iff]; intro hh; exact c ((all_le_iff hinc hne t).1 hh)
    have c2 : (full.all fun v => !decide (v ≤ t)) = false := by
      rw [Bool.eq_false_iff]; intro hh; have := (all_gt_iff hinc hne t).1 hh; linarith
    show (if f.periodic && ((full.all fun v => decide (v ≤ t)) || (full.all fun v => !decide (v ≤ t))) then _ else _) = k
    rw [c1, c2]
    simp only [Bool.or_self, Bool.and_false, Bool.false_eq_true, if_false]
    have hk : k = 0 := by
      have e := floor_shift (t := t) hP a1 a2 ht
      rw [← e, Int.floor_eq_zero_iff]
      rw [not_le] at c
      exact ⟨div_nonneg (by linarith) hP.le, by rw [div_lt_one hP]; linarith⟩
    rw [hk]
    rcases hold with h | h
    · exact h
    · exact absurd h c

/-- A request in a forward run. -/
theorem window_request {f : Flags} (hf : f.periodic = true) (he : f.extrap = false) {g g' : DG} (hr : Ready g) {t : ℚ} {s : ℤ}
    (hs : 0 ≤ s) (ht0 : g.full.getD 0 0 ≤ t) (hold : g.periods = 0 ∨ g.full.getD (g.full.length - 1) 0 ≤ t)
    {nx : Option ℚ} (h : gridChunk f g t s = .ok (g', nx)) :
    ∃ i p, Window f g.full g' t nx t i p := by
  have hlen := hr.len
  have hsp := span_eq g
  have hlt := inc_lt hr.inc (show 0 < g.full.length - 1 by omega) (by omega)
  set P := g.full.getD (g.full.length - 1) 0 - g.full.getD 0 0 with hPdef
  have hP : 0 < P := by linarith
  have reset : ∀ now st, advance g t s = (-1, now, st) → ∃ i p, Window f g.full g' t nx t i p := by
    intro now st hadv
    obtain ⟨n, k, h1, h2, h3, h4, h5⟩ := timeIndex_forward hf hr.inc (by omega) ht0 hold
    have hx := resetIdx_forward (g := g) (periodic := f.periodic) (t := t) hs n
      (storedPeriods (TAxis.full g.full f.periodic f.extrap) t g.periods)
    rw [if_neg (by omega)] at hx
    obtain ⟨g'', x1, x2, x3, x4⟩ := gridChunk_reset hr hadv h1 hx h2
    rw [h3] at x1 x4
    rw [x1, he, nextTime_forward hs] at h
    cases h
    refine ⟨n, k, x3, x2, ?_, h4, h5, by rw [hsp], ht0, le_refl _, ?_⟩
    · refine periods_nonneg (P := P) rfl hP ht0 ?_
      have := inc_le hr.inc (i := n + 1) (j := g.full.length - 1) (by omega) (by omega)
      linarith
    · by_cases c : g.full.getD (g.full.length - 1) 0 ≤ t
      · exact Or.inr c
      · left
        rw [x4]
        have hk : 0 ≤ k := periods_nonneg (P := P) rfl hP ht0
          (by have := inc_le hr.inc (i := n + 1) (j := g.full.length - 1) (by omega) (by omega); linarith)
        by_contra hne
        have : (1 : ℤ) ≤ k := by omega
        have h1' : (1 : ℚ) ≤ k := by exact_mod_cast this
        have := inc_le hr.inc (i := 0) (j := n) (by omega) (by omega)
        nlinarith
  rcases hr.state with ⟨h1, h2⟩ | ⟨i, hh⟩
  · apply reset g.loaded .notUpdated
    unfold advance
    rw [if_neg (by rw [h1]; omega), h1]
  · have hil := hh.lt
    have hadv := advance_holds hh t s
    simp only at hadv
    rw [hsp] at hadv
    have win : ∀ {j}, (∃ g'' nx', gridChunk f g t s = .ok (g'', nx') ∧ Done f g g'' nx' s j) →
        g.full.getD j 0 ≤ t - g.periods * P → t - g.periods * P < g.full.getD (j + 1) 0 →
        ∃ i p, Window f g.full g' t nx t i p := by
      rintro j ⟨g'', nx', e1, e2⟩ w1 w2
      rw [e1] at h; cases h
      refine ⟨j, g.periods, e2.2.1, e2.1, ?_, w1, w2, ?_, ht0, le_refl _, ?_⟩
      · have hj := e2.1.lt
        rw [e2.2.1] at hj
        have := inc_le hr.inc (i := j + 1) (j := g.full.length - 1) (by omega) (by omega)
        exact periods_nonneg (P := P) rfl hP ht0 (by linarith)
      · rw [e2.2.2.2, he, nextTime_forward hs, hsp]
      · rw [e2.2.2.1]; exact hold
    split_ifs at hadv with c1 c2 c3 c4 c5
    · exact reset _ _ hadv
    · exact reset _ _ hadv
    · exact reset _ _ hadv
    · rw [not_or, not_lt, not_lt] at c1
      refine win (done_up hh c4.1 (by omega) hadv) c4.2.1 ?_
      have := inc_lt hr.inc (i := i + 1) (j := i + 1 + 1) (by omega) (by omega)
      linarith [c1.2]
    · omega
    · rw [not_or, not_lt, not_lt] at c1
      refine win (done_keep hh hadv) c1.1 ?_
      by_contra hcon
      rw [not_lt] at hcon
      have hi2 : i + 2 = g.full.length := by
        by_contra hne
        exact c4 ⟨hs, hcon, by omega⟩
      have : g.full.getLastD 0 ≤ t - g.periods * P := by
        rw [getLastD_getD]; rw [show g.full.length - 1 = i + 1 from by omega]; exact hcon
      exact c2 ⟨hs, Or.inr this⟩

/-- A sampled time in the window, reduced to the series. -/
theorem window_time {f : Flags} {full : List ℚ} {g : DG} {t : ℚ} {nx : Option ℚ} {b : ℚ} {i : Nat} {p : ℤ}
    (h : Window f full g t nx b i p) {u : ℚ} (h1 : t ≤ u) (h2 : ∀ x, nx = some x → u ≤ x) :
    full.getD i 0 ≤ u - p * (full.getD (full.length - 1) 0 - full.getD 0 0) ∧
      u - p * (full.getD (full.length - 1) 0 - full.getD 0 0) ≤ full.getD (i + 1) 0 := by
  have := h2 _ h.next
  have := h.lower
  constructor <;> linarith

/-- A sample changes nothing but `periods`, and that to a value other than 0 only beyond the first period. -/
theorem window_sample {f : Flags} {full : List ℚ} {g : DG} {t : ℚ}
    {nx : Option ℚ} {b : ℚ} {i : Nat} {p : ℤ} (h : Window f full g t nx b i p) {u : ℚ} {q : ℤ}
    (hq : q = g.periods ∨ q = 0 ∨ full.getD (full.length - 1) 0 ≤ u) :
    Window f full { g with periods := q } t nx (max b u) i p := by
  refine ⟨h.isFull, holds_periods h.holds q, h.pos, h.lower, h.upper, h.next, h.first, le_trans h.latest (le_max_left _ _), ?_⟩
  show q = 0 ∨ _
  rcases hq with e | e | e
  · rcases h.stored with c | c
    · left; rw [e, c]
    · exact Or.inr (le_trans c (le_max_left _ _))
  · exact Or.inl e
  · exact Or.inr (le_trans e (le_max_right _ _))

theorem window_scipy {f : Flags} {full : List ℚ} (hinc : Increasing full) {g : DG} {t : ℚ}
    {nx : Option ℚ} {b : ℚ} {i : Nat} {p : ℤ} (h : Window f full g t nx b i p) {u : ℚ} (h1 : t ≤ u) :
    Window f full (g.sampled f u) t nx (max b u) i p := by
  have hil := h.holds.lt
  rw [h.isFull] at hil
  have hlt := inc_lt hinc (show 0 < full.length - 1 by omega) (by omega)
  refine window_sample h ?_
  unfold storedPeriods
  split_ifs with c
  · right
    by_cases c' : full.getD (full.length - 1) 0 ≤ u
    · exact Or.inr c'
    · left
      unfold periodsOf DG.axis
      simp only [h.isFull, headD_getD, getLastD_getD]
      rw [Int.floor_eq_zero_iff]
      rw [not_le] at c'
      have := h.first
      exact ⟨div_nonneg (by linarith) (by linarith), by rw [div_lt_one (by linarith)]; linarith⟩
  · exact Or.inl rfl

theorem window_jit {f : Flags} {full : List ℚ} (hinc : Increasing full) {g : DG} {t : ℚ}
    {nx : Option ℚ} {b : ℚ} {i : Nat} {p : ℤ} (h : Window f full g t nx b i p) {u : ℚ} (h1 : t ≤ u)
    (h2 : ∀ x, nx = some x → u ≤ x) (fuel : Nat) (ti : ℤ) :
    Window f full (g.cSampled f fuel u ti) t nx (max b u) i p := by
  have hil := h.holds.lt
  rw [h.isFull] at hil
  have hlt := inc_lt hinc (show 0 < full.length - 1 by omega) (by omega)
  obtain ⟨w1, w2⟩ := window_time h h1 h2
  have hpos := h.pos
  by_cases hp : p = 0
  · rw [hp] at w1 w2
    push_cast at w1 w2
    have ht := h.holds.times
    rw [h.isFull] at ht
    unfold DG.cSampled
    cases fuel with
    | zero => exact window_sample h (q := g.periods) (Or.inl rfl)
    | succ n =>
      rw [cSearch_direct f.periodic _ _ n u ti g.periods (Or.inr ?_)]
      · exact window_sample h (Or.inl rfl)
      · rw [ht]
        simp only [List.getD_cons_zero, List.length_cons, List.length_nil]
        constructor
        · linarith
        · show u ≤ full.getD (i + 1) 0
          linarith
  · obtain ⟨q, e⟩ := cSampled_eq g f fuel u ti
    rw [e]
    refine window_sample h (Or.inr (Or.inr ?_))
    have : (1 : ℤ) ≤ p := by omega
    have h1' : (1 : ℚ) ≤ p := by exact_mod_cast this
    have := inc_le hinc (i := 0) (j := i) (by omega) (by omega)
    nlinarith

theorem run_window {f : Flags} (hf : f.periodic = true) (he : f.extrap = false) {full : List ℚ} (hinc : Increasing full)
    (hlen : 3 ≤ full.length) {g : DG} {t b : ℚ} {nx : Option ℚ} (h : ForwardRun f full g t nx b) :
    ∃ i p, Window f full g t nx b i p := by
  induction h with
  | start h0 hs hc =>
    exact window_request hf he (fresh_ready hinc hlen) hs h0 (Or.inl rfl) hc
  | @request g g' t t' b s nx nx' _ hb hs hc ih =>
    obtain ⟨i, p, w⟩ := ih
    have hr : Ready g := ⟨by rw [w.isFull]; exact hinc, by rw [w.isFull]; exact hlen, Or.inr ⟨i, w.holds⟩⟩
    have := window_request hf he hr hs (t := t') (by rw [w.isFull]; linarith [w.first, w.latest])
      (by
        rcases w.stored with c | c
        · exact Or.inl c
        · right; rw [w.isFull]; linarith) hc
    rw [w.isFull] at this
    exact this
  | scipy _ h1 h2 ih =>
    obtain ⟨i, p, w⟩ := ih
    exact ⟨i, p, window_scipy hinc w h1⟩
  | jit _ h1 h2 ih =>
    obtain ⟨i, p, w⟩ := ih
    exact ⟨i, p, window_jit hinc w h1 h2 _ _⟩

/-- Sampling a periodic field in Scipy mode from the loaded pair `A`, `B`, at a time that is in the pair after removing
`p` periods, but not the end of the series. -/
theorem pair_scipy {A B lo hi u : ℚ} {p : ℤ} {e : Bool} (hAB : A < B) (h1 : lo ≤ A) (h2 : B ≤ hi)
    (ha : A ≤ u - p * (hi - lo)) (hb : u - p * (hi - lo) ≤ B) (hc : u - p * (hi - lo) < hi)
    {snap : Nat → Except Err ℚ} {v : Nat → ℚ} (hs : ∀ j, j < 2 → snap j = .ok (v j)) {r : ℚ}
    (hl : Locates [A, B] (u - p * (hi - lo)) 0 r) :
    evalTime { time := [A, B], tdim := 2, fullMin := lo, fullMax := hi, periodic := true, extrap := e } snap u =
      .ok (lerp r (v 0) (v 1)) := by
  set u' := u - p * (hi - lo) with hu'
  have hP : 0 < hi - lo := by linarith
  have hfl : ⌊(u - lo) / (hi - lo)⌋ = p := floor_shift (t' := u') hP (by linarith) (by linarith) (by rw [hu']; ring)
  have hs' : ∀ j, j < [A, B].length → snap j = .ok (v j) := hs
  have hincp := pair_inc hAB
  -- the value once the index is 0 and the reduced time is `u'`
  have fin0 : ∀ k : ℤ, u - k * (hi - lo) = u' →
      timeIndex { time := [A, B], tdim := 2, fullMin := lo, fullMax := hi, periodic := true, extrap := e } u = .ok (((0 : Nat) : ℤ), k) →
      evalTime { time := [A, B], tdim := 2, fullMin := lo, fullMax := hi, periodic := true, extrap := e } snap u =
        .ok (lerp r (v 0) (v 1)) := by
    intro k hk hidx
    rw [evalTime_at (t' := u') hs' hidx (by simp) hk.symm, lerp_eq]
    have hl' : Locates [A, B] u' ((0 : Nat) : ℤ) r := hl
    obtain ⟨p1, p2⟩ := pick hincp (v := v) (t := u') (n := 0) (by simp) (by simpa using ha) (fun _ => by simpa using hb) hl'
    congr 1
    by_cases hc : 0 + 1 < [A, B].length ∧ [A, B].getD 0 0 < u'
    · exact (if_pos hc).trans (p1 hc.1 hc.2)
    · exact (if_neg hc).trans (p2 hc)
  have arg0 : ∀ x, A ≤ x → x < B → argminIdx [A, B] x = 0 := by
    intro x hx1 hx2
    unfold argminIdx
    simp [hx1, not_le.2 hx2, List.findIdx_cons]
  by_cases hin : A ≤ u ∧ u < B
  · have hp : p = 0 := by
      rw [← hfl, Int.floor_eq_zero_iff]
      exact ⟨div_nonneg (by linarith) hP.le, by rw [div_lt_one hP]; linarith⟩
    refine fin0 0 ?_ ?_
    · rw [hu', hp]
    · unfold timeIndex
      have c1 : ([A, B].all fun v => decide (v ≤ u)) = false := by simp [hin.1, hin.2]
      have c2 : ([A, B].all fun v => !decide (v ≤ u)) = false := by simp [hin.1]
      simp only [c1, c2, Bool.true_eq_false, false_and, if_false, if_true, Bool.or_self, Bool.false_eq_true, arg0 u hin.1 hin.2]
      rfl
  · have hall : (([A, B].all fun v => decide (v ≤ u)) || ([A, B].all fun v => !decide (v ≤ u))) = true := by
      by_cases c : A ≤ u
      · have : B ≤ u := by by_contra hn; exact hin ⟨c, not_le.1 hn⟩
        simp [c, this]
      · have : ¬ B ≤ u := by intro hn; exact c (by linarith)
        have c1 := not_le.1 c
        have c2 := not_le.1 this
        simp [c1, c2]
    have hidx : timeIndex { time := [A, B], tdim := 2, fullMin := lo, fullMax := hi, periodic := true, extrap := e } u =
        .ok (argminIdx [A, B] u', p) := by
      unfold timeIndex periodsOf
      simp only [hall, hfl, Bool.true_eq_false, false_and, if_false, if_true]
      rw [hu']
    rcases hb.lt_or_eq with hlt | heq
    · rw [arg0 u' ha hlt] at hidx
      exact fin0 p hu'.symm hidx
    · have harg : argminIdx [A, B] u' = -1 := by
        unfold argminIdx
        rw [heq]; simp [hAB.le]
      rw [harg] at hidx
      unfold evalTime
      rw [hidx]
      have hw : wrapIdx 2 (-1) = 1 := by decide
      simp only [List.length_cons, List.length_nil, Nat.zero_add, Nat.reduceAdd, hw, ← hu']
      rw [if_neg (by rintro ⟨_, hh⟩; rw [heq] at hh; exact lt_irrefl _ hh), hs 1 (by omega), lerp_eq]
      have hl' : Locates [A, B] u' ((0 : Nat) : ℤ) r := hl
      obtain ⟨_, p2⟩ := pick hincp (v := v) (t := u') (n := 1) (by simp) (by simp [heq]) (fun h => by simp at h) hl'
      have := p2 (by rintro ⟨h, _⟩; simp at h)
      exact congrArg Except.ok this

/-- The same in JIT mode; the end of the series is included. -/
theorem pair_jit {A B lo hi u : ℚ} {p : ℤ} {e : Bool} (hAB : A < B) (h1 : lo ≤ A) (h2 : B ≤ hi) (hp : 0 ≤ p)
    (ha : A ≤ u - p * (hi - lo)) (hb : u - p * (hi - lo) ≤ B) (hc : u - p * (hi - lo) < hi ∨ lo < A)
    {snap : Nat → Except Err ℚ} {v : Nat → ℚ} (hs : ∀ j, j < 2 → snap j = .ok (v j)) {r : ℚ}
    (hl : Locates [A, B] (u - p * (hi - lo)) 0 r) (f : Nat) (ti : ℤ) (hti : ti < 2)
    (hp1 : u - p * (hi - lo) = lo → B = hi → p ≠ 1) :
    cEvalTime { time := [A, B], tdim := 2, fullMin := lo, fullMax := hi, periodic := true, extrap := e } snap (f + 3) u ti =
      some (.ok (lerp r (v 0) (v 1))) := by
  set u' := u - p * (hi - lo) with hu'
  have hP : 0 < hi - lo := by linarith
  have hincp := pair_inc hAB
  have hs' : ∀ j, j < [A, B].length → snap j = .ok (v j) := hs
  have hA : [A, B].getD 0 0 = A := rfl
  have hB : [A, B].getD ([A, B].length - 1) 0 = B := rfl
  have hhead : [A, B].headD 0 = A := rfl
  have hlast : [A, B].getLastD 0 = B := rfl
  have hlen2 : [A, B].length = 2 := rfl
  have hpq : (0 : ℚ) ≤ p := by exact_mod_cast hp
  have hup : u = u' + p * (hi - lo) := by rw [hu']; ring
  have hAu : A ≤ u := by nlinarith
  have key : ∃ n kk, cSearchTime [A, B] true lo hi (f + 3) u ti 0 = some (u', n, kk) ∧
      n < [A, B].length ∧ [A, B].getD n 0 ≤ u' ∧ (n + 1 < [A, B].length → u' ≤ [A, B].getD (n + 1) 0) := by
    have direct : ∀ (x : ℤ) (k : ℤ) (m : Nat), x < 2 → ∃ n, cSearchTime [A, B] true lo hi (m + 1) u' x k = some (u', n, k) ∧
        n < [A, B].length ∧ [A, B].getD n 0 ≤ u' ∧ (n + 1 < [A, B].length → u' ≤ [A, B].getD (n + 1) 0) := by
      intro x k m hx
      have hst : startIdx x < [A, B].length := by unfold startIdx; rw [hlen2]; split_ifs <;> omega
      obtain ⟨w1, w2, w3⟩ := walk_in hincp _ hst (t := u') (by rw [hA]; exact ha)
      exact ⟨_, cSearch_direct true lo hi m u' x k (Or.inr ⟨by rw [hA]; exact ha, by rw [hB]; exact hb⟩), w1, w2, w3⟩
    -- the second walk
    have again : ∀ (n : Nat), n < [A, B].length → cWalk ltB [A, B] u' n < [A, B].length ∧
        [A, B].getD (cWalk ltB [A, B] u' n) 0 ≤ u' ∧
        (cWalk ltB [A, B] u' n + 1 < [A, B].length → u' ≤ [A, B].getD (cWalk ltB [A, B] u' n + 1) 0) :=
      fun n hn => walk_in hincp n hn (t := u') (by rw [hA]; exact ha)
    have hlow : ¬ (u < A) := not_lt.2 hAu
    by_cases hhigh : B < u
    · rcases (show u' < hi ∨ u' = hi from lt_or_eq_of_le (by linarith)) with hlt | heq
      · have hfl : ⌊(u - lo) / (hi - lo)⌋ = p := floor_shift (t' := u') hP (by linarith) (by linarith) hup
        have e1 : cSearchTime [A, B] true lo hi (f + 3) u ti 0 =
            (cSearchTime [A, B] true lo hi (f + 2) u' 0 p).bind (fun r => some (r.1, cWalk ltB [A, B] r.1 r.2.1, r.2.2)) := by
          rw [cSearchTime]
          simp only [hhead, hlast, hlow, hhigh, and_self, and_false, if_true, if_false, hfl]
          rw [hu']
        obtain ⟨n, d1, d2, d3, d4⟩ := direct 0 p (f + 1) (by norm_num)
        rw [e1, d1]
        exact ⟨_, _, rfl, again n d2⟩
      · have hloA : lo < A := by
          rcases hc with c | c
          · linarith
          · exact c
        have hfl : ⌊(u - lo) / (hi - lo)⌋ = p + 1 :=
          floor_shift (t' := lo) hP le_rfl (by linarith) (by rw [hup, heq]; push_cast; ring)
        have hback : u - ((p + 1 : ℤ) : ℚ) * (hi - lo) = lo := by rw [hup, heq]; push_cast; ring
        have e1 : cSearchTime [A, B] true lo hi (f + 3) u ti 0 =
            (cSearchTime [A, B] true lo hi (f + 2) lo 0 (p + 1)).bind
              (fun r => some (r.1, cWalk ltB [A, B] r.1 r.2.1, r.2.2)) := by
          rw [cSearchTime]
          simp only [hhead, hlast, hlow, hhigh, and_self, and_false, if_true, if_false, hfl, hback]
        have hfl0 : ⌊(lo - lo) / (hi - lo)⌋ = 0 := by simp
        have hz : lo - ((0 : ℤ) : ℚ) * (hi - lo) = lo := by push_cast; ring
        have hm : lo - (((0 : ℤ) - 1 : ℤ) : ℚ) * (hi - lo) = u' := by rw [heq]; push_cast; ring
        have e2 : cSearchTime [A, B] true lo hi (f + 2) lo 0 (p + 1) =
            (cSearchTime [A, B] true lo hi (f + 1) u' ((([A, B].length : Nat) : ℤ) - 1) (0 - 1)).bind
              (fun r => some (r.1, cWalk ltB [A, B] r.1 r.2.1, r.2.2)) := by
          rw [cSearchTime]
          simp only [hhead, hloA, and_self, if_true, hfl0, hz, hm]
        obtain ⟨n, d1, d2, d3, d4⟩ := direct ((([A, B].length : Nat) : ℤ) - 1) (0 - 1) f (by rw [hlen2]; norm_num)
        rw [e1, e2, d1]
        obtain ⟨x1, _, _⟩ := again n d2
        exact ⟨_, _, rfl, again _ x1⟩
    · -- within the pair: no period to remove
      have hp0 : p = 0 := by
        by_contra hne
        have : (1 : ℤ) ≤ p := by omega
        have hq1 : (1 : ℚ) ≤ p := by exact_mod_cast this
        rw [not_lt] at hhigh
        have hu1 : u' = lo := by nlinarith
        have hB1 : B = hi := by nlinarith
        have hpp := hp1 hu1 hB1
        have : (2 : ℤ) ≤ p := by omega
        have hq2 : (2 : ℚ) ≤ p := by exact_mod_cast this
        nlinarith
      have huu : u = u' := by rw [hup, hp0]; push_cast; ring
      obtain ⟨n, d1, d2⟩ := direct ti 0 (f + 2) hti
      rw [huu]
      exact ⟨n, 0, d1, d2⟩
  obtain ⟨n, kk, hidx, w1, w2, w3⟩ := key
  rw [lerp_eq, cEvalTime_at (a := { time := [A, B], tdim := 2, fullMin := lo, fullMax := hi, periodic := true, extrap := e }) hs' ?_ hidx w1]
  · have hl' : Locates [A, B] u' ((0 : Nat) : ℤ) r := hl
    obtain ⟨p1, p2⟩ := pick hincp (v := v) w1 w2 w3 hl'
    congr 2
    by_cases hc : n + 1 < [A, B].length ∧ [A, B].getD n 0 < u'
    · exact (if_pos hc).trans (p1 hc.1 hc.2)
    · exact (if_neg hc).trans (p2 hc)
  · rintro ⟨h, _⟩; exact Bool.noConfusion h

/-- Sampling in a forward run of a periodic field. -/
theorem window_values {f : Flags} (hf : f.periodic = true) {full : List ℚ} (hinc : Increasing full) (hlen : 3 ≤ full.length)
    {g : DG} {t b : ℚ} {nx : Option ℚ} {i : Nat} {p : ℤ} (h : Window f full g t nx b i p)
    {snap : Nat → Except Err ℚ} {v : Nat → ℚ} (hs : ∀ j, j < full.length → snap j = .ok (v j)) {u : ℚ} (h1 : t ≤ u)
    (h2 : ∀ x, nx = some x → u ≤ x) {j : Nat} {r : ℚ}
    (hl : Locates full (u - p * (full.getD (full.length - 1) 0 - full.getD 0 0)) j r) :
    (u - p * (full.getD (full.length - 1) 0 - full.getD 0 0) < full.getD (full.length - 1) 0 →
      sampleDeferred f g snap u = .ok (lerp r (v j) (v (j + 1)))) ∧
    ∀ (n : Nat) (ti : ℤ), ti < 2 → cSampleDeferred f g snap (n + 3) u ti = some (.ok (lerp r (v j) (v (j + 1)))) := by
  have hil := h.holds.lt
  rw [h.isFull] at hil
  have hab := inc_lt hinc (Nat.lt_succ_self i) hil
  obtain ⟨w1, w2⟩ := window_time h h1 h2
  obtain ⟨r', l1, l2⟩ := pair_locates hinc hil w1 w2
  have hval : lerp r (v j) (v (j + 1)) = lerp r' (v i) (v (i + 1)) := by
    rw [lerp_eq, lerp_eq]; exact lin_unique hinc hl l1 v
  rw [hval]
  have ht := h.holds.times
  rw [h.isFull] at ht
  have hs' : ∀ k, k < 2 → g.inMem snap k = .ok (v (i + k)) := by
    intro k hk
    have : k = 0 ∨ k = 1 := by omega
    unfold DG.inMem
    rw [h.holds.memory]
    rcases this with rfl | rfl
    · exact hs i (by omega)
    · exact hs (i + 1) hil
  have hax : g.axis f = TAxis.mk [full.getD i 0, full.getD (i + 1) 0] 2 (full.getD 0 0) (full.getD (full.length - 1) 0)
      true f.extrap := by
    unfold DG.axis
    rw [ht, h.isFull, headD_getD, getLastD_getD, hf]
    rfl
  have b1 := inc_le hinc (i := 0) (j := i) (by omega) (by omega)
  have b2 := inc_le hinc (i := i + 1) (j := full.length - 1) (by omega) (by omega)
  constructor
  · intro hc
    unfold sampleDeferred
    rw [hax]
    exact pair_scipy hab b1 b2 w1 w2 hc hs' l2
  · intro n ti hti
    unfold cSampleDeferred
    rw [hax]
    refine pair_jit hab b1 b2 h.pos w1 w2 ?_ hs' l2 n ti hti ?_
    · by_cases hi0 : i = 0
      · left
        have := inc_lt hinc (i := i + 1) (j := full.length - 1) (by omega) (by omega)
        linarith
      · right
        exact inc_lt hinc (by omega) (by omega)
    · intro e1 e2
      exfalso
      have a1 : i = 0 := by
        by_contra hne
        have := inc_lt hinc (i := 0) (j := i) (by omega) (by omega)
        linarith
      have a2 := getD_inj hinc hil (by omega) e2
      omega

end Parcels.TimeChunk
