import Verif.Proofs.TimeChunk2

/-!
C39, C40: deferred loading of snapshots.
-/

namespace Parcels.TimeChunk
open Parcels.Search Parcels.TimeInterp Parcels.Interp

/-! ### C39 -/

/-- C39, bookkeeping, for periodic and other fields, in any direction: after every history either nothing is loaded, or
the memory holds two consecutive snapshots of the series, in order, and the grid's times are those of these snapshots. -/
theorem C39_memory (f : Flags) (full : List ℚ) (hT : Increasing full) (hlen : 3 ≤ full.length) (g : DG)
    (hg : Reachable f full g) (t : ℚ) (s : ℤ) (g' : DG) (nx : Option ℚ) (h : gridChunk f g t s = .ok (g', nx)) :
    g'.full = full ∧ ∃ i, Holds g' i := by
  obtain ⟨h1, h2⟩ := reachable_ready hT hlen hg
  obtain ⟨_, e, i, hi⟩ := request_holds h1 h
  exact ⟨e.trans h2, i, hi⟩

/-- C39, forward: after every history, a request at a time within the series (anywhere, if extrapolation is allowed)
succeeds, and then the right snapshots are in memory. -/
theorem C39_forward (f : Flags) (hf : f.periodic = false) (full : List ℚ) (hT : Increasing full) (hlen : 3 ≤ full.length)
    (g : DG) (hg : Reachable f full g) (t : ℚ) (s : ℤ) (hs : 0 ≤ s)
    (ht : f.extrap = true ∨ (full.getD 0 0 ≤ t ∧ t ≤ full.getD (full.length - 1) 0)) :
    ∃ g' nx i, gridChunk f g t s = .ok (g', nx) ∧ g'.full = full ∧ Holds g' i ∧ RightForward full i t := by
  obtain ⟨h1, h2⟩ := reachable_ready hT hlen hg
  have hp := reachable_periods hf hg
  rcases forward_step hf h1 hp hs (t := t) with ⟨g', nx, j, e1, e2, e3⟩ | ⟨_, e2, e3⟩
  · rw [h2] at e3
    exact ⟨g', nx, j, e1, e2.2.1.trans h2, e2.1, e3⟩
  · exfalso
    rw [h2] at e3
    rcases ht with c | ⟨c1, c2⟩
    · rw [e2] at c; exact Bool.noConfusion c
    · rcases e3 with c | c <;> linarith

/-- C39, forward: from the requested time until the returned time, sampling from memory gives the same as sampling with
all snapshots loaded, in both modes. -/
theorem C39_forward_samples (f : Flags) (hf : f.periodic = false) (full : List ℚ) (hT : Increasing full)
    (hlen : 3 ≤ full.length) (g : DG) (hg : Reachable f full g) (t : ℚ) (s : ℤ) (hs : 0 ≤ s) (g' : DG) (nx : Option ℚ)
    (h : gridChunk f g t s = .ok (g', nx)) (snap : Nat → Except Err ℚ) (v : Nat → ℚ)
    (hsnap : ∀ j, j < full.length → snap j = .ok (v j)) (u : ℚ) (h1 : t ≤ u) (h2 : ∀ x, nx = some x → u ≤ x) :
    sampleDeferred f g' snap u = sampleFull f full snap u ∧
    ∀ (n : Nat) (ti ti' : ℤ), ti < 2 → ti' < full.length →
      cSampleDeferred f g' snap (n + 1) u ti = cSampleFull f full snap (n + 1) u ti' := by
  obtain ⟨hr, hfull⟩ := reachable_ready hT hlen hg
  have hp := reachable_periods hf hg
  rcases forward_step hf hr hp hs (t := t) with ⟨g'', nx', j, e1, ⟨d1, d2, d3, d4⟩, e3⟩ | ⟨e1, _⟩
  · rw [h] at e1
    cases e1
    have hf' : g'.full = full := d2.trans hfull
    have hj := d1.lt
    have := sample_agree hf (g := g') (by rw [hf']; exact hT) d1 (snap := snap) (v := v) (by rw [hf']; exact hsnap) (u := u) ?_
    · rw [hf'] at this; exact this
    · rw [hf'] at hj ⊢
      rw [hfull] at e3
      have hnx : nx = none ∧ f.extrap = true ∧ j + 2 = full.length ∨ nx = some (full.getD (j + 1) 0) := by
        rw [d4, hp, hfull]
        unfold nextTime
        by_cases c : (j : ℤ) < (full.length : ℤ) - 2 ∨ f.extrap = false
        · right; rw [if_pos ⟨hs, c⟩]; simp
        · left
          rw [if_neg (fun hh => c hh.2), if_neg (by omega)]
          rw [not_or] at c
          exact ⟨rfl, by simpa using c.2, by omega⟩
      rcases hnx with ⟨_, _, hjn⟩ | hnx
      · have hlast : full.getD (j + 1) 0 = full.getD (full.length - 1) 0 := by
          rw [show full.length - 1 = j + 1 from by omega]
        by_cases c : full.getD (full.length - 1) 0 < u
        · exact Or.inr (Or.inr ⟨hjn, c⟩)
        · left
          rw [hlast]
          refine ⟨?_, not_lt.1 c⟩
          rcases e3 with ⟨a, _⟩ | ⟨a, b⟩ | ⟨_, b⟩
          · linarith
          · omega
          · have := inc_lt hT (Nat.lt_succ_self j) hj
            rw [show j.succ = full.length - 1 from by omega] at this
            linarith
      · have hu := h2 _ hnx
        by_cases c : full.getD j 0 ≤ u
        · exact Or.inl ⟨c, hu⟩
        · rcases e3 with ⟨a, _⟩ | ⟨a, b⟩ | ⟨a, b⟩
          · linarith
          · subst a; exact Or.inr (Or.inl ⟨rfl, not_le.1 c⟩)
          · have := inc_lt hT (Nat.lt_succ_self j) hj
            rw [show j.succ = full.length - 1 from by omega] at this
            linarith
  · rw [h] at e1; cases e1

/-- C39, backward, at a time where a snapshot is, or between the loaded snapshots, or outside the series: the same.
Missing: the first request of a run at another time (`C39_backward_start_between`), and periodic fields
(`C39_backward_periodic`). -/
theorem C39_backward_partial (f : Flags) (g : DG) (t : ℚ) (hg : BackwardState f g t)
    (ht : f.extrap = true ∨ (g.full.getD 0 0 ≤ t ∧ t ≤ g.full.getD (g.full.length - 1) 0)) :
    ∃ g' nx i, gridChunk f g t (-1) = .ok (g', nx) ∧ g'.full = g.full ∧ Holds g' i ∧ RightBackward g.full i t := by
  obtain ⟨hT, hlen, hf, hreach, hst⟩ := hg
  obtain ⟨hr, _⟩ := reachable_ready hT hlen hreach
  rcases backward_step hf hr (reachable_periods hf hreach) hst with ⟨g', nx, j, e1, e2, e3⟩ | ⟨_, e2, e3⟩
  · exact ⟨g', nx, j, e1, e2.2.1, e2.1, e3⟩
  · exfalso
    rcases ht with c | ⟨c1, c2⟩
    · rw [e2] at c; exact Bool.noConfusion c
    · rcases e3 with c | c <;> linarith

/-- What a backward request at a suitable time leaves in memory covers the times down to the returned one. -/
theorem backward_covers {f : Flags} {g g' : DG} {t : ℚ} {nx : Option ℚ} (hg : BackwardState f g t)
    (h : gridChunk f g t (-1) = .ok (g', nx)) :
    g'.full = g.full ∧ ∃ i, Holds g' i ∧ (∀ x, nx = some x → x ≤ t) ∧
      ∀ u, u ≤ t → (∀ x, nx = some x → x ≤ u) → Covers g.full i u := by
  obtain ⟨hT, hlen, hf, hreach, hst⟩ := hg
  obtain ⟨hr, _⟩ := reachable_ready hT hlen hreach
  have hp := reachable_periods hf hreach
  rcases backward_step hf hr hp hst with ⟨g'', nx', j, e1, ⟨d1, d2, d3, d4⟩, e3⟩ | ⟨e1, _⟩
  · rw [h] at e1
    cases e1
    have hj := d1.lt
    rw [d2] at hj
    have hjj := inc_lt hT (Nat.lt_succ_self j) hj
    have hnx : nx = none ∧ f.extrap = true ∧ j = 0 ∨ nx = some (g.full.getD j 0) := by
      rw [d4, hp]
      unfold nextTime
      rw [if_neg (by simp)]
      by_cases c : (0 : ℤ) < (j : ℤ) ∨ f.extrap = false
      · right; rw [if_pos ⟨by norm_num, c⟩]; simp
      · left
        rw [if_neg (fun hh => c hh.2)]
        rw [not_or] at c
        exact ⟨rfl, by simpa using c.2, by omega⟩
    refine ⟨d2, j, d1, ?_, ?_⟩
    · intro x hx
      rcases hnx with ⟨c, _⟩ | c
      · rw [c] at hx; cases hx
      · rw [c] at hx; cases hx
        rcases e3 with ⟨a, _⟩ | ⟨rfl, b⟩ | ⟨a, b⟩
        · exact a.le
        · -- the first snapshot: without extrapolation the request fails before it
          by_contra hc
          rw [not_le] at hc
          have hnone : f.extrap = false := by
            by_contra he
            have he' : f.extrap = true := by simpa using he
            rw [d4] at c
            unfold nextTime at c
            rw [if_neg (by simp), if_neg (by rintro ⟨_, h' | h'⟩; · simp at h'
                                             · rw [he'] at h'; exact Bool.noConfusion h')] at c
            cases c
          -- a request before the series without extrapolation is an error
          have herr : gridChunk f g t (-1) = .error .time := by
            have hti : timeIndex (TAxis.full g.full f.periodic f.extrap) t = .error .time := by
              unfold timeIndex TAxis.full
              rw [hf, hnone]
              simp only [headD_getD]
              rw [if_pos ⟨trivial, trivial, Or.inl hc⟩]
            have hadv : ∃ now st, advance g t (-1) = (-1, now, st) := by
              rcases hr.state with ⟨x1, x2⟩ | ⟨i, hh⟩
              · refine ⟨g.loaded, .notUpdated, ?_⟩
                unfold advance
                rw [if_neg (by rw [x1]; omega), x1]
              · have hadv := advance_holds hh t (-1)
                simp only [hp, Int.cast_zero, zero_mul, sub_zero] at hadv
                have hil := hh.lt
                have := inc_le hT (i := 0) (j := i) (by omega) (by omega)
                rw [if_pos (Or.inl (by linarith))] at hadv
                exact ⟨_, _, hadv⟩
            obtain ⟨now, st, hadv⟩ := hadv
            unfold gridChunk; rw [hadv]; simp only [if_true, hti]
          rw [h] at herr; cases herr
        · have : g.full.getD j 0 ≤ g.full.getD (g.full.length - 1) 0 := inc_le hT (by omega) (by omega)
          linarith
    · intro u hu hux
      by_cases c : u ≤ g.full.getD (j + 1) 0
      · by_cases c' : g.full.getD j 0 ≤ u
        · exact Or.inl ⟨c', c⟩
        · rcases hnx with ⟨_, _, c0⟩ | c0
          · subst c0; exact Or.inr (Or.inl ⟨rfl, not_le.1 c'⟩)
          · exact absurd (hux _ c0) c'
      · rw [not_le] at c
        rcases e3 with ⟨_, b⟩ | ⟨rfl, b⟩ | ⟨a, b⟩
        · linarith
        · exfalso
          have : g.full.getD 0 0 < g.full.getD (0 + 1) 0 := hjj
          linarith
        · refine Or.inr (Or.inr ⟨a, ?_⟩)
          rw [show g.full.length - 1 = j + 1 from by omega]; exact c
  · rw [h] at e1; cases e1

/-- C39, backward, same times: until the returned time, sampling from memory gives the same as sampling with all
snapshots loaded, in both modes. -/
theorem C39_backward_samples_partial (f : Flags) (g : DG) (t : ℚ) (hg : BackwardState f g t) (g' : DG) (nx : Option ℚ)
    (h : gridChunk f g t (-1) = .ok (g', nx)) (snap : Nat → Except Err ℚ) (v : Nat → ℚ)
    (hsnap : ∀ j, j < g.full.length → snap j = .ok (v j)) (u : ℚ) (h1 : u ≤ t) (h2 : ∀ x, nx = some x → x ≤ u) :
    sampleDeferred f g' snap u = sampleFull f g.full snap u ∧
    ∀ (n : Nat) (ti ti' : ℤ), ti < 2 → ti' < g.full.length →
      cSampleDeferred f g' snap (n + 1) u ti = cSampleFull f g.full snap (n + 1) u ti' := by
  obtain ⟨e, i, hi, _, hc⟩ := backward_covers hg h
  have := sample_agree hg.2.2.1 (g := g') (by rw [e]; exact hg.1) hi (snap := snap) (v := v) (by rw [e]; exact hsnap)
    (u := u) (by rw [e]; exact hc u h1 h2)
  rw [e] at this
  exact this

/-- C39, periodic fields, forward: in every forward run that starts at or after the first snapshot, at every time from
the last request until the returned time, both modes give the interpolation between the snapshots around the time
(whole periods removed). Missing: in Scipy mode the end of a period (`C39_scipy_period_end`); backward runs. -/
theorem C39_periodic_partial (f : Flags) (hf : f.periodic = true) (he : f.extrap = false) (full : List ℚ)
    (hT : Increasing full) (hlen : 3 ≤ full.length) (g : DG) (t b : ℚ) (nx : Option ℚ)
    (hrun : ForwardRun f full g t nx b) (snap : Nat → Except Err ℚ) (v : Nat → ℚ)
    (hsnap : ∀ j, j < full.length → snap j = .ok (v j)) (u : ℚ) (h1 : t ≤ u) (h2 : ∀ x, nx = some x → u ≤ x) :
    ∃ p : ℤ, full.getD 0 0 ≤ u - p * (full.getD (full.length - 1) 0 - full.getD 0 0) ∧
      u - p * (full.getD (full.length - 1) 0 - full.getD 0 0) ≤ full.getD (full.length - 1) 0 ∧
      ∀ (j : Nat) (r : ℚ), Locates full (u - p * (full.getD (full.length - 1) 0 - full.getD 0 0)) j r →
        (u - p * (full.getD (full.length - 1) 0 - full.getD 0 0) < full.getD (full.length - 1) 0 →
          sampleDeferred f g snap u = .ok (lerp r (v j) (v (j + 1)))) ∧
        ∀ (n : Nat) (ti : ℤ), ti < 2 → cSampleDeferred f g snap (n + 3) u ti = some (.ok (lerp r (v j) (v (j + 1)))) := by
  obtain ⟨i, p, w⟩ := run_window hf he hT hlen hrun
  obtain ⟨w1, w2⟩ := window_time w h1 h2
  have hil := w.holds.lt
  rw [w.isFull] at hil
  have b1 := inc_le hT (i := 0) (j := i) (by omega) (by omega)
  have b2 := inc_le hT (i := i + 1) (j := full.length - 1) (by omega) (by omega)
  exact ⟨p, by linarith, by linarith, fun j r hl => window_values hf hT hlen w hsnap h1 h2 hl⟩

/-- C39, periodic fields, forward: every request at or after the latest time seen succeeds. -/
theorem C39_periodic_progress (f : Flags) (hf : f.periodic = true) (g : DG) (t : ℚ) (s : ℤ) :
    ∃ g' nx, gridChunk f g t s = .ok (g', nx) := by
  unfold gridChunk
  simp only
  split_ifs
  · have : ∃ x, timeIndex (TAxis.full g.full f.periodic f.extrap) t = .ok x := by
      unfold timeIndex TAxis.full
      rw [hf]
      simp only [Bool.true_eq_false, false_and, if_false, if_true]
      split_ifs
      · exact ⟨_, rfl⟩
      · exact ⟨_, rfl⟩
    obtain ⟨x, hx⟩ := this
    rw [hx]
    exact ⟨_, _, rfl⟩
  · exact ⟨_, _, rfl⟩

def exFull : List ℚ := [0, 1, 2, 3]
def exSnaps (i : Nat) : Except Err ℚ := .ok (i * 10)
/-- Snapshots of a field whose extra last snapshot repeats the first. -/
def exPeriodic (i : Nat) : Except Err ℚ := .ok (([7, 10, 20, 7] : List ℚ).getD i 0)
def plain : Flags := ⟨false, false⟩
def extrapolating : Flags := ⟨false, true⟩
def periodicF : Flags := ⟨true, false⟩
/-- State after a request that succeeds. -/
def after (f : Flags) (g : DG) (t : ℚ) (s : ℤ) : DG :=
  match gridChunk f g t s with
  | .ok (g', _) => g'
  | .error _ => g

/-- C39 is false for a backward run that starts between two snapshots, here at 2.5 between the snapshots of 2 and 3: those
of 1 and 2 are loaded. Sampling then fails, or, if the field may be extrapolated, gives a wrong value. -/
theorem C39_backward_start_between :
    (after plain (DG.fresh exFull) (5 / 2) (-1)).loaded = [1, 2] ∧
    sampleFull plain exFull exSnaps (5 / 2) = .ok 25 ∧
    sampleDeferred plain (after plain (DG.fresh exFull) (5 / 2) (-1)) exSnaps (5 / 2) = .error .time ∧
    sampleDeferred extrapolating (after extrapolating (DG.fresh exFull) (5 / 2) (-1)) exSnaps (5 / 2) = .ok 20 ∧
    cSampleDeferred extrapolating (after extrapolating (DG.fresh exFull) (5 / 2) (-1)) exSnaps 1 (5 / 2) 0 =
      some (.ok 20) := by decide +kernel

/-- C39: a field with snapshots at 0, 1 and 2 and the period 3, sampled at 2.5. With deferred loading it is the interpolation between the last
snapshot and the first; loaded at once it is the last snapshot in Scipy mode (`C33_last_interval_fails`), and in JIT mode the search
never ends (`C33_jit_never_ends_fails`). -/
theorem C39_loaded_at_once_differs :
    periodicAxis [0, 1, 2] 3 = some (exFull, true) ∧
    sampleDeferred periodicF (after periodicF (DG.fresh exFull) 2 1) exPeriodic (5 / 2) = .ok (27 / 2) ∧
    evalTime (TAxis.periodicOf 3 exFull false) (periodicSnap 3 true exPeriodic) (5 / 2) = .ok 20 := by
  decide +kernel

/-- C39 is false in Scipy mode for a periodic field at the end of the period: with the last two snapshots loaded (by a
request at time 2, which asks to be called again at time 3) a sample at time 3 gives the snapshot of time 2. -/
theorem C39_scipy_period_end :
    gridChunk periodicF (DG.fresh exFull) 2 1 = .ok (after periodicF (DG.fresh exFull) 2 1, some 3) ∧
    sampleDeferred periodicF (after periodicF (DG.fresh exFull) 2 1) exPeriodic 3 = .ok 20 ∧
    sampleFull periodicF exFull exPeriodic 3 = .ok 7 ∧
    cSampleDeferred periodicF (after periodicF (DG.fresh exFull) 2 1) exPeriodic 3 3 0 = some (.ok 7) := by
  decide +kernel

/-- C39 is false for backward runs of periodic fields: after a request at the first snapshot's time (0), a request at
-0.5 loads the snapshots of 1 and 2, although the time is equivalent to 2.5. -/
theorem C39_backward_periodic :
    (after periodicF (after periodicF (DG.fresh exFull) 0 (-1)) (-1 / 2) (-1)).loaded = [1, 2] ∧
    sampleFull periodicF exFull exPeriodic (-1 / 2) = .ok (27 / 2) ∧
    sampleDeferred periodicF (after periodicF (after periodicF (DG.fresh exFull) 0 (-1)) (-1 / 2) (-1)) exPeriodic (-1 / 2) ≠
      .ok (27 / 2) := by decide +kernel

/-- Hypotheses of the C39 theorems on a concrete history: a forward run over the snapshots 0, 1, 2, 3, then a jump back. -/
example : Increasing exFull ∧ Reachable plain exFull (after plain (after plain (DG.fresh exFull) (1 / 2) 1) (5 / 2) 1) :=
  ⟨by unfold Increasing exFull; decide +kernel,
   .request (g := after plain (DG.fresh exFull) (1 / 2) 1) (t := 5 / 2) (s := 1) (nx := some 3)
    (.request (g := DG.fresh exFull) .fresh (t := 1 / 2) (s := 1) (nx := some 1) (by decide +kernel)) (by decide +kernel)⟩
example : (after plain (after plain (DG.fresh exFull) (1 / 2) 1) (5 / 2) 1).loaded = [2, 3] ∧
    (after plain (after plain (after plain (DG.fresh exFull) (1 / 2) 1) (5 / 2) 1) 0 1).loaded = [0, 1] := by decide +kernel

/-- Hypotheses of `C39_backward_partial`: a backward run from the end of the series. -/
example : BackwardState plain (after plain (DG.fresh exFull) 3 (-1)) (5 / 2) :=
  ⟨by unfold Increasing; decide +kernel, by decide +kernel, rfl,
    .request (g := DG.fresh (after plain (DG.fresh exFull) 3 (-1)).full) .fresh (t := 3) (s := -1) (nx := some 2)
      (by decide +kernel),
    Or.inr (Or.inl ⟨2, ⟨by decide +kernel, by decide +kernel, by decide +kernel, by decide +kernel⟩, by decide +kernel,
      by decide +kernel⟩)⟩

/-- Hypotheses of `C39_periodic_partial`: a periodic field at time 8, in the third period. -/
def exLate : DG := after periodicF (after periodicF (DG.fresh exFull) (1 / 2) 1) 8 1
theorem exRun : ForwardRun periodicF exFull exLate 8 (some 9) 8 :=
  .request (g := after periodicF (DG.fresh exFull) (1 / 2) 1) (t := 1 / 2) (nx := some 1) (b := 1 / 2) (s := 1)
    (.start (s := 1) (by decide +kernel) (by decide) (by decide +kernel)) (by decide +kernel) (by decide) (by decide +kernel)
example : ForwardRun periodicF exFull (exLate.sampled periodicF (17 / 2)) 8 (some 9) (max 8 (17 / 2)) ∧
    exLate.loaded = [2, 3] ∧ exLate.periods = 2 :=
  ⟨.scipy exRun (by decide +kernel) (by intro x hx; cases hx; decide +kernel), by decide +kernel⟩

end Parcels.TimeChunk
