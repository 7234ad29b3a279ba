import Verif.Spec.TimeChunk
import Verif.Props.TimeInterp

/-!
Lemmas for C39, C40.
-/

namespace Parcels.TimeChunk
open Parcels.Search Parcels.TimeInterp

theorem slice_eq {full : List ℚ} {i : Nat} (h : i + 1 < full.length) :
    slice full i = [full.getD i 0, full.getD (i + 1) 0] := by
  unfold slice
  rw [List.drop_eq_getElem_cons (by omega), List.take_succ_cons, List.drop_eq_getElem_cons h, List.take_succ_cons,
    List.take_zero, List.getD_eq_getElem _ _ (by omega), List.getD_eq_getElem _ _ h]

/-- A grid in a state the code can produce, as far as the loaded snapshots go. -/
structure Ready (g : DG) : Prop where
  inc : Increasing g.full
  len : 3 ≤ g.full.length
  state : (g.ti = -1 ∧ g.loaded = g.full) ∨ ∃ i, Holds g i

theorem getD_inj {full : List ℚ} (h : Increasing full) {i j : Nat} (hi : i < full.length) (hj : j < full.length)
    (e : full.getD i 0 = full.getD j 0) : i = j := by
  rcases Nat.lt_trichotomy i j with c | c | c
  · exact absurd e (inc_lt h c hj).ne
  · exact c
  · exact absurd e (inc_lt h c hi).ne'

/-- After a reset to index `j` the memory holds snapshots `j` and `j+1`. -/
theorem reset_mem {g : DG} (hr : Ready g) {j : Nat} (hj : j + 1 < g.full.length) (s : ℤ) :
    loadMem (resetStatus g.loaded (slice g.full j)) s j g.mem = (j, j + 1) := by
  rw [slice_eq hj]
  rcases hr.state with ⟨_, h⟩ | ⟨i, h⟩
  · have : resetStatus g.loaded [g.full.getD j 0, g.full.getD (j + 1) 0] = .firstUpdated := by
      unfold resetStatus
      rw [if_pos]
      left; rw [h]; have := hr.len; omega
    rw [this]; simp [loadMem]
  · by_cases c : i = j
    · have : resetStatus g.loaded [g.full.getD j 0, g.full.getD (j + 1) 0] = .notUpdated := by
        unfold resetStatus
        rw [h.times, c]; simp
      rw [this]
      simp only [loadMem]
      rw [h.memory, c]
    · have hne : g.full.getD j 0 ≠ g.full.getD i 0 := fun e =>
        c (getD_inj hr.inc (by have := h.lt; omega) (by omega) e.symm)
      have : resetStatus g.loaded [g.full.getD j 0, g.full.getD (j + 1) 0] = .firstUpdated := by
        unfold resetStatus
        rw [h.times, if_neg (by simp)]
        rw [if_neg (by intro e; exact hne (List.cons.inj e).1), if_neg (by simpa using hne)]
      rw [this]; simp [loadMem]

/-- A reset: from the index found by `time_index`. -/
theorem gridChunk_reset {f : Flags} {g : DG} (hr : Ready g) {t : ℚ} {s : ℤ} {now : List ℚ} {st : Status}
    (hadv : advance g t s = (-1, now, st)) {i k p1 : ℤ} {j : Nat}
    (hti : timeIndex (TAxis.full g.full f.periodic f.extrap) t = .ok (i, k))
    (hidx : resetIdx g f.periodic t s i (storedPeriods (TAxis.full g.full f.periodic f.extrap) t g.periods) = ((j : ℤ), p1))
    (hj : j + 1 < g.full.length) :
    ∃ g', gridChunk f g t s = .ok (g', nextTime g.full f.extrap g.span s j p1 [g.full.getD j 0, g.full.getD (j + 1) 0]) ∧
      Holds g' j ∧ g'.full = g.full ∧ g'.periods = storedPeriods (TAxis.full g.full f.periodic f.extrap) t g.periods := by
  refine ⟨DG.mk g.full j [g.full.getD j 0, g.full.getD (j + 1) 0]
    (storedPeriods (TAxis.full g.full f.periodic f.extrap) t g.periods)
    (loadMem (resetStatus g.loaded [g.full.getD j 0, g.full.getD (j + 1) 0]) s j g.mem), ?_, ?_, ?_, ?_⟩
  · unfold gridChunk
    rw [hadv]
    simp only [if_true, hti, hidx, Int.toNat_natCast, slice_eq hj]
  · constructor
    · rfl
    · exact hj
    · rfl
    · have := reset_mem hr hj s
      rw [slice_eq hj] at this
      exact this
  · rfl
  · rfl

theorem holds_bounds {g : DG} (hr : Ready g) {i : Nat} (h : Holds g i) :
    g.full.headD 0 ≤ g.full.getD i 0 ∧ g.full.getD (i + 1) 0 ≤ g.full.getLastD 0 := by
  have hl := h.lt
  rw [headD_getD, getLastD_getD]
  exact ⟨inc_le hr.inc (by omega) (by omega), inc_le hr.inc (by omega) (by omega)⟩

/-- The first part of the procedure for a grid that holds snapshots `i` and `i+1`. -/
theorem advance_holds {g : DG} {i : Nat} (h : Holds g i) (t : ℚ) (s : ℤ) :
    advance g t s =
      (let t' := t - g.periods * g.span
       if t' < g.full.getD i 0 ∨ g.full.getD (i + 1) 0 < t' then (-1, g.loaded, .notUpdated)
       else if 0 ≤ s ∧ (t' < g.full.headD 0 ∨ g.full.getLastD 0 ≤ t') then (-1, g.loaded, .notUpdated)
       else if s < 0 ∧ (t' ≤ g.full.headD 0 ∨ g.full.getLastD 0 < t') then (-1, g.loaded, .notUpdated)
       else if 0 ≤ s ∧ g.full.getD (i + 1) 0 ≤ t' ∧ (i : ℤ) < (g.full.length : ℤ) - 2 then
         (((i + 1 : Nat) : ℤ), slice g.full (i + 1), .updated)
       else if s < 0 ∧ t' ≤ g.full.getD i 0 ∧ (0 : ℤ) < i then
         (((i - 1 : Nat) : ℤ), slice g.full (i - 1), .updated)
       else ((i : ℤ), g.loaded, .notUpdated)) := by
  unfold advance
  simp only [h.idx, h.times, List.getD_cons_zero, List.getD_cons_succ]
  rw [if_pos (by omega)]
  have e1 : ((i : ℤ) + 1).toNat = i + 1 := by omega
  have e2 : ((i : ℤ) - 1).toNat = i - 1 := by omega
  rw [e1, e2]
  refine if_congr Iff.rfl rfl (if_congr Iff.rfl rfl (if_congr Iff.rfl rfl (if_congr Iff.rfl (by simp) ?_)))
  by_cases c : s < 0 ∧ t - ↑g.periods * g.span ≤ g.full.getD i 0 ∧ (0 : ℤ) < i
  · rw [if_pos c, if_pos c]
    have : ((i : ℤ) - 1) = ((i - 1 : Nat) : ℤ) := by have := c.2.2; omega
    rw [this]
  · rw [if_neg c, if_neg c]

/-- No reset: the state after the first part. -/
theorem gridChunk_keep {f : Flags} {g : DG} {t : ℚ} {s : ℤ} {j : Nat} {now : List ℚ} {st : Status}
    (hadv : advance g t s = ((j : ℤ), now, st)) :
    gridChunk f g t s = .ok ({ g with ti := j, loaded := now, mem := loadMem st s j g.mem },
      nextTime g.full f.extrap g.span s j g.periods now) := by
  unfold gridChunk
  rw [hadv]
  simp only
  rw [if_neg (by omega)]

/-- What the snapshots loaded at `j`, and the next time, look like after a request. -/
def Done (f : Flags) (g g' : DG) (nx : Option ℚ) (s : ℤ) (j : Nat) : Prop :=
  Holds g' j ∧ g'.full = g.full ∧ g'.periods = g.periods ∧
    nx = nextTime g.full f.extrap g.span s j g.periods [g.full.getD j 0, g.full.getD (j + 1) 0]

theorem done_keep {f : Flags} {g : DG} {i : Nat} (h : Holds g i) {t : ℚ} {s : ℤ}
    (hadv : advance g t s = ((i : ℤ), g.loaded, .notUpdated)) :
    ∃ g' nx, gridChunk f g t s = .ok (g', nx) ∧ Done f g g' nx s i := by
  refine ⟨_, _, gridChunk_keep hadv, ⟨rfl, h.lt, h.times, ?_⟩, rfl, rfl, ?_⟩
  · simp only [loadMem]; exact h.memory
  · rw [h.times]

theorem done_up {f : Flags} {g : DG} {i : Nat} (h : Holds g i) {t : ℚ} {s : ℤ} (hs : 0 ≤ s) (hi : i + 2 < g.full.length)
    (hadv : advance g t s = (((i + 1 : Nat) : ℤ), slice g.full (i + 1), .updated)) :
    ∃ g' nx, gridChunk f g t s = .ok (g', nx) ∧ Done f g g' nx s (i + 1) := by
  refine ⟨_, _, gridChunk_keep hadv, ⟨rfl, hi, slice_eq hi, ?_⟩, rfl, rfl, ?_⟩
  · simp only [loadMem, if_pos hs, h.memory, Int.toNat_natCast]
  · rw [slice_eq hi]

theorem done_down {f : Flags} {g : DG} {i : Nat} (h : Holds g i) {t : ℚ} {s : ℤ} (hs : s < 0) (hi : 0 < i)
    (hadv : advance g t s = (((i - 1 : Nat) : ℤ), slice g.full (i - 1), .updated)) :
    ∃ g' nx, gridChunk f g t s = .ok (g', nx) ∧ Done f g g' nx s (i - 1) := by
  have hl : i - 1 + 1 < g.full.length := by have := h.lt; omega
  refine ⟨_, _, gridChunk_keep hadv, ⟨rfl, hl, slice_eq hl, ?_⟩, rfl, rfl, ?_⟩
  · have : i - 1 + 1 = i := by omega
    simp only [loadMem, if_neg (not_le.2 hs), h.memory, Int.toNat_natCast, this]
  · rw [slice_eq hl]

/-! ### Fields that are not periodic -/

theorem stored_nonperiodic {f : Flags} (hf : f.periodic = false) (full : List ℚ) (t : ℚ) (p : ℤ) :
    storedPeriods (TAxis.full full f.periodic f.extrap) t p = p := by
  unfold storedPeriods TAxis.full; simp [hf]

/-- `time_index` on the whole axis of a field that is not periodic. -/
theorem timeIndex_cases {f : Flags} (hf : f.periodic = false) {full : List ℚ} (hinc : Increasing full)
    (hlen : 2 ≤ full.length) (t : ℚ) :
    (f.extrap = false ∧ (t < full.getD 0 0 ∨ full.getD (full.length - 1) 0 < t) ∧
      timeIndex (TAxis.full full f.periodic f.extrap) t = .error .time) ∨
    (t < full.getD 0 0 ∧ timeIndex (TAxis.full full f.periodic f.extrap) t = .ok (0, 0)) ∨
    (full.getD (full.length - 1) 0 ≤ t ∧
      timeIndex (TAxis.full full f.periodic f.extrap) t = .ok (((full.length - 1 : Nat) : ℤ), 0)) ∨
    (∃ n : Nat, timeIndex (TAxis.full full f.periodic f.extrap) t = .ok ((n : ℤ), 0) ∧ n + 1 < full.length ∧
      full.getD n 0 ≤ t ∧ t < full.getD (n + 1) 0) := by
  have hne : full ≠ [] := by intro e; rw [e] at hlen; simp at hlen
  rw [hf]
  by_cases h1 : t < full.getD 0 0
  · cases he : f.extrap
    · left
      refine ⟨rfl, Or.inl h1, ?_⟩
      unfold timeIndex TAxis.full
      simp only [headD_getD]
      rw [if_pos ⟨by simp, by simp [he], Or.inl h1⟩]
    · right; left
      refine ⟨h1, ?_⟩
      unfold timeIndex TAxis.full
      have h2 : (full.all fun v => decide (v ≤ t)) = false := by
        rw [Bool.eq_false_iff]; intro hh
        have := (all_le_iff hinc hne t).1 hh
        have := inc_lt hinc (i := 0) (j := full.length - 1) (by omega) (by omega)
        linarith
      have h3 := (all_gt_iff hinc hne t).2 h1
      simp only [h2, h3, Bool.true_eq_false, false_and, and_false, if_false, Bool.false_eq_true, if_true]
  · by_cases h2 : t < full.getD (full.length - 1) 0
    · right; right; right
      exact timeIndex_inside hinc false f.extrap (not_lt.1 h1) h2
    · by_cases h3 : f.extrap = true ∨ t = full.getD (full.length - 1) 0
      · right; right; left
        exact ⟨not_lt.1 h2, timeIndex_last hinc f.extrap hne (not_lt.1 h2) h3⟩
      · left
        have h3' := not_or.1 h3
        have he : f.extrap = false := by simpa using h3'.1
        have hlt : full.getD (full.length - 1) 0 < t := lt_of_le_of_ne (not_lt.1 h2) (Ne.symm h3'.2)
        refine ⟨he, Or.inr hlt, ?_⟩
        unfold timeIndex TAxis.full
        simp only [getLastD_getD]
        rw [if_pos ⟨by simp, by simp [he], Or.inr hlt⟩]

theorem resetIdx_forward {g : DG} {periodic : Bool} {t : ℚ} {s : ℤ} (hs : 0 ≤ s) (i p : ℤ) :
    resetIdx g periodic t s i p = (if (g.full.length : ℤ) - 1 ≤ i then (g.full.length : ℤ) - 2 else i, p) := by
  unfold resetIdx
  have h : s ≠ -1 := by omega
  simp [h]

theorem resetIdx_backward {g : DG} {t : ℚ} (i p : ℤ) :
    resetIdx g false t (-1) i p =
      (if (g.full.length : ℤ) - 1 ≤ (if 0 < i then i - 1 else i) then (g.full.length : ℤ) - 2
        else (if 0 < i then i - 1 else i), p) := by
  unfold resetIdx
  simp

/-- Forward request of a field that is not periodic. -/
theorem forward_step {f : Flags} (hf : f.periodic = false) {g : DG} (hr : Ready g) (hp : g.periods = 0) {t : ℚ} {s : ℤ}
    (hs : 0 ≤ s) :
    (∃ g' nx j, gridChunk f g t s = .ok (g', nx) ∧ Done f g g' nx s j ∧ RightForward g.full j t) ∨
    (gridChunk f g t s = .error .time ∧ f.extrap = false ∧
      (t < g.full.getD 0 0 ∨ g.full.getD (g.full.length - 1) 0 < t)) := by
  have hlen := hr.len
  -- a reset
  have reset : ∀ now st, advance g t s = (-1, now, st) →
      (∃ g' nx j, gridChunk f g t s = .ok (g', nx) ∧ Done f g g' nx s j ∧ RightForward g.full j t) ∨
      (gridChunk f g t s = .error .time ∧ f.extrap = false ∧
        (t < g.full.getD 0 0 ∨ g.full.getD (g.full.length - 1) 0 < t)) := by
    intro now st hadv
    have fin : ∀ (i k : ℤ) (j : Nat), timeIndex (TAxis.full g.full f.periodic f.extrap) t = .ok (i, k) →
        j + 1 < g.full.length → (if (g.full.length : ℤ) - 1 ≤ i then (g.full.length : ℤ) - 2 else i) = (j : ℤ) →
        RightForward g.full j t →
        (∃ g' nx j, gridChunk f g t s = .ok (g', nx) ∧ Done f g g' nx s j ∧ RightForward g.full j t) := by
      intro i k j hti hj he hR
      have e := stored_nonperiodic hf g.full t g.periods
      have hx := resetIdx_forward (g := g) (periodic := f.periodic) (t := t) hs i
        (storedPeriods (TAxis.full g.full f.periodic f.extrap) t g.periods)
      rw [he] at hx
      obtain ⟨g', h1, h2, h3, h4⟩ := gridChunk_reset hr hadv hti hx hj
      rw [e] at h1 h4
      exact ⟨g', _, j, h1, ⟨h2, h3, h4, rfl⟩, hR⟩
    rcases timeIndex_cases hf hr.inc (by omega) t with ⟨h1, h2, h3⟩ | ⟨h1, h2⟩ | ⟨h1, h2⟩ | ⟨n, h1, h2, h3, h4⟩
    · right
      refine ⟨?_, h1, h2⟩
      unfold gridChunk; rw [hadv]; simp only [if_true, h3]
    · left
      exact fin 0 0 0 h2 (by omega) (by rw [if_neg (by omega)]; rfl) (Or.inr (Or.inl ⟨rfl, h1⟩))
    · left
      exact fin _ 0 (g.full.length - 2) h2 (by omega) (by rw [if_pos (by omega)]; omega)
        (Or.inr (Or.inr ⟨by omega, h1⟩))
    · left
      exact fin _ 0 n h1 h2 (by rw [if_neg (by omega)]) (Or.inl ⟨h3, h4⟩)
  rcases hr.state with ⟨h1, h2⟩ | ⟨i, h⟩
  · apply reset g.loaded .notUpdated
    unfold advance
    rw [if_neg (by rw [h1]; omega), h1]
  · have hb := holds_bounds hr h
    have hadv := advance_holds h t s
    simp only [hp, Int.cast_zero, zero_mul, sub_zero] at hadv
    by_cases c1 : t < g.full.getD i 0 ∨ g.full.getD (i + 1) 0 < t
    · rw [if_pos c1] at hadv; exact reset _ _ hadv
    rw [if_neg c1] at hadv
    by_cases c2 : 0 ≤ s ∧ (t < g.full.headD 0 ∨ g.full.getLastD 0 ≤ t)
    · rw [if_pos c2] at hadv; exact reset _ _ hadv
    rw [if_neg c2, if_neg (by omega)] at hadv
    rw [not_or, not_lt, not_lt] at c1
    by_cases c3 : 0 ≤ s ∧ g.full.getD (i + 1) 0 ≤ t ∧ (i : ℤ) < (g.full.length : ℤ) - 2
    · rw [if_pos c3] at hadv
      left
      obtain ⟨g', nx, e1, e2⟩ := done_up (f := f) h hs (by omega) hadv
      refine ⟨g', nx, i + 1, e1, e2, Or.inl ⟨c3.2.1, ?_⟩⟩
      have := inc_lt hr.inc (i := i + 1) (j := i + 1 + 1) (by omega) (by omega)
      linarith [c1.2]
    · rw [if_neg c3, if_neg (by omega)] at hadv
      left
      obtain ⟨g', nx, e1, e2⟩ := done_keep (f := f) h hadv
      refine ⟨g', nx, i, e1, e2, Or.inl ⟨c1.1, ?_⟩⟩
      by_contra hcon
      rw [not_lt] at hcon
      have hil := h.lt
      have hi2 : i + 2 = g.full.length := by
        by_contra hne
        exact c3 ⟨hs, hcon, by omega⟩
      have : g.full.getLastD 0 ≤ t := by
        rw [getLastD_getD]; rw [show g.full.length - 1 = i + 1 from by omega]; exact hcon
      exact c2 ⟨hs, Or.inr this⟩

/-- Backward request of a field that is not periodic, at a snapshot's time, within the loaded pair, or outside the
series. -/
theorem backward_step {f : Flags} (hf : f.periodic = false) {g : DG} (hr : Ready g) (hp : g.periods = 0) {t : ℚ}
    (hstart : (∃ k, k < g.full.length ∧ t = g.full.getD k 0) ∨
      (∃ i, Holds g i ∧ g.full.getD i 0 ≤ t ∧ t ≤ g.full.getD (i + 1) 0) ∨
      t < g.full.getD 0 0 ∨ g.full.getD (g.full.length - 1) 0 < t) :
    (∃ g' nx j, gridChunk f g t (-1) = .ok (g', nx) ∧ Done f g g' nx (-1) j ∧ RightBackward g.full j t) ∨
    (gridChunk f g t (-1) = .error .time ∧ f.extrap = false ∧
      (t < g.full.getD 0 0 ∨ g.full.getD (g.full.length - 1) 0 < t)) := by
  have hlen := hr.len
  have reset : ∀ now st, advance g t (-1) = (-1, now, st) →
      ((∃ k, k < g.full.length ∧ t = g.full.getD k 0) ∨ t < g.full.getD 0 0 ∨ g.full.getD (g.full.length - 1) 0 < t) →
      (∃ g' nx j, gridChunk f g t (-1) = .ok (g', nx) ∧ Done f g g' nx (-1) j ∧ RightBackward g.full j t) ∨
      (gridChunk f g t (-1) = .error .time ∧ f.extrap = false ∧
        (t < g.full.getD 0 0 ∨ g.full.getD (g.full.length - 1) 0 < t)) := by
    intro now st hadv hst
    have fin : ∀ (i k : ℤ) (j : Nat), timeIndex (TAxis.full g.full f.periodic f.extrap) t = .ok (i, k) →
        j + 1 < g.full.length →
        (if (g.full.length : ℤ) - 1 ≤ (if 0 < i then i - 1 else i) then (g.full.length : ℤ) - 2
          else (if 0 < i then i - 1 else i)) = (j : ℤ) →
        RightBackward g.full j t →
        (∃ g' nx j, gridChunk f g t (-1) = .ok (g', nx) ∧ Done f g g' nx (-1) j ∧ RightBackward g.full j t) := by
      intro i k j hti hj he hR
      have e := stored_nonperiodic hf g.full t g.periods
      have hx := resetIdx_backward (g := g) (t := t) i
        (storedPeriods (TAxis.full g.full f.periodic f.extrap) t g.periods)
      rw [he] at hx
      rw [← hf] at hx
      obtain ⟨g', h1, h2, h3, h4⟩ := gridChunk_reset hr hadv hti hx hj
      rw [e] at h1 h4
      exact ⟨g', _, j, h1, ⟨h2, h3, h4, rfl⟩, hR⟩
    rcases timeIndex_cases hf hr.inc (by omega) t with ⟨h1, h2, h3⟩ | ⟨h1, h2⟩ | ⟨h1, h2⟩ | ⟨n, h1, h2, h3, h4⟩
    · right
      refine ⟨?_, h1, h2⟩
      unfold gridChunk; rw [hadv]; simp only [if_true, h3]
    · left
      exact fin 0 0 0 h2 (by omega) (by simp; omega) (Or.inr (Or.inl ⟨rfl, h1.le⟩))
    · left
      refine fin _ 0 (g.full.length - 2) h2 (by omega) ?_ ?_
      · rw [if_pos (show (0 : ℤ) < ((g.full.length - 1 : Nat) : ℤ) by omega), if_neg (by omega)]; omega
      · rcases h1.lt_or_eq with hlt | heq
        · exact Or.inr (Or.inr ⟨by omega, hlt⟩)
        · refine Or.inl ⟨?_, ?_⟩
          · rw [← heq]; exact inc_lt hr.inc (by omega) (by omega)
          · rw [show g.full.length - 2 + 1 = g.full.length - 1 from by omega, heq]
    · -- inside the series: `t` is the time of snapshot `n`
      have hfirst := inc_le hr.inc (i := 0) (j := n) (by omega) (by omega)
      have hlast := inc_le hr.inc (i := n + 1) (j := g.full.length - 1) (by omega) (by omega)
      obtain ⟨k, hk, rfl⟩ : ∃ k, k < g.full.length ∧ t = g.full.getD k 0 := by
        rcases hst with h | h | h
        · exact h
        · linarith
        · linarith
      have hkn : k = n := by
        rcases Nat.lt_trichotomy k n with c | c | c
        · have := inc_lt hr.inc c (by omega); linarith
        · exact c
        · have := inc_le hr.inc (i := n + 1) (j := k) (by omega) hk; linarith
      subst hkn
      left
      by_cases hk0 : k = 0
      · subst hk0
        exact fin _ 0 0 h1 (by omega) (by simp; omega) (Or.inr (Or.inl ⟨rfl, le_refl _⟩))
      · refine fin _ 0 (k - 1) h1 (by omega) ?_ (Or.inl ⟨inc_lt hr.inc (by omega) (by omega), ?_⟩)
        · rw [if_pos (show (0 : ℤ) < (k : ℤ) by omega), if_neg (by omega)]; omega
        · rw [show k - 1 + 1 = k from by omega]
  rcases hr.state with ⟨h1, h2⟩ | ⟨i, h⟩
  · apply reset g.loaded .notUpdated
    · unfold advance
      rw [if_neg (by rw [h1]; omega), h1]
    · rcases hstart with h | ⟨i, h, _⟩ | h
      · exact Or.inl h
      · have := h.idx; omega
      · exact Or.inr h
  · have hil := h.lt
    have hb := holds_bounds hr h
    have hadv := advance_holds h t (-1)
    simp only [hp, Int.cast_zero, zero_mul, sub_zero] at hadv
    have hst : (t < g.full.getD i 0 ∨ g.full.getD (i + 1) 0 < t) →
        ((∃ k, k < g.full.length ∧ t = g.full.getD k 0) ∨ t < g.full.getD 0 0 ∨
          g.full.getD (g.full.length - 1) 0 < t) := by
      intro c
      rcases hstart with h' | ⟨i', h', h1, h2⟩ | h'
      · exact Or.inl h'
      · have e : i' = i := by have := h'.idx; have := h.idx; omega
        subst e
        rcases c with c | c <;> linarith
      · exact Or.inr h'
    by_cases c1 : t < g.full.getD i 0 ∨ g.full.getD (i + 1) 0 < t
    · rw [if_pos c1] at hadv; exact reset _ _ hadv (hst c1)
    rw [if_neg c1, if_neg (by simp)] at hadv
    rw [not_or, not_lt, not_lt] at c1
    by_cases c2 : (-1 : ℤ) < 0 ∧ (t ≤ g.full.headD 0 ∨ g.full.getLastD 0 < t)
    · rw [if_pos c2] at hadv
      refine reset _ _ hadv (Or.inl ⟨0, by omega, ?_⟩)
      rcases c2.2 with c | c
      · rw [headD_getD] at c hb; linarith [hb.1]
      · linarith [hb.2]
    rw [if_neg c2, if_neg (by simp)] at hadv
    by_cases c3 : (-1 : ℤ) < 0 ∧ t ≤ g.full.getD i 0 ∧ (0 : ℤ) < i
    · rw [if_pos c3] at hadv
      left
      obtain ⟨g', nx, e1, e2⟩ := done_down (f := f) h (by norm_num) (by omega) hadv
      refine ⟨g', nx, i - 1, e1, e2, Or.inl ⟨?_, ?_⟩⟩
      · have := inc_lt hr.inc (i := i - 1) (j := i) (by omega) (by omega)
        linarith [c1.1]
      · rw [show i - 1 + 1 = i from by omega]; exact c3.2.1
    · rw [if_neg c3] at hadv
      left
      obtain ⟨g', nx, e1, e2⟩ := done_keep (f := f) h hadv
      refine ⟨g', nx, i, e1, e2, ?_⟩
      rcases c1.1.lt_or_eq with hlt | heq
      · exact Or.inl ⟨hlt, c1.2⟩
      · have hi0 : i = 0 := by
          by_contra hne
          exact c3 ⟨by norm_num, by rw [heq], by omega⟩
        subst hi0
        exact Or.inr (Or.inl ⟨rfl, by rw [heq]⟩)

end Parcels.TimeChunk
