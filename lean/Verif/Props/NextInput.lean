import Verif.Props.TimeChunk
import Mathlib.Tactic.Positivity

/-!
C40: the time at which the field set asks to be called again.
-/

namespace Parcels.TimeChunk
open Parcels.Search Parcels.TimeInterp Parcels.Interp

/-- One grid of a forward run. -/
theorem forward_grid {f : Flags} {g g' : DG} {t : ℚ} {nx : Option ℚ} (hg : ForwardState f g t)
    (h : gridChunk f g t 1 = .ok (g', nx)) (hne : nx ≠ some t) :
    g'.full = g.full ∧ (∀ x, nx = some x → t < x) ∧ HoldsFor f g' fun u => t ≤ u ∧ ∀ x, nx = some x → u ≤ x := by
  obtain ⟨hT, hlen, hc⟩ := hg
  rcases hc with ⟨hf, hreach⟩ | ⟨hf, he, hst⟩
  · obtain ⟨hr, _⟩ := reachable_ready hT hlen hreach
    have hp := reachable_periods hf hreach
    rcases forward_step hf hr hp (by norm_num : (0 : ℤ) ≤ 1) (t := t) with ⟨g'', nx', j, e1, ⟨d1, d2, d3, d4⟩, e3⟩ | ⟨e1, _⟩
    · rw [h] at e1
      cases e1
      have hj := d1.lt
      rw [d2] at hj
      have hjj := inc_lt hT (Nat.lt_succ_self j) hj
      have hnx : nx = none ∧ f.extrap = true ∧ j + 2 = g.full.length ∨ nx = some (g.full.getD (j + 1) 0) := by
        rw [d4, hp]
        unfold nextTime
        by_cases c : (j : ℤ) < (g.full.length : ℤ) - 2 ∨ f.extrap = false
        · right; rw [if_pos ⟨by norm_num, c⟩]; simp
        · left
          rw [if_neg (fun hh => c hh.2), if_neg (by omega)]
          rw [not_or] at c
          exact ⟨rfl, by simpa using c.2, by omega⟩
      have hlast : j + 2 = g.full.length → g.full.getD (j + 1) 0 = g.full.getD (g.full.length - 1) 0 := by
        intro e; rw [show g.full.length - 1 = j + 1 from by omega]
      refine ⟨d2, ?_, j, 0, d1, fun _ => rfl, ?_⟩
      · intro x hx
        rcases hnx with ⟨c, _⟩ | c
        · rw [c] at hx; cases hx
        · rw [c] at hx; cases hx
          rcases e3 with ⟨_, a⟩ | ⟨rfl, a⟩ | ⟨a, b⟩
          · exact a
          · have : g.full.getD 0 0 < g.full.getD (0 + 1) 0 := hjj
            linarith
          · -- the end of the series without extrapolation: either an error or `nx = t`
            exfalso
            rw [c, hlast a] at hne
            have hlt : g.full.getD (g.full.length - 1) 0 < t := lt_of_le_of_ne b (fun e => hne (by rw [e]))
            have hnone : f.extrap = false := by
              by_contra he
              have he' : f.extrap = true := by simpa using he
              rw [d4] at c
              unfold nextTime at c
              rw [if_neg (by rintro ⟨_, h' | h'⟩; · omega
                             · rw [he'] at h'; exact Bool.noConfusion h'), if_neg (by omega)] at c
              cases c
            have hti : timeIndex (TAxis.full g.full f.periodic f.extrap) t = .error .time := by
              unfold timeIndex TAxis.full
              rw [hf, hnone]
              simp only [getLastD_getD]
              rw [if_pos ⟨trivial, trivial, Or.inr hlt⟩]
            have hadv : ∃ now st, advance g t 1 = (-1, now, st) := by
              rcases hr.state with ⟨x1, x2⟩ | ⟨i, hh⟩
              · refine ⟨g.loaded, .notUpdated, ?_⟩
                unfold advance
                rw [if_neg (by rw [x1]; omega), x1]
              · have hadv := advance_holds hh t 1
                simp only [hp, Int.cast_zero, zero_mul, sub_zero] at hadv
                have hil := hh.lt
                have := inc_le hT (i := i + 1) (j := g.full.length - 1) (by omega) (by omega)
                rw [if_pos (Or.inr (by linarith))] at hadv
                exact ⟨_, _, hadv⟩
            obtain ⟨now, st, hadv⟩ := hadv
            have herr : gridChunk f g t 1 = .error .time := by
              unfold gridChunk; rw [hadv]; simp only [if_true, hti]
            rw [h] at herr; cases herr
      · rintro u ⟨hu, hux⟩
        rw [d2]
        push_cast
        rw [zero_mul, sub_zero]
        by_cases c : g.full.getD j 0 ≤ u
        · rcases hnx with ⟨_, _, c0⟩ | c0
          · by_cases c' : u ≤ g.full.getD (j + 1) 0
            · exact Or.inl ⟨c, c'⟩
            · exact Or.inr (Or.inr ⟨c0, by rw [← hlast c0]; exact not_le.1 c'⟩)
          · exact Or.inl ⟨c, hux _ c0⟩
        · rw [not_le] at c
          rcases e3 with ⟨a, _⟩ | ⟨rfl, a⟩ | ⟨a, b⟩
          · linarith
          · exact Or.inr (Or.inl ⟨rfl, c⟩)
          · have := hlast a
            have h' : g.full.getD j 0 < g.full.getD (j + 1) 0 := hjj
            linarith
    · rw [h] at e1; cases e1
  · have hw : ∃ i p, Window f g.full g' t nx t i p := by
      rcases hst with ⟨e, h0⟩ | ⟨t0, nx0, b, hrun, hb⟩
      · have hp : g.periods = 0 := by rw [e]; rfl
        have hr : Ready g := by rw [e]; exact fresh_ready hT hlen
        exact window_request hf he hr (by norm_num) h0 (Or.inl hp) h
      · exact run_window hf he hT hlen (.request hrun hb (by norm_num) h)
    obtain ⟨i, p, w⟩ := hw
    refine ⟨w.isFull, ?_, i, p, w.holds, fun e => (by rw [hf] at e; cases e), ?_⟩
    · intro x hx
      rw [w.next] at hx; cases hx
      have := w.upper
      linarith
    · rintro u ⟨hu, hux⟩
      obtain ⟨w1, w2⟩ := window_time w hu hux
      rw [w.isFull]
      exact Or.inl ⟨w1, w2⟩

theorem holdsFor_mono {f : Flags} {g : DG} {S S' : ℚ → Prop} (h : HoldsFor f g S) (hs : ∀ u, S' u → S u) : HoldsFor f g S' := by
  obtain ⟨i, p, h1, h2, h3⟩ := h
  exact ⟨i, p, h1, h2, fun u hu => h3 u (hs u hu)⟩

theorem soonest_forward {a b : Option ℚ} {t : ℚ} (ha : ∀ x, a = some x → t < x) (hb : ∀ x, b = some x → t < x) :
    (∀ x, soonest 1 a b = some x → t < x) ∧
    (∀ u, (∀ x, soonest 1 a b = some x → u ≤ x) → (∀ x, a = some x → u ≤ x) ∧ ∀ x, b = some x → u ≤ x) := by
  cases a with
  | none =>
    refine ⟨by intro x hx; exact hb x (by simpa [soonest] using hx), fun u hu => ⟨(by intro x hx; cases hx), ?_⟩⟩
    intro x hx; exact hu x (by simpa [soonest] using hx)
  | some a =>
    cases b with
    | none =>
      refine ⟨by intro x hx; exact ha x (by simpa [soonest] using hx), fun u hu => ⟨?_, by intro x hx; cases hx⟩⟩
      intro x hx; exact hu x (by simpa [soonest] using hx)
    | some b =>
      have e : soonest 1 (some a) (some b) = some (min a b) := by simp [soonest]
      rw [e]
      refine ⟨by intro x hx; cases hx; exact lt_min (ha a rfl) (hb b rfl), fun u hu => ?_⟩
      have := hu _ rfl
      exact ⟨by intro x hx; cases hx; exact le_trans this (min_le_left _ _),
             by intro x hx; cases hx; exact le_trans this (min_le_right _ _)⟩

theorem soonest_backward {a b : Option ℚ} {t : ℚ} (ha : ∀ x, a = some x → x < t) (hb : ∀ x, b = some x → x < t) :
    (∀ x, soonest (-1) a b = some x → x < t) ∧
    (∀ u, (∀ x, soonest (-1) a b = some x → x ≤ u) → (∀ x, a = some x → x ≤ u) ∧ ∀ x, b = some x → x ≤ u) := by
  cases a with
  | none =>
    refine ⟨by intro x hx; exact hb x (by simpa [soonest] using hx), fun u hu => ⟨(by intro x hx; cases hx), ?_⟩⟩
    intro x hx; exact hu x (by simpa [soonest] using hx)
  | some a =>
    cases b with
    | none =>
      refine ⟨by intro x hx; exact ha x (by simpa [soonest] using hx), fun u hu => ⟨?_, by intro x hx; cases hx⟩⟩
      intro x hx; exact hu x (by simpa [soonest] using hx)
    | some b =>
      have e : soonest (-1) (some a) (some b) = some (max a b) := by simp [soonest]
      rw [e]
      refine ⟨by intro x hx; cases hx; exact max_lt (ha a rfl) (hb b rfl), fun u hu => ?_⟩
      have := hu _ rfl
      exact ⟨by intro x hx; cases hx; exact le_trans (le_max_left _ _) this,
             by intro x hx; cases hx; exact le_trans (le_max_right _ _) this⟩

/-- Old and new state of a grid belong together. -/
def Same (a b : Flags × DG) : Prop := b.1 = a.1 ∧ b.2.full = a.2.full

theorem chunkAll_forward {t : ℚ} : ∀ {gs gs' : List (Flags × DG)} {r : Option ℚ},
    (∀ x ∈ gs, ForwardState x.1 x.2 t) → chunkAll t 1 gs = .ok (gs', r) →
    List.Forall₂ Same gs gs' ∧ (∀ x, r = some x → t < x) ∧
      ∀ y ∈ gs', HoldsFor y.1 y.2 fun u => t ≤ u ∧ ∀ x, r = some x → u ≤ x := by
  intro gs
  induction gs with
  | nil =>
    intro gs' r _ h
    simp only [chunkAll] at h
    cases h
    exact ⟨.nil, (by intro x hx; cases hx), by intro y hy; cases hy⟩
  | cons a gs ih =>
    obtain ⟨f, g⟩ := a
    intro gs' r hall h
    simp only [chunkAll] at h
    cases hgc : gridChunk f g t 1 with
    | error e => rw [hgc] at h; cases h
    | ok gn =>
      obtain ⟨g', nx⟩ := gn
      rw [hgc] at h
      simp only at h
      split_ifs at h with c
      have hne : nx ≠ some t := fun e => c ⟨e, by norm_num⟩
      cases hrec : chunkAll t 1 gs with
      | error e => rw [hrec] at h; cases h
      | ok rr =>
        obtain ⟨gs'', nx'⟩ := rr
        rw [hrec] at h
        simp only at h
        cases h
        obtain ⟨i1, i2, i3⟩ := ih (fun x hx => hall x (List.mem_cons_of_mem _ hx)) hrec
        obtain ⟨k1, k2, k3⟩ := forward_grid (hall (f, g) List.mem_cons_self) hgc hne
        obtain ⟨s1, s2⟩ := soonest_forward k2 i2
        refine ⟨.cons ⟨rfl, k1⟩ i1, s1, ?_⟩
        intro y hy
        rcases List.mem_cons.1 hy with rfl | hy
        · exact holdsFor_mono k3 fun u hu => ⟨hu.1, (s2 u hu.2).1⟩
        · exact holdsFor_mono (i3 y hy) fun u hu => ⟨hu.1, (s2 u hu.2).2⟩

theorem chunkAll_backward {t : ℚ} : ∀ {gs gs' : List (Flags × DG)} {r : Option ℚ},
    (∀ x ∈ gs, BackwardState x.1 x.2 t) → chunkAll t (-1) gs = .ok (gs', r) →
    List.Forall₂ Same gs gs' ∧ (∀ x, r = some x → x < t) ∧
      ∀ y ∈ gs', HoldsFor y.1 y.2 fun u => u ≤ t ∧ ∀ x, r = some x → x ≤ u := by
  intro gs
  induction gs with
  | nil =>
    intro gs' r _ h
    simp only [chunkAll] at h
    cases h
    exact ⟨.nil, (by intro x hx; cases hx), by intro y hy; cases hy⟩
  | cons a gs ih =>
    obtain ⟨f, g⟩ := a
    intro gs' r hall h
    simp only [chunkAll] at h
    cases hgc : gridChunk f g t (-1) with
    | error e => rw [hgc] at h; cases h
    | ok gn =>
      obtain ⟨g', nx⟩ := gn
      rw [hgc] at h
      simp only at h
      split_ifs at h with c
      have hne : nx ≠ some t := fun e => c ⟨e, by norm_num⟩
      cases hrec : chunkAll t (-1) gs with
      | error e => rw [hrec] at h; cases h
      | ok rr =>
        obtain ⟨gs'', nx'⟩ := rr
        rw [hrec] at h
        simp only at h
        cases h
        obtain ⟨i1, i2, i3⟩ := ih (fun x hx => hall x (List.mem_cons_of_mem _ hx)) hrec
        obtain ⟨k1, i, k2, k3, k4⟩ := backward_covers (hall (f, g) List.mem_cons_self) hgc
        have k3' : ∀ x, nx = some x → x < t := fun x hx =>
          lt_of_le_of_ne (k3 x hx) (fun e => hne (by rw [hx, e]))
        obtain ⟨s1, s2⟩ := soonest_backward k3' i2
        refine ⟨.cons ⟨rfl, k1⟩ i1, s1, ?_⟩
        intro y hy
        rcases List.mem_cons.1 hy with rfl | hy
        · refine ⟨i, 0, k2, fun _ => rfl, fun u hu => ?_⟩
          push_cast
          rw [zero_mul, sub_zero]
          show Covers g'.full i u
          rw [k1]
          exact k4 u hu.1 (s2 u hu.2).1
        · exact holdsFor_mono (i3 y hy) fun u hu => ⟨hu.1, (s2 u hu.2).2⟩

/-- C40, forward: for every field set in a forward run (any number of grids, periodic or not, in any state that a run
leads to), the next time returned is strictly ahead, and at no time until then is a snapshot needed that is not in memory.
(If no next time is returned, none is ever needed.) -/
theorem C40_forward (gs gs' : List (Flags × DG)) (t dt : ℚ) (hdt : 0 < dt) (r : Option ℚ)
    (hgs : ∀ x ∈ gs, ForwardState x.1 x.2 t) (h : computeTimeChunk gs t dt = .ok (gs', r)) :
    List.Forall₂ Same gs gs' ∧ (∀ x, r = some x → t < x) ∧
      ∀ y ∈ gs', HoldsFor y.1 y.2 fun u => t ≤ u ∧ ∀ x, r = some x → u ≤ x := by
  unfold computeTimeChunk signQ at h
  rw [if_pos hdt] at h
  cases hc : chunkAll t 1 gs with
  | error e => rw [hc] at h; cases h
  | ok rr =>
    obtain ⟨gs'', nx⟩ := rr
    rw [hc] at h
    simp only at h
    rw [if_neg hdt.ne'] at h
    obtain ⟨h1, h2, h3⟩ := chunkAll_forward hgs hc
    cases nx with
    | none => simp only at h; cases h; exact ⟨h1, h2, h3⟩
    | some nx =>
      simp only at h
      cases h
      have hlt := h2 nx rfl
      have hq : 0 ≤ (nx - t) / dt := div_nonneg (by linarith) hdt.le
      have hfl := Int.floor_le ((nx - t) / dt)
      have hfn : 0 ≤ ⌊(nx - t) / dt⌋ := Int.floor_nonneg.2 hq
      have e : Converters.truncInt ((nx - t) / dt) = ⌊(nx - t) / dt⌋ := by
        unfold Converters.truncInt; rw [if_pos hq]
      rw [e]
      have hx : t < (if ⌊(nx - t) / dt⌋ = 0 then nx else t + ⌊(nx - t) / dt⌋ * dt) ∧
          (if ⌊(nx - t) / dt⌋ = 0 then nx else t + ⌊(nx - t) / dt⌋ * dt) ≤ nx := by
        split_ifs with c
        · exact ⟨hlt, le_refl _⟩
        · have hpos : (0 : ℤ) < ⌊(nx - t) / dt⌋ := by omega
          have hposq : (0 : ℚ) < ⌊(nx - t) / dt⌋ := by exact_mod_cast hpos
          rw [le_div_iff₀ hdt] at hfl
          have := mul_pos hposq hdt
          constructor <;> linarith
      refine ⟨h1, by intro x hx'; cases hx'; exact hx.1, fun y hy => holdsFor_mono (h3 y hy) fun u hu => ⟨hu.1, ?_⟩⟩
      intro x hx'
      cases hx'
      exact le_trans (hu.2 _ rfl) hx.2

/-- C40, backward, for fields that are not periodic, from the states of `C39_backward_partial`. Missing: periodic fields,
where it is false (`C40_backward_periodic`). -/
theorem C40_backward_partial (gs gs' : List (Flags × DG)) (t dt : ℚ) (hdt : dt < 0) (r : Option ℚ)
    (hgs : ∀ x ∈ gs, BackwardState x.1 x.2 t) (h : computeTimeChunk gs t dt = .ok (gs', r)) :
    List.Forall₂ Same gs gs' ∧ (∀ x, r = some x → x < t) ∧
      ∀ y ∈ gs', HoldsFor y.1 y.2 fun u => u ≤ t ∧ ∀ x, r = some x → x ≤ u := by
  unfold computeTimeChunk signQ at h
  rw [if_neg (not_lt.2 hdt.le), if_pos hdt] at h
  cases hc : chunkAll t (-1) gs with
  | error e => rw [hc] at h; cases h
  | ok rr =>
    obtain ⟨gs'', nx⟩ := rr
    rw [hc] at h
    simp only at h
    rw [if_neg hdt.ne] at h
    obtain ⟨h1, h2, h3⟩ := chunkAll_backward hgs hc
    cases nx with
    | none => simp only at h; cases h; exact ⟨h1, h2, h3⟩
    | some nx =>
      simp only at h
      cases h
      have hlt := h2 nx rfl
      have hq : 0 ≤ (nx - t) / dt := div_nonneg_of_nonpos (by linarith) hdt.le
      have hfl := Int.floor_le ((nx - t) / dt)
      have hfn : 0 ≤ ⌊(nx - t) / dt⌋ := Int.floor_nonneg.2 hq
      have e : Converters.truncInt ((nx - t) / dt) = ⌊(nx - t) / dt⌋ := by
        unfold Converters.truncInt; rw [if_pos hq]
      rw [e]
      have hx : (if ⌊(nx - t) / dt⌋ = 0 then nx else t + ⌊(nx - t) / dt⌋ * dt) < t ∧
          nx ≤ (if ⌊(nx - t) / dt⌋ = 0 then nx else t + ⌊(nx - t) / dt⌋ * dt) := by
        split_ifs with c
        · exact ⟨hlt, le_refl _⟩
        · have hpos : (0 : ℤ) < ⌊(nx - t) / dt⌋ := by omega
          have hposq : (0 : ℚ) < ⌊(nx - t) / dt⌋ := by exact_mod_cast hpos
          rw [le_div_iff_of_neg hdt] at hfl
          have := mul_neg_of_pos_of_neg hposq hdt
          constructor <;> linarith
      refine ⟨h1, by intro x hx'; cases hx'; exact hx.1, fun y hy => holdsFor_mono (h3 y hy) fun u hu => ⟨hu.1, ?_⟩⟩
      intro x hx'
      cases hx'
      exact le_trans hx.2 (hu.2 _ rfl)

/-- One grid of a forward run: the request succeeds and the code does not raise an error for being stuck. -/
theorem forward_grid_ok {f : Flags} {g : DG} {t : ℚ} (hg : ForwardState f g t)
    (ht : f.periodic = true ∨ f.extrap = true ∨ (g.full.getD 0 0 ≤ t ∧ t < g.full.getD (g.full.length - 1) 0)) :
    ∃ g' nx, gridChunk f g t 1 = .ok (g', nx) ∧ nx ≠ some t := by
  obtain ⟨hT, hlen, hc⟩ := hg
  rcases hc with ⟨hf, hreach⟩ | ⟨hf, he, hst⟩
  · obtain ⟨hr, _⟩ := reachable_ready hT hlen hreach
    have hp := reachable_periods hf hreach
    rcases forward_step hf hr hp (by norm_num : (0 : ℤ) ≤ 1) (t := t) with ⟨g', nx, j, e1, ⟨d1, d2, d3, d4⟩, e3⟩ | ⟨_, e2, e3⟩
    · refine ⟨g', nx, e1, ?_⟩
      have hj := d1.lt
      rw [d2] at hj
      have hjj : g.full.getD j 0 < g.full.getD (j + 1) 0 := inc_lt hT (Nat.lt_succ_self j) hj
      rw [d4, hp]
      unfold nextTime
      by_cases c : (j : ℤ) < (g.full.length : ℤ) - 2 ∨ f.extrap = false
      · rw [if_pos ⟨by norm_num, c⟩]
        simp only [List.getD_cons_succ, List.getD_cons_zero, Int.cast_zero, zero_mul, add_zero]
        intro e
        cases e
        rcases e3 with ⟨_, a⟩ | ⟨rfl, a⟩ | ⟨a, b⟩
        · exact lt_irrefl _ a
        · rw [zero_add] at a hjj; linarith
        · rcases ht with h | h | h
          · rw [hf] at h; cases h
          · rcases c with c | c
            · omega
            · rw [h] at c; cases c
          · linarith [h.2]
      · rw [if_neg (fun hh => c hh.2), if_neg (by omega)]
        intro e; cases e
    · exfalso
      rcases ht with h | h | h
      · rw [hf] at h; cases h
      · rw [h] at e2; cases e2
      · rcases e3 with c | c <;> linarith [h.1, h.2]
  · obtain ⟨g', nx, h⟩ := C39_periodic_progress f hf g t 1
    refine ⟨g', nx, h, ?_⟩
    have hw : ∃ i p, Window f g.full g' t nx t i p := by
      rcases hst with ⟨e, h0⟩ | ⟨t0, nx0, b, hrun, hb⟩
      · have hp : g.periods = 0 := by rw [e]; rfl
        have hr : Ready g := by rw [e]; exact fresh_ready hT hlen
        exact window_request hf he hr (by norm_num) h0 (Or.inl hp) h
      · exact run_window hf he hT hlen (.request hrun hb (by norm_num) h)
    obtain ⟨i, p, w⟩ := hw
    rw [w.next]
    intro e
    have e' := Option.some.inj e
    have := w.upper
    linarith

/-- C40, forward: the request succeeds, unless the time is outside the series (or at its end) of a field that may not be
extrapolated. -/
theorem C40_forward_succeeds (gs : List (Flags × DG)) (t dt : ℚ) (hdt : 0 < dt)
    (hgs : ∀ x ∈ gs, ForwardState x.1 x.2 t)
    (ht : ∀ x ∈ gs, x.1.periodic = true ∨ x.1.extrap = true ∨
      (x.2.full.getD 0 0 ≤ t ∧ t < x.2.full.getD (x.2.full.length - 1) 0)) :
    ∃ gs' r, computeTimeChunk gs t dt = .ok (gs', r) := by
  have hall : ∃ gs' r, chunkAll t 1 gs = .ok (gs', r) := by
    induction gs with
    | nil => exact ⟨[], none, rfl⟩
    | cons a gs ih =>
      obtain ⟨f, g⟩ := a
      obtain ⟨gs', r, e⟩ := ih (fun x hx => hgs x (List.mem_cons_of_mem _ hx)) (fun x hx => ht x (List.mem_cons_of_mem _ hx))
      obtain ⟨g', nx, e1, e2⟩ := forward_grid_ok (hgs (f, g) List.mem_cons_self) (ht (f, g) List.mem_cons_self)
      refine ⟨(f, g') :: gs', soonest 1 nx r, ?_⟩
      simp only [chunkAll, e1, e]
      rw [if_neg (fun h => e2 h.1)]
  obtain ⟨gs', r, e⟩ := hall
  unfold computeTimeChunk signQ
  rw [if_pos hdt, e]
  simp only
  rw [if_neg hdt.ne']
  cases r with
  | none => exact ⟨_, _, rfl⟩
  | some x => exact ⟨_, _, rfl⟩

/-- C40 is false for periodic fields after a jump back in time: a request at 3.5 leaves the period count 1, and a request
at 1.5 then returns 5, beyond the end (2) of the loaded snapshots. -/
theorem C40_stale_period :
    (after periodicF (after periodicF (DG.fresh exFull) (7 / 2) 1) (3 / 2) 1).loaded = [1, 2] ∧
    computeTimeChunk [(periodicF, after periodicF (DG.fresh exFull) (7 / 2) 1)] (3 / 2) (1 / 2) =
      .ok ([(periodicF, after periodicF (after periodicF (DG.fresh exFull) (7 / 2) 1) (3 / 2) 1)], some 5) := by
  decide +kernel

/-- C40 is false for a forward run of a periodic field that starts before the first snapshot: at time 0 the next time
returned is -2, behind the current time. -/
theorem C40_start_before :
    computeTimeChunk [(periodicF, after periodicF (DG.fresh exFull) (-1 / 2) 1)] 0 (1 / 2) =
      .ok ([(periodicF, after periodicF (after periodicF (DG.fresh exFull) (-1 / 2) 1) 0 1)], some (-2)) := by
  decide +kernel

/-- C40 is false for a backward run of a periodic field from the end of the series: at time 2 the next time returned is
4, behind the current time. -/
theorem C40_backward_periodic :
    computeTimeChunk [(periodicF, after periodicF (DG.fresh exFull) 3 (-1))] 2 (-1 / 2) =
      .ok ([(periodicF, after periodicF (after periodicF (DG.fresh exFull) 3 (-1)) 2 (-1))], some 4) := by
  decide +kernel

/-- Hypotheses of `C40_forward`: a field set of a plain, an extrapolating and a periodic field at time 8/3 with dt = 0.15,
which returns a whole number of steps. -/
def exState (f : Flags) : DG := after f (DG.fresh exFull) (1 / 2) 1
example : ForwardState plain (exState plain) (8 / 3) ∧ ForwardState extrapolating (exState extrapolating) (8 / 3) :=
  ⟨⟨by unfold Increasing; decide +kernel, by decide +kernel, Or.inl ⟨rfl,
      .request (g := DG.fresh (exState plain).full) (t := 1 / 2) (s := 1) (nx := some 1) .fresh (by decide +kernel)⟩⟩,
   ⟨by unfold Increasing; decide +kernel, by decide +kernel, Or.inl ⟨rfl,
      .request (g := DG.fresh (exState extrapolating).full) (t := 1 / 2) (s := 1) (nx := some 1) .fresh (by decide +kernel)⟩⟩⟩
example : ForwardState periodicF (exState periodicF) (8 / 3) :=
  ⟨by unfold Increasing; decide +kernel, by decide +kernel, Or.inr ⟨rfl, rfl, Or.inr ⟨1 / 2, some 1, 1 / 2,
    .start (s := 1) (by decide +kernel) (by decide) (by decide +kernel), by decide +kernel⟩⟩⟩
example : (computeTimeChunk [(plain, exState plain), (extrapolating, exState extrapolating), (periodicF, exState periodicF)]
    (8 / 3) (15 / 100)).map (·.2) = .ok (some (8 / 3 + 2 * (15 / 100))) := by decide +kernel

end Parcels.TimeChunk
