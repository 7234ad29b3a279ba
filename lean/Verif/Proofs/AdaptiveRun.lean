import Verif.Spec.AdaptiveRun
import Verif.Proofs.PathRun2
import Verif.Proofs.JitClock

namespace Parcels.AdaptiveRun

open KernelLoop (Particle Kern Exc LS)
open JitLoop (JS)
open Recovery (TP RMap)
open WholeRun (scipyExec jitExec ne_zero_of not_close)
open RepairRun (Act Recovers)
open PathRun (Account sgn_sq)

variable {V : Type}

/-- Sign of the next step. -/
theorem next_sign {g : Adaptive V} (hg : Sensible g) {dt t h : ℚ} {v v' : V} {n : Option ℚ} (hdt : 1 / 100000000 < |dt|) (hh : 0 < h * sgn dt) (e : g t h v = .take v' n) :
    0 < n.getD h * sgn dt ∧ |h| ≤ |n.getD h| := by
  cases n with
  | none => exact ⟨hh, le_rfl⟩
  | some n =>
    rw [Option.getD_some]
    rcases Schedule.pos_or_neg (ne_zero_of hdt) with ⟨-, p⟩ | ⟨-, p⟩ <;> rw [p] at hh ⊢
    · have h1 : 0 < h := by linarith
      have h2 := hg.1 _ _ _ _ _ e h1
      exact ⟨by linarith, by rw [abs_of_pos h1, abs_of_pos (by linarith)]; exact h2⟩
    · have h1 : h < 0 := by linarith
      have h2 := hg.2.1 _ _ _ _ _ e h1
      exact ⟨by linarith, by rw [abs_of_neg h1, abs_of_neg (by linarith)]; linarith⟩

theorem retry_sign {g : Adaptive V} (hg : Sensible g) {dt t h h' : ℚ} {v : V} (hdt : 1 / 100000000 < |dt|) (hh : 0 < h * sgn dt) (e : g t h v = .retry h') :
    0 < h' * sgn dt := by
  have h3 := hg.2.2 _ _ _ _ e
  rcases Schedule.pos_or_neg (ne_zero_of hdt) with ⟨-, p⟩ | ⟨-, p⟩ <;> rw [p] at hh ⊢
  · have := h3.1 (by linarith); linarith
  · have := h3.2 (by linarith); linarith

/-- What one turn of either loop makes of a particle `p` that is offered the step `h`: the particle, the next step, and whether the loop ends. -/
def Turn (g : Adaptive V) (dt T : ℚ) (p : Particle V) (h : ℚ) (p' : Particle V) (dtPos' : ℚ) (brk : Bool) : Prop :=
  (∃ v n, g p.time h p.vars = .take v n ∧ brk = false ∧ p'.time = p.time + h ∧ p'.dt = n.getD h ∧ p'.vars = v ∧
    ((p'.state = .success ∧ ((T - p'.time) * sgn dt ≤ 1 / 100000000 ∨ |p'.dt| ≤ 1 / 100000000)) ∨
     (p'.state = .evaluate ∧ 1 / 100000000 < dtPos' ∧ dtPos' ≤ (T - p'.time) * sgn dt))) ∨
  (∃ h', g p.time h p.vars = .retry h' ∧ brk = true ∧ p' = ⟨p.time, h', .repeat, p.vars⟩) ∨
  (∃ e : Exc, g p.time h p.vars = .fail e ∧ brk = true ∧ p' = ⟨p.time, h, e.code, p.vars⟩)

theorem step_scipy (g : Adaptive V) (T dt : ℚ) (hdt : 1 / 100000000 < |dt|) (s : LS Unit V) (hst : s.p.state = .evaluate) (hn : s.nextDt = none)
    (hp : 1 / 100000000 < s.dtPos) : ∃ s' brk, KernelLoop.step (kernel g) T dt s = (s', brk) ∧ s'.nextDt = none ∧
      Turn g dt T s.p (sgn dt * s.dtPos) s'.p s'.dtPos brk := by
  have hne := ne_zero_of hdt
  have hpre : KernelLoop.preAt dt s = { s.p with dt := sgn dt * s.dtPos } := rfl
  cases hv : g s.p.time (sgn dt * s.dtPos) s.p.vars with
  | take v n =>
    have ho : KernelLoop.outAt (kernel g) dt s = ⟨{ s.p with dt := sgn dt * s.dtPos, vars := v }, n, .ret none⟩ := by
      simp only [KernelLoop.outAt, hpre, kernel, hv]
    have hc : KernelLoop.codeAt (kernel g) dt s = .success := by
      simp [KernelLoop.codeAt, ho, hpre, KernelLoop.resolve, isclose_self]
    have key := KernelLoop.step_commit (kernel g) T dt s (Or.inl hc) ho (time' := s.p.time + sgn dt * s.dtPos) (dt' := n.getD (sgn dt * s.dtPos))
      (dtPos := min |n.getD (sgn dt * s.dtPos)| |T - (s.p.time + sgn dt * s.dtPos)|) (st := _) rfl (by cases n <;> simp [hn]) rfl rfl
    rw [not_close hdt] at key
    refine ⟨_, _, key, rfl, Or.inl ⟨v, n, hv, rfl, rfl, rfl, rfl, ?_⟩⟩
    dsimp only
    rw [hc]
    generalize n.getD (sgn dt * s.dtPos) = d
    by_cases hg : sgn (T - (s.p.time + sgn dt * s.dtPos)) = sgn dt
    · have hpos := (sgn_eq_of_ne_zero hne).mp hg
      have hab := abs_eq_mul_sgn hne hpos.le
      have hg' : ¬ sgn (T - (s.p.time + sgn dt * s.dtPos)) ≠ sgn dt := not_not.mpr hg
      simp only [if_neg hg']
      by_cases hz : isclose (min |d| |T - (s.p.time + sgn dt * s.dtPos)|) 0 = true
      · left
        rw [if_neg (by rintro ⟨-, h, -⟩; exact h hz)]
        refine ⟨rfl, ?_⟩
        rw [isclose_zero_iff, abs_of_nonneg (le_min (abs_nonneg _) (abs_nonneg _)), min_le_iff] at hz
        rw [← hab]
        exact hz.symm
      · right
        rw [if_pos ⟨by decide, hz, hg⟩]
        rw [isclose_zero_iff, abs_of_nonneg (le_min (abs_nonneg _) (abs_nonneg _)), not_le] at hz
        exact ⟨rfl, hz, by rw [← hab]; exact min_le_right _ _⟩
    · left
      rw [if_neg (by rintro ⟨-, -, h⟩; exact hg h)]
      refine ⟨rfl, Or.inl ?_⟩
      rw [sgn_eq_of_ne_zero hne, not_lt] at hg
      linarith
  | retry h' =>
    have ho : KernelLoop.outAt (kernel g) dt s = ⟨{ s.p with dt := h' }, none, .ret (some .repeat)⟩ := by
      simp only [KernelLoop.outAt, hpre, kernel, hv]
    have hc : KernelLoop.codeAt (kernel g) dt s = .repeat := by
      simp [KernelLoop.codeAt, ho, KernelLoop.resolve]
    obtain ⟨k1, -, -, k3, -, k2⟩ := KernelLoop.step_fail (kernel g) T dt s (by rw [hc]; decide)
    refine ⟨(KernelLoop.step (kernel g) T dt s).1, true, Prod.ext rfl k1, by rw [k3, hn], Or.inr (Or.inl ⟨h', hv, rfl, ?_⟩)⟩
    rw [k2, ho, hc]
  | fail e =>
    have ho : KernelLoop.outAt (kernel g) dt s = ⟨{ s.p with dt := sgn dt * s.dtPos }, none, .exc e⟩ := by
      simp only [KernelLoop.outAt, hpre, kernel, hv]
    have hc : KernelLoop.codeAt (kernel g) dt s = e.code := by
      simp only [KernelLoop.codeAt, ho, KernelLoop.resolve]
    obtain ⟨h1, h2, h3⟩ := WholeRun.exc_code e
    obtain ⟨k1, -, -, k3, -, k2⟩ := KernelLoop.step_fail (kernel g) T dt s (by rw [hc]; rintro (h | h); exacts [h1 h, h2 h])
    refine ⟨(KernelLoop.step (kernel g) T dt s).1, true, Prod.ext rfl k1, by rw [k3, hn], Or.inr (Or.inr ⟨e, hv, rfl, ?_⟩)⟩
    rw [k2, ho, hc]

theorem isZero_of {x : ℚ} (h : x ≠ 0) : JitLoop.isZero x = false := by
  unfold JitLoop.isZero
  rw [decide_eq_false_iff_not, not_le]
  have := abs_pos.mpr h
  unfold JitLoop.eps
  linarith

theorem isCloseC_zero (x : ℚ) : JitLoop.isCloseC x 0 = isclose x 0 := by
  unfold JitLoop.isCloseC isclose
  simp

theorem step_jit (g : Adaptive V) (hg : Sensible g) (T dt : ℚ) (hdt : 1 / 100000000 < |dt|) (s : JS Unit V) (hst : s.p.state = .evaluate) (hn : s.nextDt = none)
    (hp : 1 / 100000000 < s.dtPos) : ∃ s' brk, JitLoop.step (kernel g) T dt s = (s', brk) ∧ s'.nextDt = none ∧
      Turn g dt T s.p (sgn dt * s.dtPos) s'.p s'.dtPos brk := by
  have hne := ne_zero_of hdt
  have hcs : s.dtPos * JitLoop.csgn dt = sgn dt * s.dtPos := by rw [JitLoop.csgn_sgn hne, mul_comm]
  have hh : 0 < sgn dt * s.dtPos * sgn dt := by
    have : sgn dt * s.dtPos * sgn dt = s.dtPos * (sgn dt * sgn dt) := by ring
    rw [this, sgn_sq hdt]; linarith
  unfold JitLoop.step
  simp only [hcs, kernel]
  cases hv : g s.p.time (sgn dt * s.dtPos) s.p.vars with
  | take v n =>
    have hc : JitLoop.resolve { s.p with dt := sgn dt * s.dtPos } ⟨{ s.p with dt := sgn dt * s.dtPos, vars := v }, n, .ret none⟩ = .success := by
      simp [JitLoop.resolve, JitLoop.code, JitLoop.isEqual, JitLoop.eps]
      positivity
    simp only [hc, true_or, if_true]
    have hd : (n.orElse fun _ => s.nextDt).getD (sgn dt * s.dtPos) = n.getD (sgn dt * s.dtPos) := by cases n <;> simp [hn]
    simp only [hd]
    refine ⟨_, _, rfl, rfl, Or.inl ⟨v, n, hv, ?_, rfl, rfl, rfl, ?_⟩⟩
    · apply isZero_of
      intro h0
      have := (next_sign hg hdt hh hv).1
      rw [h0] at this
      norm_num at this
    dsimp only
    generalize n.getD (sgn dt * s.dtPos) = d
    rw [isCloseC_zero]
    by_cases hz : isclose (min |d| |T - (s.p.time + sgn dt * s.dtPos)|) 0 = true
    · left
      rw [if_neg (by rintro ⟨-, h, -⟩; exact h hz)]
      refine ⟨rfl, ?_⟩
      rw [isclose_zero_iff, abs_of_nonneg (le_min (abs_nonneg _) (abs_nonneg _)), min_le_iff] at hz
      rcases hz with hz | hz
      · exact Or.inr hz
      · left
        have h1 : |(T - (s.p.time + sgn dt * s.dtPos)) * sgn dt| ≤ 1 / 100000000 := by
          rw [abs_mul]
          have : |sgn dt| = 1 := by rcases sgn_cases dt with ⟨-, h⟩ | ⟨-, h⟩ | ⟨h, -⟩ <;> first | exact absurd h hne | (rw [h]; norm_num)
          rw [this, mul_one]; exact hz
        exact le_trans (le_abs_self _) h1
    · have hz' := hz
      rw [isclose_zero_iff, abs_of_nonneg (le_min (abs_nonneg _) (abs_nonneg _)), not_le] at hz'
      have hT0 : T - (s.p.time + sgn dt * s.dtPos) ≠ 0 := by
        intro h0
        rw [h0, abs_zero] at hz'
        have := lt_of_lt_of_le hz' (min_le_right _ _)
        norm_num at this
      have hiff := JitLoop.csgn_eq_iff hne hT0
      by_cases hs : JitLoop.csgn dt = JitLoop.csgn (T - (s.p.time + sgn dt * s.dtPos))
      · right
        have hab := abs_eq_mul_sgn hne ((sgn_eq_of_ne_zero hne).mp (hiff.mp hs)).le
        rw [if_pos ⟨by decide, hz, hs⟩, if_neg (not_not.mpr hs)]
        exact ⟨rfl, hz', by rw [← hab]; exact min_le_right _ _⟩
      · left
        rw [if_neg (by rintro ⟨-, -, h⟩; exact hs h)]
        refine ⟨rfl, Or.inl ?_⟩
        rw [hiff, sgn_eq_of_ne_zero hne, not_lt] at hs
        linarith
  | retry h' =>
    have hc : ∀ a : Particle V, JitLoop.resolve a ⟨{ s.p with dt := h' }, none, .ret (some .repeat)⟩ = .repeat := by
      intro a; simp [JitLoop.resolve, JitLoop.code]
    simp only [hc]
    refine ⟨_, _, rfl, by simp [hn], Or.inr (Or.inl ⟨h', hv, rfl, rfl⟩)⟩
  | fail e =>
    obtain ⟨h1, h2, h3⟩ := WholeRun.exc_code e
    have hc : ∀ a : Particle V, JitLoop.resolve a ⟨{ s.p with dt := sgn dt * s.dtPos }, none, .exc e⟩ = e.code := by
      intro a; simp [JitLoop.resolve, JitLoop.code, h1]
    simp only [hc]
    rw [if_neg (by rintro (h | h); exacts [h1 h, h2 h])]
    exact ⟨_, _, rfl, by simp [hn], Or.inr (Or.inr ⟨e, hv, rfl, rfl⟩)⟩

end Parcels.AdaptiveRun
