import Verif.Proofs.AdaptiveRun3
import Verif.Props.PathRun
import Verif.Props.Advection

/-!
C110: runs with kernels that choose the length of their steps, such as AdvectionRK45.
-/

namespace Parcels.AdaptiveRun

open KernelLoop (Particle Kern Exc)
open Recovery (TP RMap)
open WholeRun (IsMode Exec Opts St Run records core scipyExec jitExec execute exFile ne_zero_of mul_sgn_self)
open RepairRun (Act Recovers)
open PathRun (Account Starts endOf)

variable {V : Type}

section Statements

variable {g : Adaptive V} (hg : Sensible g) {act : Act V} {user : RMap Unit V} {raises : Bool} (hu : Recovers user act raises) {exec : Exec V}
  (hm : IsMode (kernel g) user exec) {o : Opts} {S : ℚ} {ps : List (TP V)} (h : Starts o S ps) (fuel : ℕ) (file : Output.PFile) (s : St V)

include hg hu hm h

theorem run_adaptive (r : Run V) (hr : execute o exec fuel file ps = some r) :
    (∀ s, r = .done s → Account (Walk g act o.dt (endOf o S)) (Gone g act o.dt raises) ps s.ps ∧
      Recs (fun q c => c.1 = q.1 ∧ Path g act o.dt q.2.time q.2.vars c.2.1 c.2.2) ps s ∧ s.sched.time = endOf o S ∧ ∀ x ∈ s.ps, There o.dt (endOf o S) x) ∧
    (∀ s, r = .raised s → raises = true ∧ ∃ q ∈ ps, Fails g act o.dt q) := by
  refine run_path (R := fun E => Walk g act o.dt E) (D := There o.dt) h (fun q r hw => ⟨hw.tag, hw.path⟩) ?_ ?_ fuel file r hr
  · intro T hT rs e rs' hrs hx
    obtain ⟨fuel, nRounds, rfl | rfl⟩ := hm
    · rcases scipy_path hg hu h.step hT hrs hx with c | ⟨c1, c2, c3⟩
      · exact Or.inl c
      · exact Or.inr ⟨c2, c1, c3⟩
    · rcases jit_path hg hu h.step hT hrs hx with c | ⟨c1, c2, c3⟩
      · exact Or.inl c
      · exact Or.inr ⟨c2, c1, c3⟩
  · have hs := h.step
    generalize endOf o S = E
    clear h hr
    induction ps with
    | nil => exact .nil
    | cons q ps ih =>
      exact .keep ⟨rfl, .here, by simp only [mul_sgn_self]; linarith, fun c => absurd (show |o.dt| ≤ 1 / 100000000 from c) (not_le.mpr hs), Or.inr rfl⟩ ih

/-- C110. A kernel may choose its steps: it takes the step it is offered, and may ask for a longer one next; or it asks for the same step with another length; or it fails. Wherever the outputs, the times
of the data and the starts of the particles are: when a run returns, each particle of the set has reached its present time and variables from its start by an unbroken sequence of steps that the kernel
took, or it is gone because a step failed on such a sequence. No step that the kernel rejected has left a trace, and none was taken twice. The order is kept. In both modes. -/
theorem C110_run (hr : execute o exec fuel file ps = some (.done s)) :
    Account (fun q r => r.1 = q.1 ∧ Path g act o.dt q.2.time q.2.vars r.2.time r.2.vars) (fun q => raises = false ∧ Fails g act o.dt q) ps s.ps :=
  ((run_adaptive hg hu hm h fuel file _ hr).1 s rfl).1.imp (fun _ _ _ _ hw => ⟨hw.tag, hw.path⟩) fun _ _ hf => hf

/-- C110. No particle goes past the end of the run; those that start after it do not begin. Each one has arrived there, up to 1e-8 s, or it was left behind where the kernel asked for a step of at most
1e-8 s. -/
theorem C110_end_partial (hr : execute o exec fuel file ps = some (.done s)) :
    Account (fun q r => ((endOf o S - r.2.time) * sgn o.dt ≤ 1 / 100000000 ∨ Stuck g o.dt r.2.time r.2.vars) ∧ ((r.2.time - endOf o S) * sgn o.dt ≤ 0 ∨ r.2.time = q.2.time))
      (fun q => Fails g act o.dt q) ps s.ps := by
  obtain ⟨h1, -, -, h2⟩ := (run_adaptive hg hu hm h fuel file _ hr).1 s rfl
  exact h1.imp (fun q _ r hr' hw => ⟨(h2 r hr').imp id hw.tiny, hw.end_⟩) fun _ _ hf => hf.2

/-- C110. If the kernel never asks for such short steps, all particles that are left have arrived. -/
theorem C110_arrive (hn : ∀ t v, ¬ Stuck g o.dt t v) (hr : execute o exec fuel file ps = some (.done s)) :
    ∀ r ∈ s.ps, (endOf o S - r.2.time) * sgn o.dt ≤ 1 / 100000000 := by
  intro r hr'
  obtain ⟨q, -, hq, -⟩ := (C110_end_partial hg hu hm h fuel file s hr).right r hr'
  exact hq.resolve_right (hn _ _)

/-- C110. Each record in the output file is a point of the path of the particle with its identifier. -/
theorem C110_records (hr : execute o exec fuel file ps = some (.done s)) :
    ∀ c ∈ records s, ∃ q ∈ ps, c.1 = q.1 ∧ Path g act o.dt q.2.time q.2.vars c.2.1 c.2.2 :=
  ((run_adaptive hg hu hm h fuel file _ hr).1 s rfl).2.1

/-- C110. The run raises only because a step failed on the path of one of the particles: a rejected step is not an error. -/
theorem C110_raises (hr : execute o exec fuel file ps = some (.raised s)) : raises = true ∧ ∃ q ∈ ps, Fails g act o.dt q :=
  (run_adaptive hg hu hm h fuel file _ hr).2 s rfl

end Statements

theorem Path.keeps {g : Adaptive V} {act : Act V} {dt t : ℚ} {v : V} (I : ℚ → V → Prop) (h0 : I t v)
    (h1 : ∀ t d v v' n, 0 < d * sgn dt → I t v → g t d v = .take v' n → I (t + d) v') (h2 : ∀ t e v v', I t v → act e t v = some v' → I t v') :
    ∀ {t' v'}, Path g act dt t v t' v' → I t' v' := by
  intro t' v' hp
  induction hp with
  | here => exact h0
  | step _ hs hf ih => exact h1 _ _ _ _ _ hs ih hf
  | repair _ _ _ ha ih => exact h2 _ _ _ _ ih ha

/-! ### AdvectionRK45 -/

/-- C110. AdvectionRK45 is such a kernel: its scheme is the one of Runge, Kutta and Fehlberg. -/
theorem C110_rk45 (uv : Advection.Flow ℚ) : Advection.toKern (Advection.rk45 uv) = kernel (fehlberg uv) ∧ Sensible (fehlberg uv) := by
  have t1 : ∀ x : ℚ, Advection.sq |x * (1 / 100000)| = (x / 100000) ^ 2 := fun x => by rw [Advection.sq, ← pow_two, sq_abs]; ring
  have t2 : ∀ x : ℚ, Advection.sq |x * (1 / 100000) / 10| = (x / 1000000) ^ 2 := fun x => by rw [Advection.sq, ← pow_two, sq_abs]; ring
  have t3 : ∀ x : ℚ, Advection.sq x = x ^ 2 := fun x => by rw [Advection.sq, pow_two]
  constructor
  · funext w p
    unfold Advection.toKern kernel fehlberg Advection.rk45
    cases hs : Advection.rk45Sol uv ⟨p.time, p.dt, p.vars.1, p.vars.2.1, p.vars.2.2⟩ with
    | error e => rfl
    | ok r =>
      obtain ⟨x4, y4, x5, y5⟩ := r
      simp only [t1, t2]
      rw [t3, t3]
      by_cases c1 : (x5 - x4) ^ 2 + (y5 - y4) ^ 2 ≤ (p.dt / 100000) ^ 2
      · simp only [if_pos c1]
        by_cases c2 : (x5 - x4) ^ 2 + (y5 - y4) ^ 2 ≤ (p.dt / 1000000) ^ 2
        · simp only [if_pos c2, mul_comm]
        · simp only [if_neg c2]
      · simp only [if_neg c1]
  · have take : ∀ {t h v v' n}, fehlberg uv t h v = .take v' (some n) → n = 2 * h := by
      intro t h v v' n e
      unfold fehlberg at e
      split at e
      · cases e
      · split at e
        · simp only [Try.take.injEq] at e
          have e2 := e.2
          split at e2
          · exact (Option.some.inj e2).symm
          · cases e2
        · cases e
    refine ⟨fun t h v v' n e h0 => by rw [take e]; linarith, fun t h v v' n e h0 => by rw [take e]; linarith, fun t h v h' e => ?_⟩
    unfold fehlberg at e
    split at e
    · cases e
    · split at e
      · cases e
      · obtain rfl := Try.retry.inj e
        exact ⟨fun c => by linarith, fun c => by linarith⟩

/-- C110. With AdvectionRK45, a particle that is left behind is at a point where the two solutions differ by more than 1e-5 times the step for a step of at most 2e-8 s. -/
theorem C110_rk45_stuck (uv : Advection.Flow ℚ) (dt t : ℚ) (v : ℚ × ℚ × ℚ) (h : Stuck (fehlberg uv) dt t v) :
    ∃ d x4 y4 x5 y5, d ≠ 0 ∧ |d| ≤ 2 / 100000000 ∧ Advection.rk45Sol uv ⟨t, d, v.1, v.2.1, v.2.2⟩ = .ok (x4, y4, x5, y5) ∧
      (d / 100000) ^ 2 < (x5 - x4) ^ 2 + (y5 - y4) ^ 2 := by
  obtain ⟨d, d', -, h1, e, h2⟩ := h
  unfold fehlberg at e
  split at e
  · cases e
  · rename_i x4 y4 x5 y5 hs
    split at e
    · cases e
    · rename_i hc
      obtain rfl := Try.retry.inj e
      refine ⟨d, x4, y4, x5, y5, ne_zero_of h1, ?_, hs, not_le.mp hc⟩
      rw [abs_div, abs_of_pos (show (0 : ℚ) < 2 by norm_num)] at h2
      linarith

/-- A uniform flow. -/
def uniform (u v : ℚ) : Advection.Flow ℚ := fun _ _ _ _ => .ok (u, v)

theorem fehlberg_uniform (u v t h : ℚ) (w : ℚ × ℚ × ℚ) : fehlberg (uniform u v) t h w = .take (w.1 + u * h, w.2.1 + v * h, w.2.2) (some (2 * h)) := by
  have e : Advection.rk45Sol (uniform u v) ⟨t, h, w.1, w.2.1, w.2.2⟩ = .ok (w.1 + u * h, w.2.1 + v * h, w.1 + u * h, w.2.1 + v * h) := by
    simp only [Advection.rk45Sol, uniform, Except.ok.injEq, Prod.mk.injEq]
    refine ⟨?_, ?_, ?_, ?_⟩ <;> ring
  unfold fehlberg
  rw [e]
  simp only [sub_self]
  have c : ∀ x : ℚ, (0 : ℚ) ^ 2 + 0 ^ 2 ≤ x ^ 2 := fun x => by have := sq_nonneg x; norm_num; exact this
  rw [if_pos (c _), if_pos (c _)]

/-- C110. With AdvectionRK45 in a uniform flow, all particles arrive, and each one, and each record, is at its exact position, whatever steps were taken. -/
theorem C110_uniform {u v : ℚ} {act : Act (ℚ × ℚ × ℚ)} {user : RMap Unit (ℚ × ℚ × ℚ)} {raises : Bool} (hu : Recovers user act raises) {exec : Exec (ℚ × ℚ × ℚ)}
    (hm : IsMode (Advection.toKern (Advection.rk45 (uniform u v))) user exec) {o : Opts} {S : ℚ} {ps : List (TP (ℚ × ℚ × ℚ))} (h : Starts o S ps) (fuel : ℕ)
    (file : Output.PFile) (s : St (ℚ × ℚ × ℚ)) (hr : execute o exec fuel file ps = some (.done s)) :
    Account (fun q r => r.1 = q.1 ∧ r.2.vars = (q.2.vars.1 + u * (r.2.time - q.2.time), q.2.vars.2.1 + v * (r.2.time - q.2.time), q.2.vars.2.2) ∧
      (endOf o S - r.2.time) * sgn o.dt ≤ 1 / 100000000) (fun _ => False) ps s.ps ∧
    ∀ c ∈ records s, ∃ q ∈ ps, c.1 = q.1 ∧ c.2.2 = (q.2.vars.1 + u * (c.2.1 - q.2.time), q.2.vars.2.1 + v * (c.2.1 - q.2.time), q.2.vars.2.2) := by
  obtain ⟨k1, k2⟩ := C110_rk45 (uniform u v)
  rw [k1] at hm
  have key : ∀ (q : TP (ℚ × ℚ × ℚ)) {t' v'}, Path (fehlberg (uniform u v)) act o.dt q.2.time q.2.vars t' v' →
      v' = (q.2.vars.1 + u * (t' - q.2.time), q.2.vars.2.1 + v * (t' - q.2.time), q.2.vars.2.2) := by
    intro q t' v' hp
    induction hp with
    | here => simp
    | step _ _ he ih =>
      rw [fehlberg_uniform, ih] at he
      obtain ⟨rfl, -⟩ := Try.take.inj he
      simp only [Prod.mk.injEq, and_true]
      constructor <;> ring
    | repair _ _ he => rw [fehlberg_uniform] at he; cases he
  have hn : ∀ t w, ¬ Stuck (fehlberg (uniform u v)) o.dt t w := by
    rintro t w ⟨d, d', -, -, e, -⟩
    rw [fehlberg_uniform] at e
    cases e
  constructor
  · refine (C110_run k2 hu hm h fuel file s hr).imp (fun q _ r hr' hp => ⟨hp.1, key q hp.2, C110_arrive k2 hu hm h fuel file s hn hr r hr'⟩) fun q _ hgone => ?_
    obtain ⟨-, t, v', d, e, -, hs, he, -⟩ := hgone
    rw [fehlberg_uniform] at he
    cases he
  · intro c hc
    obtain ⟨q, hq, e, hp⟩ := C110_records k2 hu hm h fuel file s hr c hc
    exact ⟨q, hq, e, key q hp⟩

/-! ### Cases -/

/-- Velocity 1 up to longitude 0, 2 from there to 3, no data beyond. -/
def exFlow : Advection.Flow ℚ := fun _ _ _ x => if x ≤ 0 then .ok (1, 0) else if x ≤ 3 then .ok (2, 0) else .error .outOfBound

def exPs : List (TP (ℚ × ℚ × ℚ)) := [(0, ⟨1 / 3, 1, .success, (-20, 0, 0)⟩), (1, ⟨1, 1, .success, (1, 0, 0)⟩), (2, ⟨5 / 2, 1, .success, (-1, 0, 0)⟩), (3, ⟨6, 1, .success, (0, 0, 0)⟩)]

def exUser : RMap Unit (ℚ × ℚ × ℚ) := fun _ => some fun w p => (w, some { p with state := .delete })

theorem exRecovers : Recovers exUser (fun _ _ _ => none) false := by
  intro e
  exact ⟨_, by cases e <;> rfl, fun w p => rfl⟩

theorem exStarts : Starts PathRun.exOdd (1 / 3) exPs := by
  refine ⟨⟨_, List.mem_cons_self, rfl⟩, by decide +kernel, by norm_num [PathRun.exOdd], by decide +kernel⟩

/-- C110. What is missing in C110_end_partial: in a flow with a jump, a particle is left behind at the jump, and the run returns without any error; both modes agree. The first particle arrives, the second
leaves the data and is deleted, the last one starts after the end. -/
theorem C110_left_behind_fails :
    (match execute PathRun.exOdd (scipyExec (Advection.toKern (Advection.rk45 exFlow)) exUser 40 100) 20 exFile exPs with
    | some (.done s) => decide (s.ps.map (fun r => (r.1, r.2.time)) = [(0, 55 / 12), (2, 880803839 / 251658240), (3, 6)] ∧ s.sched.time = 55 / 12)
    | _ => false) = true ∧
    (match execute PathRun.exOdd (jitExec (Advection.toKern (Advection.rk45 exFlow)) exUser 40 100) 20 exFile exPs with
    | some (.done s) => decide (s.ps.map (fun r => (r.1, r.2.time)) = [(0, 55 / 12), (2, 880803839 / 251658240), (3, 6)] ∧ s.sched.time = 55 / 12)
    | _ => false) = true := by decide +kernel

/-- The hypotheses of the statements can be met, with that run. -/
example : Sensible (fehlberg exFlow) ∧ Recovers exUser (fun _ _ _ => none) false ∧ Starts PathRun.exOdd (1 / 3) exPs ∧
    IsMode (kernel (fehlberg exFlow)) exUser (scipyExec (Advection.toKern (Advection.rk45 exFlow)) exUser 40 100) :=
  ⟨(C110_rk45 exFlow).2, exRecovers, exStarts, 40, 100, Or.inl (by rw [(C110_rk45 exFlow).1])⟩

/-- The hypotheses of C110_rk45_stuck can be met: at the jump. -/
example : Stuck (fehlberg Advection.jump) 1 0 (0, 0, 0) := by
  refine ⟨1 / 67108864, 1 / 134217728, by decide +kernel, by norm_num, ?_, by norm_num⟩
  have e : (match Advection.rk45Sol Advection.jump ⟨0, 1 / 67108864, 0, 0, 0⟩ with
    | .ok r => decide (¬ (r.2.2.1 - r.1) ^ 2 + (r.2.2.2 - r.2.1) ^ 2 ≤ (1 / 67108864 / 100000 : ℚ) ^ 2) | .error _ => false) = true := by decide +kernel
  unfold fehlberg
  simp only at e ⊢
  split at e
  · rename_i r hr
    obtain ⟨x4, y4, x5, y5⟩ := r
    rw [hr]
    simp only
    rw [if_neg (of_decide_eq_true e)]
    norm_num
  · cases e

/-- A run in a uniform flow. -/
theorem exUniform :
    (match execute PathRun.exOdd (scipyExec (Advection.toKern (Advection.rk45 (uniform 2 (-1)))) exUser 40 100) 20 exFile exPs with
    | some (.done s) => decide (s.ps.map (fun r => (r.1, r.2.time, r.2.vars)) =
        [(0, 55 / 12, (-20 + 17 / 2, -(17 / 4), 0)), (1, 55 / 12, (1 + 43 / 6, -(43 / 12), 0)), (2, 55 / 12, (-1 + 25 / 6, -(25 / 12), 0)), (3, 6, (0, 0, 0))])
    | _ => false) = true := by decide +kernel

end Parcels.AdaptiveRun
