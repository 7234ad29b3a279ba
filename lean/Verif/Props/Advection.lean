import Verif.Proofs.Advection
import Verif.Proofs.JitLoop
import Verif.Model.Recovery
import Mathlib.Probability.Distributions.Gaussian.Real

/-!
C49: advection schemes are consistent; C50: RK45 accepts only steps within tolerance and adapts dt; C66: diffusion kernels.
-/

namespace Parcels.Advection

open MeasureTheory ProbabilityTheory

open KernelLoop (Exc KRes KOut Kern Particle)

/-! ### C49: uniform flow -/

section
variable {K : Type} [Field K] [LinearOrder K] [IsStrictOrderedRing K]

/-- C49. In a uniform flow, one call of any of the schemes moves the particle by exactly velocity times dt, whatever the sign
of dt; RK45 accepts the step and asks for a step twice as long. -/
theorem C49_uniform_step (u v : K) (p : Pt K) :
    let moved : Pt K := { p with lon := p.lon + u * p.dt, lat := p.lat + v * p.dt }
    ee (uniform u v) p = .ok moved ∧ rk4 (uniform u v) p = .ok moved ∧
    rk45 (uniform u v) p = ⟨moved, some (p.dt * 2), .ret none⟩ := by
  refine ⟨rfl, ?_, ?_⟩
  · simp only [rk4, uniform, Except.ok.injEq, Pt.mk.injEq, true_and, and_true]
    constructor <;> ring
  · have hs : rk45Sol (uniform u v) p = .ok (p.lon + u * p.dt, p.lat + v * p.dt, p.lon + u * p.dt, p.lat + v * p.dt) := by
      simp only [rk45Sol, uniform, Except.ok.injEq, Prod.mk.injEq]
      refine ⟨?_, ?_, ?_, ?_⟩ <;> ring
    simp only [rk45, hs, sub_self]
    have hz : ∀ x : K, sq (0 : K) + sq 0 ≤ sq |x| := fun x => by simp only [sq, mul_zero, add_zero]; positivity
    rw [if_pos (hz _), if_pos (hz _)]

theorem C49_uniform_step3 (u v w : K) (p : Pt K) :
    rk4_3D (uniform3 u v w) p =
      .ok { p with lon := p.lon + u * p.dt, lat := p.lat + v * p.dt, depth := p.depth + w * p.dt } := by
  simp only [rk4_3D, uniform3, Except.ok.injEq, Pt.mk.injEq, true_and]
  refine ⟨?_, ?_, ?_⟩ <;> ring

/-! ### C49: flows that depend on time only -/

/-- C49. In a flow that depends on time only, an RK4 step and then an RK4 step backward in time return to the start. -/
theorem C49_forward_backward (u v : K → K) (p q r : Pt K) (hq : rk4 (timeFlow u v) p = .ok q)
    (hr : rk4 (timeFlow u v) { q with time := q.time + q.dt, dt := -q.dt } = .ok r) :
    r.lon = p.lon ∧ r.lat = p.lat ∧ r.depth = p.depth ∧ r.time + r.dt = p.time := by
  simp only [rk4, timeFlow, Except.ok.injEq] at hq hr
  subst hq
  subst hr
  simp only
  have h1 : p.time + p.dt + 1 / 2 * -p.dt = p.time + 1 / 2 * p.dt := by ring
  have h2 : p.time + p.dt + -p.dt = p.time := by ring
  rw [h1, h2]
  refine ⟨by ring, by ring, trivial, rfl⟩

theorem C49_forward_backward3 (u v w : K → K) (p q r : Pt K) (hq : rk4_3D (timeFlow3 u v w) p = .ok q)
    (hr : rk4_3D (timeFlow3 u v w) { q with time := q.time + q.dt, dt := -q.dt } = .ok r) :
    r.lon = p.lon ∧ r.lat = p.lat ∧ r.depth = p.depth ∧ r.time + r.dt = p.time := by
  simp only [rk4_3D, timeFlow3, Except.ok.injEq] at hq hr
  subst hq
  subst hr
  simp only
  have h1 : p.time + p.dt + 1 / 2 * -p.dt = p.time + 1 / 2 * p.dt := by ring
  have h2 : p.time + p.dt + -p.dt = p.time := by ring
  rw [h1, h2]
  refine ⟨by ring, by ring, by ring, rfl⟩

end

example : rk4 (timeFlow (fun t : ℚ => t * t * t * t) fun t => 1 - t) ⟨1, 2, 0, 0, 7⟩ = .ok ⟨1, 2, 146 / 3, -2, 7⟩ := by decide +kernel
example : rk4 (timeFlow (fun t : ℚ => t * t * t * t) fun t => 1 - t) ⟨3, -2, 146 / 3, -2, 7⟩ = .ok ⟨3, -2, 0, 0, 7⟩ := by decide +kernel

/-- The other two schemes do not return to the start. -/
theorem C49_backward_fails :
    (∃ p q r : Pt ℚ, ee (timeFlow id id) p = .ok q ∧ ee (timeFlow id id) { q with time := q.time + q.dt, dt := -q.dt } = .ok r ∧
      r.lon ≠ p.lon) ∧
    (∃ p : Pt ℚ, let q := rk45 (timeFlow (fun t => t * t * t * t * t / 10000) fun _ => 0) p
      let r := rk45 (timeFlow (fun t => t * t * t * t * t / 10000) fun _ => 0) { q.p with time := q.p.time + q.p.dt, dt := -q.p.dt }
      q.res = .ret none ∧ r.res = .ret none ∧ r.p.lon ≠ p.lon) := by
  refine ⟨⟨⟨0, 1, 0, 0, 0⟩, ⟨0, 1, 0, 0, 0⟩, ⟨1, -1, -1, -1, 0⟩, by decide +kernel, by decide +kernel, by decide +kernel⟩, ?_⟩
  exact ⟨⟨0, 1, 0, 0, 0⟩, by decide +kernel⟩

/-- C49. RK4, in two and three dimensions, and both solutions of RK45 integrate a flow that is a cubic polynomial of time
exactly: the displacement is the difference of an antiderivative of the velocity. -/
theorem C49_cubic_step (a b c : Fin 4 → ℝ) (A B C : ℝ → ℝ) (hA : ∀ t, HasDerivAt A (cubic a t) t)
    (hB : ∀ t, HasDerivAt B (cubic b t) t) (hC : ∀ t, HasDerivAt C (cubic c t) t) (p : Pt ℝ) :
    let lon' := p.lon + (A (p.time + p.dt) - A p.time)
    let lat' := p.lat + (B (p.time + p.dt) - B p.time)
    rk4 (timeFlow (cubic a) (cubic b)) p = .ok { p with lon := lon', lat := lat' } ∧
    rk4_3D (timeFlow3 (cubic a) (cubic b) (cubic c)) p =
      .ok { p with lon := lon', lat := lat', depth := p.depth + (C (p.time + p.dt) - C p.time) } ∧
    rk45Sol (timeFlow (cubic a) (cubic b)) p = .ok (lon', lat', lon', lat') := by
  have key : ∀ (a : Fin 4 → ℝ) (A : ℝ → ℝ), (∀ t, HasDerivAt A (cubic a t) t) → ∀ s t,
      A t - A s = primitive a t - primitive a s := fun a A h s t => antiderivative a A h s t
  simp only [key a A hA, key b B hB, key c C hC]
  refine ⟨?_, ?_, ?_⟩
  · simp only [rk4, timeFlow, cubic, primitive, Except.ok.injEq, Pt.mk.injEq, true_and, and_true]
    refine ⟨?_, ?_⟩ <;> ring
  · simp only [rk4_3D, timeFlow3, cubic, primitive, Except.ok.injEq, Pt.mk.injEq, true_and]
    refine ⟨?_, ?_, ?_⟩ <;> ring
  · simp only [rk45Sol, timeFlow, cubic, primitive, Except.ok.injEq, Prod.mk.injEq]
    refine ⟨?_, ?_, ?_, ?_⟩ <;> ring

/-! ### C49: whole executions -/

/-- C49. Over a whole call of the particle loop, in Scipy mode and in JIT mode, with any of the schemes in a uniform flow, the
displacement of each particle is velocity times the time it has advanced, however many steps of whatever length it took. -/
theorem C49_uniform_run (u v : ℚ) (f : Pt ℚ → Res ℚ)
    (hf : f = plain (ee (uniform u v)) ∨ f = plain (rk4 (uniform u v)) ∨ f = rk45 (uniform u v))
    (E dt : ℚ) (fuel : Nat) (ps : List (Particle (ℚ × ℚ × ℚ))) (rs : List (Particle (ℚ × ℚ × ℚ) × List (KernelLoop.Call (ℚ × ℚ × ℚ))))
    (hr : (∃ w back back', KernelLoop.pass (toKern f) E dt fuel w back ps = some ((), back', rs)) ∨
      ∃ w g g', JitLoop.pass (toKern f) E dt fuel w g ps = some ((), g', rs)) :
    List.Forall₂ (fun p r => r.1.vars.1 = p.vars.1 + u * (r.1.time - p.time) ∧ r.1.vars.2.1 = p.vars.2.1 + v * (r.1.time - p.time) ∧
      r.1.vars.2.2 = p.vars.2.2) ps rs := by
  have hk : Keeps (toKern f) (fun t (x : ℚ × ℚ × ℚ) => (x.1 - u * t, x.2.1 - v * t, x.2.2)) := by
    intro w p c hc hne
    have h := C49_uniform_step u v (⟨p.time, p.dt, p.vars.1, p.vars.2.1, p.vars.2.2⟩ : Pt ℚ)
    simp only at h
    have hf' : (f ⟨p.time, p.dt, p.vars.1, p.vars.2.1, p.vars.2.2⟩).p =
        ⟨p.time, p.dt, p.vars.1 + u * p.dt, p.vars.2.1 + v * p.dt, p.vars.2.2⟩ := by
      rcases hf with rfl | rfl | rfl
      · simp only [plain, h.1]
      · simp only [plain, h.2.1]
      · rw [h.2.2]
    simp only [toKern, hf']
    refine Prod.ext ?_ (Prod.ext ?_ rfl) <;> simp only <;> ring
  refine (keeps_either hk hr).imp fun p r h => ?_
  simp only [Prod.mk.injEq] at h
  refine ⟨?_, ?_, h.2.2⟩
  · linarith [h.1]
  · linarith [h.2.1]

/-- C49. The same for flows that are cubic polynomials of time, with RK4 or RK45. -/
theorem C49_cubic_run (a b : Fin 4 → ℚ) (f : Pt ℚ → Res ℚ)
    (hf : f = plain (rk4 (timeFlow (cubic a) (cubic b))) ∨ f = rk45 (timeFlow (cubic a) (cubic b)))
    (E dt : ℚ) (fuel : Nat) (ps : List (Particle (ℚ × ℚ × ℚ))) (rs : List (Particle (ℚ × ℚ × ℚ) × List (KernelLoop.Call (ℚ × ℚ × ℚ))))
    (hr : (∃ w back back', KernelLoop.pass (toKern f) E dt fuel w back ps = some ((), back', rs)) ∨
      ∃ w g g', JitLoop.pass (toKern f) E dt fuel w g ps = some ((), g', rs)) :
    List.Forall₂ (fun p r =>
      r.1.vars.1 = p.vars.1 + (primitive a r.1.time - primitive a p.time) ∧
      r.1.vars.2.1 = p.vars.2.1 + (primitive b r.1.time - primitive b p.time) ∧ r.1.vars.2.2 = p.vars.2.2) ps rs := by
  have hk : Keeps (toKern f) (fun t (x : ℚ × ℚ × ℚ) => (x.1 - primitive a t, x.2.1 - primitive b t, x.2.2)) := by
    intro w p c hc hne
    have hf' : (f ⟨p.time, p.dt, p.vars.1, p.vars.2.1, p.vars.2.2⟩).p =
        ⟨p.time, p.dt, p.vars.1 + (primitive a (p.time + p.dt) - primitive a p.time),
          p.vars.2.1 + (primitive b (p.time + p.dt) - primitive b p.time), p.vars.2.2⟩ := by
      rcases hf with rfl | rfl
      · simp only [plain, rk4, timeFlow, cubic, primitive, Pt.mk.injEq, true_and, and_true]
        refine ⟨?_, ?_⟩ <;> ring
      · have hs : rk45Sol (timeFlow (cubic a) (cubic b)) (⟨p.time, p.dt, p.vars.1, p.vars.2.1, p.vars.2.2⟩ : Pt ℚ) =
            .ok (p.vars.1 + (primitive a (p.time + p.dt) - primitive a p.time),
              p.vars.2.1 + (primitive b (p.time + p.dt) - primitive b p.time),
              p.vars.1 + (primitive a (p.time + p.dt) - primitive a p.time),
              p.vars.2.1 + (primitive b (p.time + p.dt) - primitive b p.time)) := by
          simp only [rk45Sol, timeFlow, cubic, primitive, Except.ok.injEq, Prod.mk.injEq]
          refine ⟨?_, ?_, ?_, ?_⟩ <;> ring
        simp only [rk45, hs, sub_self]
        have hz : ∀ x : ℚ, sq (0 : ℚ) + sq 0 ≤ sq |x| := fun x => by simp only [sq, mul_zero, add_zero]; positivity
        rw [if_pos (hz _), if_pos (hz _)]
    simp only [toKern, hf']
    refine Prod.ext ?_ (Prod.ext ?_ rfl) <;> simp only <;> ring
  refine (keeps_either hk hr).imp fun p r h => ?_
  simp only [Prod.mk.injEq] at h
  refine ⟨?_, ?_, h.2.2⟩
  · linarith [h.1]
  · linarith [h.2.1]

/-- An execution of three steps, the last of which is shorter. -/
example : (KernelLoop.pass (toKern (plain (rk4 (timeFlow (cubic ![1, 2, 0, 4]) fun _ => 3)))) 5 2 9 () none
    [⟨0, 2, .evaluate, (0, 0, 0)⟩]).map (fun r => r.2.2.map fun q => (q.1.time, q.1.vars, q.2.length)) =
    some [(5, (655, 15, 0), 3)] := by decide +kernel

/-! ### C49: general flows -/

/-- C49. In any flow, the schemes are Runge-Kutta methods: Euler's, the classical one, and the pair of Fehlberg. -/
theorem C49_methods {K : Type} [Field K] [CharZero K] (f : K → K → K × K → K × K) (p : Pt K) :
    let next (T : Tableau K) := T.step (fun t => f t p.depth) p.time p.dt (p.lon, p.lat)
    ee (total f) p = .ok { p with lon := (next euler).1, lat := (next euler).2 } ∧
    rk4 (total f) p = .ok { p with lon := (next classical).1, lat := (next classical).2 } ∧
    rk45Sol (total f) p = .ok ((next fehlberg4).1, (next fehlberg4).2, (next fehlberg5).1, (next fehlberg5).2) :=
  ⟨ee_eq f p, rk4_eq f p, rk45_eq f p⟩

/-- C49. These methods satisfy the conditions for orders 1, 4, 4 and 5. -/
theorem C49_orders : HasOrder 1 euler ∧ HasOrder 4 classical ∧ HasOrder 4 fehlberg4 ∧ HasOrder 5 fehlberg5 := by
  refine ⟨hasOrder_of _ _ ?_ ?_, hasOrder_of _ _ ?_ ?_, hasOrder_of _ _ ?_ ?_, hasOrder_of _ _ ?_ ?_⟩ <;> decide +kernel

/-- The condition is not empty: no method above has a higher order. -/
example : ¬ HasOrder 2 euler ∧ ¬ HasOrder 5 classical ∧ ¬ HasOrder 5 fehlberg4 ∧ ¬ HasOrder 6 fehlberg5 := by
  have h : ∀ n T, (∃ t ∈ trees n, ¬ Satisfies T t ∧ t.order ≤ n) → ¬ HasOrder n T :=
    fun n T ⟨t, _, h1, h2⟩ h => h1 (h.1 t h2)
  refine ⟨h _ _ ?_, h _ _ ?_, h _ _ ?_, h _ _ ?_⟩ <;> decide +kernel

/-- C49. In a flow that is linear in the position (rotation, shear, strain, ...), RK4 is the Taylor polynomial of order 4 of
the exact solution: with `M x = A x + c`, the step is `x + h M x + h²/2 A M x + h³/6 A² M x + h⁴/24 A³ M x`. -/
theorem C49_linear {K : Type} [Field K] [CharZero K] (a b c d e f : K) (p : Pt K) :
    let A (x : K × K) : K × K := (a * x.1 + b * x.2, c * x.1 + d * x.2)
    let M (x : K × K) : K × K := ((A x).1 + e, (A x).2 + f)
    let x := (p.lon, p.lat)
    let h := p.dt
    rk4 (total fun _ _ => M) p = .ok { p with
      lon := p.lon + h * (M x).1 + h ^ 2 / 2 * (A (M x)).1 + h ^ 3 / 6 * (A (A (M x))).1 + h ^ 4 / 24 * (A (A (A (M x)))).1
      lat := p.lat + h * (M x).2 + h ^ 2 / 2 * (A (M x)).2 + h ^ 3 / 6 * (A (A (M x))).2 + h ^ 4 / 24 * (A (A (A (M x)))).2 } := by
  simp only [rk4, total, Except.ok.injEq, Pt.mk.injEq, true_and, and_true]
  refine ⟨?_, ?_⟩ <;> ring

/-! ### C50 -/

/-- C50. If both solutions exist and their distance is at most 1e-5 |dt|, the particle is moved to the first one, dt is left
as it is, and a doubled dt is asked for exactly if the distance is at most a tenth of that; otherwise the position is left
alone, dt is halved and a repetition is asked for. An exception leaves the particle as it is. -/
theorem C50_accept (uv : Flow ℝ) (p : Pt ℝ) :
    (∀ e, rk45Sol uv p = .error e → rk45 uv p = ⟨p, none, .exc e⟩) ∧
    (∀ x4 y4 x5 y5, rk45Sol uv p = .ok (x4, y4, x5, y5) →
      let dist := Real.sqrt ((x5 - x4) ^ 2 + (y5 - y4) ^ 2)
      (dist ≤ |p.dt| / 100000 → (rk45 uv p).p = { p with lon := x4, lat := y4 } ∧ (rk45 uv p).res = .ret none ∧
        (dist ≤ |p.dt| / 100000 / 10 → (rk45 uv p).nextDt = some (2 * p.dt)) ∧
        (¬ dist ≤ |p.dt| / 100000 / 10 → (rk45 uv p).nextDt = none)) ∧
      (¬ dist ≤ |p.dt| / 100000 → rk45 uv p = ⟨{ p with dt := p.dt / 2 }, none, .ret (some .repeat)⟩)) := by
  refine ⟨fun e h => by simp only [rk45, h], fun x4 y4 x5 y5 h => ?_⟩
  intro dist
  have key : ∀ y : ℝ, dist ≤ |y| ↔ sq (x5 - x4) + sq (y5 - y4) ≤ sq |y| := by
    intro y
    simp only [sq, ← pow_two]
    exact Real.sqrt_le_left (abs_nonneg y)
  have h1 : |p.dt| / 100000 = |p.dt * (1 / 100000)| := by
    rw [abs_mul, abs_of_pos (show (0 : ℝ) < 1 / 100000 by norm_num)]; ring
  have h2 : |p.dt| / 100000 / 10 = |p.dt * (1 / 100000) / 10| := by
    rw [abs_div, ← h1, abs_of_pos (show (0 : ℝ) < 10 by norm_num)]
  rw [h2, h1, key, key]
  refine ⟨fun hd => ?_, fun hd => ?_⟩
  · simp only [rk45, h, if_pos hd]
    refine ⟨?_, ?_, ?_, ?_⟩
    · split <;> rfl
    · split <;> rfl
    · intro hd'; rw [if_pos hd', mul_comm]
    · intro hd'; rw [if_neg hd']
  · simp only [rk45, h, if_neg hd]

/-- C50, in the loop: one turn of either loop with the RK45 kernel. Either the two solutions differ by at most 1e-5 times the
step, and the particle is at the first of them, at the time after the step; or they do not, and the particle is where and
when it was, with half the dt, in state Repeat; or there was an exception, and the particle is where and when it was, with
an error state. -/
theorem C50_loop (uv : Flow ℚ) (E dt : ℚ) (p p' : Particle (ℚ × ℚ × ℚ)) (h : ℚ)
    (hs : (∃ s, p = KernelLoop.LS.p s ∧ h = sgn dt * s.dtPos ∧ s.nextDt = none ∧ p' = (KernelLoop.step (toKern (rk45 uv)) E dt s).1.p) ∨
      (∃ s, p = JitLoop.JS.p s ∧ h = s.dtPos * JitLoop.csgn dt ∧ s.nextDt = none ∧ p' = (JitLoop.step (toKern (rk45 uv)) E dt s).1.p)) :
    (∃ x4 y4 x5 y5, rk45Sol uv ⟨p.time, h, p.vars.1, p.vars.2.1, p.vars.2.2⟩ = .ok (x4, y4, x5, y5) ∧
      (((x5 - x4) ^ 2 + (y5 - y4) ^ 2 ≤ (h / 100000) ^ 2 ∧ p'.vars = (x4, y4, p.vars.2.2) ∧ p'.time = p.time + h ∧
          p'.dt = if (x5 - x4) ^ 2 + (y5 - y4) ^ 2 ≤ (h / 1000000) ^ 2 then 2 * h else h) ∨
       ((h / 100000) ^ 2 < (x5 - x4) ^ 2 + (y5 - y4) ^ 2 ∧ p'.vars = p.vars ∧ p'.time = p.time ∧ p'.dt = h / 2 ∧
          p'.state = .repeat))) ∨
    (∃ e : Exc, rk45Sol uv ⟨p.time, h, p.vars.1, p.vars.2.1, p.vars.2.2⟩ = .error e ∧ p'.vars = p.vars ∧ p'.time = p.time ∧
      p'.state = e.code) := by
  have t1 : ∀ x : ℚ, sq |x * (1 / 100000)| = (x / 100000) ^ 2 := fun x => by rw [sq, ← pow_two, sq_abs]; ring
  have t2 : ∀ x : ℚ, sq |x * (1 / 100000) / 10| = (x / 1000000) ^ 2 := fun x => by rw [sq, ← pow_two, sq_abs]; ring
  have t3 : ∀ x : ℚ, sq x = x ^ 2 := fun x => by rw [sq, pow_two]
  cases hsol : rk45Sol uv ⟨p.time, h, p.vars.1, p.vars.2.1, p.vars.2.2⟩ with
  | error e =>
    right
    refine ⟨e, rfl, ?_⟩
    rcases hs with ⟨s, rfl, rfl, hn, rfl⟩ | ⟨s, rfl, rfl, hn, rfl⟩
    · simp only [KernelLoop.step, toKern, rk45, hsol, KernelLoop.resolve]
      rw [if_neg (by cases e <;> simp [KernelLoop.Exc.code])]
      exact ⟨rfl, rfl, rfl⟩
    · simp only [JitLoop.step, toKern, rk45, hsol, JitLoop.resolve, JitLoop.code]
      rw [if_neg (by cases e <;> simp [KernelLoop.Exc.code])]
      refine ⟨rfl, rfl, ?_⟩
      cases e <;> simp [KernelLoop.Exc.code]
  | ok x =>
    obtain ⟨x4, y4, x5, y5⟩ := x
    left
    refine ⟨x4, y4, x5, y5, rfl, ?_⟩
    by_cases hk : (x5 - x4) ^ 2 + (y5 - y4) ^ 2 ≤ (h / 100000) ^ 2
    · left
      refine ⟨hk, ?_⟩
      have hr : ∃ nd, rk45 uv ⟨p.time, h, p.vars.1, p.vars.2.1, p.vars.2.2⟩ = ⟨⟨p.time, h, x4, y4, p.vars.2.2⟩, nd, .ret none⟩ ∧
          nd.getD h = if (x5 - x4) ^ 2 + (y5 - y4) ^ 2 ≤ (h / 1000000) ^ 2 then 2 * h else h := by
        simp only [rk45, hsol, t1, t2, t3, if_pos hk]
        split
        · exact ⟨_, rfl, by simp [mul_comm]⟩
        · exact ⟨_, rfl, rfl⟩
      obtain ⟨nd, hr, hnd⟩ := hr
      rcases hs with ⟨s, rfl, rfl, hn, rfl⟩ | ⟨s, rfl, rfl, hn, rfl⟩
      · simp only [KernelLoop.step, toKern, hr, KernelLoop.resolve, Option.getD_none, hn]
        simp only [ne_eq, not_true_eq_false, and_false, if_false, JitLoop.isclose_self, Bool.not_eq_true, Bool.true_eq_false, true_or, if_true]
        refine ⟨trivial, trivial, ?_⟩
        rw [← hnd]
        cases nd <;> rfl
      · simp only [JitLoop.step, toKern, hr, JitLoop.resolve, JitLoop.code, Option.getD_none, hn]
        simp only [ne_eq, not_true_eq_false, and_false, if_false, JitLoop.isEqual_self, Bool.not_eq_true, Bool.true_eq_false, true_or, if_true]
        refine ⟨trivial, trivial, ?_⟩
        rw [← hnd]
        cases nd <;> rfl
    · right
      refine ⟨lt_of_not_ge hk, ?_⟩
      have hr : rk45 uv ⟨p.time, h, p.vars.1, p.vars.2.1, p.vars.2.2⟩ =
          ⟨⟨p.time, h / 2, p.vars.1, p.vars.2.1, p.vars.2.2⟩, none, .ret (some .repeat)⟩ := by
        simp only [rk45, hsol, t1, t3, if_neg hk]
      rcases hs with ⟨s, rfl, rfl, hn, rfl⟩ | ⟨s, rfl, rfl, hn, rfl⟩
      · simp only [KernelLoop.step, toKern, hr, KernelLoop.resolve, Option.getD_some]
        simp
      · simp only [JitLoop.step, toKern, hr, JitLoop.resolve, JitLoop.code, Option.getD_some]
        simp

/-- A flow with a jump: velocity 1 up to longitude 0, velocity 0 beyond. -/
def jump : Flow ℚ := fun _ _ _ lon => .ok (if lon ≤ 0 then 1 else 0, 0)

example : (rk45 jump ⟨0, 1, 0, 0, 0⟩) = ⟨⟨0, 1 / 2, 0, 0, 0⟩, none, .ret (some .repeat)⟩ := by decide +kernel
example : (rk45 jump ⟨0, 1, -2, 0, 0⟩) = ⟨⟨0, 1, -1, 0, 0⟩, some 2, .ret none⟩ := by decide +kernel

/-- What the documentation does not say: where no step is within tolerance, dt is halved until it counts as zero, and then the
particle is left behind without any error: `execute` up to time 1 ends normally with the particle at time 0. -/
theorem C50_left_behind_fails :
    (Recovery.execute (toKern (rk45 jump)) (fun _ => none) 1 1 5 40 () [(7, ⟨0, 1, .evaluate, (0, 0, 0)⟩)]).map
      (fun r => (r.ending, r.ps.map fun p => (p.2.time, p.2.state))) = some (.normal, [(0, .evaluate)]) := by decide +kernel

/-! ### C66: diffusion -/

/-- A field with the same value everywhere. -/
def const (c : ℝ) : Scal ℝ := fun _ _ _ _ => .ok c

/-- C66. Without diffusivity both advection-diffusion schemes are Euler's scheme, whatever the random increments. -/
theorem C66_no_diffusion (U V : Scal ℝ) (dres dWx dWy : ℝ) (p : Pt ℝ) (u v : ℝ)
    (hu : U p.time p.depth p.lat p.lon = .ok u) (hv : V p.time p.depth p.lat p.lon = .ok v) :
    diffM1 U V (const 0) (const 0) dres dWx dWy p = .ok { p with lon := p.lon + u * p.dt, lat := p.lat + v * p.dt } ∧
    diffEM U V (const 0) (const 0) dres dWx dWy p = .ok { p with lon := p.lon + u * p.dt, lat := p.lat + v * p.dt } := by
  constructor
  · simp [diffM1, const, hu, hv, bind, Except.bind, pure, Except.pure]
  · simp [diffEM, const, hu, hv, bind, Except.bind, pure, Except.pure]

/-- C66. With uniform diffusivity the two schemes agree: advection by Euler's scheme and then `DiffusionUniformKh` with the same
increments. -/
theorem C66_uniform_diffusion (U V : Scal ℝ) (kx ky dres dWx dWy : ℝ) (p : Pt ℝ) (u v : ℝ)
    (hu : U p.time p.depth p.lat p.lon = .ok u) (hv : V p.time p.depth p.lat p.lon = .ok v) :
    diffM1 U V (const kx) (const ky) dres dWx dWy p = diffEM U V (const kx) (const ky) dres dWx dWy p ∧
    diffEM U V (const kx) (const ky) dres dWx dWy p =
      diffUniform (const kx) (const ky) dWx dWy { p with lon := p.lon + u * p.dt, lat := p.lat + v * p.dt } := by
  constructor
  · simp [diffM1, diffEM, const, hu, hv, bind, Except.bind, pure, Except.pure]
  · simp [diffEM, diffUniform, const, hu, hv, bind, Except.bind, pure, Except.pure]
    constructor <;> ring

/-- The law of the increments: normal with mean 0 and standard deviation √|dt|. -/
noncomputable def wiener (dt : ℝ) : Measure ℝ := gaussianReal 0 (Real.toNNReal |dt|)

theorem mean_quadratic {dt : ℝ} (hdt : 0 ≤ dt) (a b c : ℝ) {m : ℝ} (hm : a + c * dt = m) :
    ∫ w, (a + b * w + c * w ^ 2) ∂wiener dt = m := by
  have hi : MemLp (fun w : ℝ => w) 2 (wiener dt) := by
    exact memLp_id_gaussianReal (μ := 0) (v := Real.toNNReal |dt|) 2
  have h1 : Integrable (fun w : ℝ => w) (wiener dt) := by
    haveI : IsProbabilityMeasure (wiener dt) := by unfold wiener; infer_instance
    exact hi.integrable (by norm_num)
  have h2 : Integrable (fun w : ℝ => w ^ 2) (wiener dt) := hi.integrable_sq
  haveI : IsProbabilityMeasure (wiener dt) := by unfold wiener; infer_instance
  have e1 : ∫ w, w ∂wiener dt = 0 := by unfold wiener; exact integral_id_gaussianReal
  have e2 : ∫ w, w ^ 2 ∂wiener dt = dt := by
    have hv : ProbabilityTheory.variance (fun w : ℝ => w) (wiener dt) = dt := by
      unfold wiener
      rw [variance_fun_id_gaussianReal, Real.coe_toNNReal _ (abs_nonneg _), abs_of_nonneg hdt]
    rw [variance_of_integral_eq_zero measurable_id'.aemeasurable e1] at hv
    exact hv
  have h3 : Integrable (fun w : ℝ => a + b * w) (wiener dt) := (integrable_const a).add (h1.const_mul b)
  rw [integral_add h3 (h2.const_mul c), integral_add (integrable_const a) (h1.const_mul b),
    integral_const_mul, integral_const_mul, e1, e2]
  simp [← hm]

/-- C66. With a diffusivity that is linear in space and dt ≥ 0, the mean displacement of both schemes over the random increments
is velocity plus gradient of the diffusivity, times dt. -/
theorem C66_mean_drift (U V : Scal ℝ) (k0 k1 l0 l1 dres : ℝ) (hd : dres ≠ 0) (p : Pt ℝ) (hdt : 0 ≤ p.dt) (u v : ℝ)
    (hu : U p.time p.depth p.lat p.lon = .ok u) (hv : V p.time p.depth p.lat p.lon = .ok v) (F : ℝ → ℝ → Except Exc (Pt ℝ))
    (hF : F = (fun wx wy => diffM1 U V (fun _ _ _ lon => .ok (k0 + k1 * lon)) (fun _ _ lat _ => .ok (l0 + l1 * lat)) dres wx wy p) ∨
      F = (fun wx wy => diffEM U V (fun _ _ _ lon => .ok (k0 + k1 * lon)) (fun _ _ lat _ => .ok (l0 + l1 * lat)) dres wx wy p)) :
    ∃ q : ℝ → ℝ → Pt ℝ, (∀ wx wy, F wx wy = .ok (q wx wy)) ∧
      (∀ wy, ∫ wx, (q wx wy).lon ∂wiener p.dt = p.lon + (u + k1) * p.dt) ∧
      (∀ wx, ∫ wy, (q wx wy).lat ∂wiener p.dt = p.lat + (v + l1) * p.dt) := by
  have hg : ∀ a b x : ℝ, (a + b * (x + dres) - (a + b * (x - dres))) / (2 * dres) = b := by
    intro a b x
    field_simp
    ring
  rcases hF with rfl | rfl
  · refine ⟨fun wx wy => ⟨p.time, p.dt, p.lon + (u * p.dt + 1 / 2 * k1 * (wx ^ 2 + p.dt) + √(2 * (k0 + k1 * p.lon)) * wx),
      p.lat + (v * p.dt + 1 / 2 * l1 * (wy ^ 2 + p.dt) + √(2 * (l0 + l1 * p.lat)) * wy), p.depth⟩,
      fun wx wy => by simp only [diffM1, hu, hv, hg, bind, Except.bind, pure, Except.pure], fun wy => ?_, fun wx => ?_⟩
    · simp only
      rw [← mean_quadratic hdt (p.lon + u * p.dt + 1 / 2 * k1 * p.dt) (Real.sqrt (2 * (k0 + k1 * p.lon))) (1 / 2 * k1) (m := p.lon + (u + k1) * p.dt) (by ring)]
      exact integral_congr_ae (Filter.Eventually.of_forall fun w => by simp only; ring)
    · simp only
      rw [← mean_quadratic hdt (p.lat + v * p.dt + 1 / 2 * l1 * p.dt) (Real.sqrt (2 * (l0 + l1 * p.lat))) (1 / 2 * l1) (m := p.lat + (v + l1) * p.dt) (by ring)]
      exact integral_congr_ae (Filter.Eventually.of_forall fun w => by simp only; ring)
  · refine ⟨fun wx wy => ⟨p.time, p.dt, p.lon + ((u + k1) * p.dt + √(2 * (k0 + k1 * p.lon)) * wx),
      p.lat + ((v + l1) * p.dt + √(2 * (l0 + l1 * p.lat)) * wy), p.depth⟩,
      fun wx wy => by simp only [diffEM, hu, hv, hg, bind, Except.bind, pure, Except.pure], fun wy => ?_, fun wx => ?_⟩
    · simp only
      rw [← mean_quadratic hdt (p.lon + (u + k1) * p.dt) (Real.sqrt (2 * (k0 + k1 * p.lon))) 0 (m := p.lon + (u + k1) * p.dt) (by ring)]
      exact integral_congr_ae (Filter.Eventually.of_forall fun w => by simp only; ring)
    · simp only
      rw [← mean_quadratic hdt (p.lat + (v + l1) * p.dt) (Real.sqrt (2 * (l0 + l1 * p.lat))) 0 (m := p.lat + (v + l1) * p.dt) (by ring)]
      exact integral_congr_ae (Filter.Eventually.of_forall fun w => by simp only; ring)

/-- A case that meets the hypotheses: position 2, dt 3, velocities 5 and 7, diffusivities 1 + lon and 4. -/
example : ∃ q : ℝ → ℝ → Pt ℝ,
    (∀ wx wy, diffM1 (const 5) (const 7) (fun _ _ _ lon => .ok (1 + 1 * lon)) (fun _ _ lat _ => .ok (4 + 0 * lat)) 1 wx wy ⟨0, 3, 2, 0, 0⟩ =
      .ok (q wx wy)) ∧ ∀ wy, ∫ wx, (q wx wy).lon ∂wiener 3 = 20 := by
  obtain ⟨q, h1, h2, _⟩ := C66_mean_drift (const 5) (const 7) 1 1 4 0 1 one_ne_zero ⟨0, 3, 2, 0, 0⟩ (by norm_num) 5 7 rfl rfl _ (.inl rfl)
  exact ⟨q, h1, fun wy => by rw [h2 wy]; norm_num⟩

/-- Backward in time the schemes differ: the Milstein scheme has no drift from the gradient of the diffusivity, the
Euler-Maruyama scheme has. -/
theorem C66_backward_fails : ∃ (U V Kx Ky : Scal ℝ) (dres : ℝ) (p : Pt ℝ) (q r : ℝ → ℝ → Pt ℝ),
    (∀ wx wy, diffM1 U V Kx Ky dres wx wy p = .ok (q wx wy)) ∧ (∀ wx wy, diffEM U V Kx Ky dres wx wy p = .ok (r wx wy)) ∧
    ∀ wy, ∫ wx, (q wx wy).lon ∂wiener p.dt = 0 ∧ ∫ wx, (r wx wy).lon ∂wiener p.dt = -1 := by
  have e : (0 + 1 * (0 + 1) - (0 + 1 * (0 - 1))) / (2 * 1) = (1 : ℝ) := by norm_num
  refine ⟨const 0, const 0, fun _ _ _ lon => .ok (0 + 1 * lon), const 0, 1, ⟨0, -1, 0, 0, 0⟩,
    fun wx wy => ⟨0, -1, 0 + (0 * -1 + 1 / 2 * 1 * (wx ^ 2 + -1) + √(2 * (0 + 1 * 0)) * wx),
        0 + (0 * -1 + 1 / 2 * ((0 - 0) / (2 * 1)) * (wy ^ 2 + -1) + √(2 * 0) * wy), 0⟩,
    fun wx wy => ⟨0, -1, 0 + ((0 + 1) * -1 + √(2 * (0 + 1 * 0)) * wx), 0 + ((0 + (0 - 0) / (2 * 1)) * -1 + √(2 * 0) * wy), 0⟩,
    fun wx wy => by
    simp only [diffM1, const, e, bind, Except.bind, pure, Except.pure], fun wx wy => by
    simp only [diffEM, const, e, bind, Except.bind, pure, Except.pure], fun wy => ⟨?_, ?_⟩⟩
  · simp only [wiener, abs_neg, abs_one]
    have := mean_quadratic (dt := 1) (by norm_num) (-1 / 2) 0 (1 / 2) (m := 0) (by norm_num)
    rw [wiener, abs_one] at this
    refine Eq.trans ?_ this
    exact integral_congr_ae (Filter.Eventually.of_forall fun w => by simp; ring)
  · simp only [wiener, abs_neg, abs_one]
    have := mean_quadratic (dt := 1) (by norm_num) (-1) 0 0 (m := -1) (by norm_num)
    rw [wiener, abs_one] at this
    refine Eq.trans ?_ this
    exact integral_congr_ae (Filter.Eventually.of_forall fun w => by simp)

end Parcels.Advection
