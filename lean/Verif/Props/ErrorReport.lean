import Verif.Proofs.ErrorReport
import Verif.Props.RandomRun

/-!
C104: the error with which a run stops.
-/

namespace Parcels.ErrorReport

open KernelLoop (Particle Exc)
open Recovery (TP RMap)
open RandomRun (kernelExecute scipyPass jitPass stops Loaded)
open WholeRun (St Run Opts Until Regular)

variable {X : Type}

/-- C104, Scipy mode. A run without recovery functions that stops with an error: the message is about the first particle that does not reach the next interruption of the run. It gives the
identifier of this particle, and its position and time before the step that failed; `dt` is the step of the run. The class of the error is that of the exception. The point at which the field was
sampled is given for errors out of bounds with nonzero longitude and latitude. -/
theorem C104_scipy_partial {g : Step X} (hg : ∀ t dt v v', g t dt v = .ok v' → v'.id = v.id) {o : Opts} {S : ℚ} {N : ℕ} {ps : List (TP (Vars X))}
    (h : Regular o S N ps) (hl : Loaded o) (hids : (ps.map fun q => q.2.vars.id).Nodup) (w w' : Exceptions) (n nRounds fuel : ℕ) (file : Output.PFile)
    (s : St (Vars X)) (hr : RandomRun.execute o (kernelExecute (scipyPass (scipyKernel g) n) (fun _ => none) nRounds) fuel w file ps = some (.raised s, w')) :
    ∃ T q t v e, StopsAt g o.dt (stops o S N) ps T q t v e ∧ v.id = q.2.vars.id ∧ stop w' s.ps = some (.message (about t o.dt v e (scipyDetail t v e))) := by
  rw [scipy_kernel] at hr
  obtain ⟨T, q, t, v, e, h1, -, h2, ⟨r, h3, h4⟩, ts, m, j, w1, q', post, rs', k1, k2, k3, k4, k5, k6, -⟩ :=
    raised_facts (scipy_makes g) hg ⟨n, nRounds, Or.inl rfl⟩ h hl hids w w' fuel file s hr
  refine ⟨T, q, t, v, e, h1, h2, ?_⟩
  have hw : w' v.id = some e := by
    rw [swept_other hg v.id k6 k5, ← k3, k1]
    rw [k1] at k4
    exact visit_fail hg (WholeRun.ne_zero_of h.step) w1 q' k2 k4
  rw [stop, h3, Option.bind_some, h4]
  dsimp only
  rw [hw]
  cases e with
  | bound x y z =>
    simp only [Raised.kind, Exc.code, defaultRecovery, Raised.point, positionError, truthy, kernelError, about, classOf, scipyDetail]
    by_cases hx : x = 0 <;> by_cases hy : y = 0 <;> simp [hx, hy]
  | surface x y z => simp [Raised.kind, Exc.code, defaultRecovery, Raised.point, positionError, kernelError, about, classOf, scipyDetail]
  | time t => simp [Raised.kind, Exc.code, defaultRecovery, kernelError, about, classOf, scipyDetail]
  | other s => simp [Raised.kind, Exc.code, defaultRecovery, kernelError, about, classOf, scipyDetail]

/-- C104, JIT mode: the same, without the point at which the field was sampled. -/
theorem C104_jit_partial {g : Step X} (hg : ∀ t dt v v', g t dt v = .ok v' → v'.id = v.id) {o : Opts} {S : ℚ} {N : ℕ} {ps : List (TP (Vars X))}
    (h : Regular o S N ps) (hl : Loaded o) (hids : (ps.map fun q => q.2.vars.id).Nodup) (w w' : Exceptions) (hw : ∀ q ∈ ps, w q.2.vars.id = none) (n nRounds fuel : ℕ)
    (file : Output.PFile) (s : St (Vars X))
    (hr : RandomRun.execute o (kernelExecute (jitPass (jitKernel g) n) (fun _ => none) nRounds) fuel w file ps = some (.raised s, w')) :
    ∃ T q t v e, StopsAt g o.dt (stops o S N) ps T q t v e ∧ v.id = q.2.vars.id ∧ stop w' s.ps = some (.message (about t o.dt v e (jitDetail t v e))) := by
  rw [jit_kernel] at hr
  obtain ⟨T, q, t, v, e, h1, hq, h2, ⟨r, h3, h4⟩, ts, m, j, w1, q', post, rs', k1, k2, k3, k4, k5, k6, qs, rs, k7⟩ :=
    raised_facts (jit_makes g) hg ⟨n, nRounds, Or.inr rfl⟩ h hl hids w w' fuel file s hr
  refine ⟨T, q, t, v, e, h1, h2, ?_⟩
  have hw' : w' v.id = none := by
    rw [swept_jit k7, journey_jit, h2]
    exact hw q hq
  rw [stop, h3, Option.bind_some, h4]
  dsimp only
  rw [hw']
  cases e <;> simp [Raised.kind, Exc.code, defaultRecovery, positionError, kernelError, about, classOf, jitDetail]

/-- C104. If a particle fails on its way to the end of the run, the run does stop with an error: in both modes. -/
theorem C104_stops {g : Step X} {o : Opts} {S : ℚ} {N : ℕ} {ps : List (TP (Vars X))}
    (h : Regular o S N ps) (hl : Loaded o) (hbad : ∃ q ∈ ps, failure g o.dt (S + N * o.dt) q ≠ none) (w : Exceptions) (file : Output.PFile) :
    (∃ s w', RandomRun.execute o (kernelExecute (scipyPass (scipyKernel g) (N + 1)) (fun _ => none) 2) (N + 1) w file ps = some (.raised s, w')) ∧
    (∃ s w', RandomRun.execute o (kernelExecute (jitPass (jitKernel g) (N + 1)) (fun _ => none) 2) (N + 1) w file ps = some (.raised s, w')) := by
  have hu : RandomRun.Raises (fun _ => none : RMap Exceptions (Vars X)) := fun e => by cases e <;> exact ⟨_, rfl, fun _ _ => rfl⟩
  rw [scipy_kernel, jit_kernel]
  have h1 := journey_short (scipy_makes g) h w hbad
  have h2 := journey_short (jit_makes g) h w hbad
  have e1 := (RandomRun.C103_ends (scipyScheme g) (Or.inr hu) h hl w file).1
  have e2 := (RandomRun.C103_ends (jitScheme g) (Or.inr hu) h hl w file).2
  obtain ⟨r1, hr1⟩ := Option.isSome_iff_exists.mp e1
  obtain ⟨r2, hr2⟩ := Option.isSome_iff_exists.mp e2
  obtain ⟨s, w', rfl⟩ := RandomRun.C103_raises ⟨_, _, Or.inl rfl⟩ h hl w hu h1 _ _ _ hr1
  obtain ⟨s', w'', rfl⟩ := RandomRun.C103_raises ⟨_, _, Or.inr rfl⟩ h hl w hu h2 _ _ _ hr2
  exact ⟨⟨s, w', hr1⟩, ⟨s', w'', hr2⟩⟩

/-! ### Cases -/

/-- Particles go east in a field that ends at longitude 3. -/
def exStep : Step Unit := fun _ dt v => if v.lon + dt ≤ 3 then .ok { v with lon := v.lon + dt } else .error (.bound (v.lon + dt) v.lat v.depth)

def exPs (lat : ℚ) : List (TP (Vars Unit)) := [(0, ⟨0, 1, .success, ⟨7, -2, lat, 0, ()⟩⟩), (1, ⟨1, 1, .success, ⟨9, 1, lat, 5, ()⟩⟩)]

def exOpts : Opts := ⟨1, .runtime 6, true, some 2, none, none, fun _ _ => .pinf⟩

theorem exRegular (lat : ℚ) : Regular exOpts 0 6 (exPs lat) := by
  refine ⟨⟨_, List.mem_cons_self, rfl⟩, by norm_num [exOpts], by norm_num [exOpts], by simp [exOpts], ?_, ?_, ?_, ?_, ?_, ?_⟩
  · intro i hi
    simp only [exOpts, Option.some.injEq] at hi
    exact ⟨2, by norm_num, by rw [← hi]; norm_num [exOpts]⟩
  · intro i hi; cases hi
  · intro i hi; cases hi
  · intro i t; show (0 : ℚ) < 1; norm_num
  · intro i t q hq; cases hq
  · intro q hq
    simp only [exPs, List.mem_cons, List.not_mem_nil, or_false] at hq
    rcases hq with rfl | rfl
    · exact ⟨0, by norm_num [exOpts]⟩
    · exact ⟨1, by norm_num [exOpts]⟩

/-- The hypotheses of C104 can be met. -/
example : (∀ t dt v v', exStep t dt v = .ok v' → v'.id = v.id) ∧ Regular exOpts 0 6 (exPs 2) ∧ Loaded exOpts ∧ ((exPs 2).map fun q => q.2.vars.id).Nodup ∧
    ∃ q ∈ exPs 2, failure exStep 1 (0 + 6 * 1) q ≠ none := by
  refine ⟨?_, exRegular 2, fun _ _ _ h => (by cases h), by decide, (1, ⟨1, 1, .success, ⟨9, 1, 2, 5, ()⟩⟩), by simp [exPs], by decide +kernel⟩
  intro t dt v v' h
  unfold exStep at h
  split at h
  · cases h; rfl
  · cases h

/-- A run and the error with which it stops. -/
def exStop (x : Option (Run (Vars Unit) × Exceptions)) : Option Stop :=
  match x with
  | some (.raised s, w) => stop w s.ps
  | _ => none

/-- The run stops on the way to time 4: particle 9 has reached longitude 3 at time 3 and samples the field at longitude 4. -/
theorem exScipy : exStop (RandomRun.execute exOpts (kernelExecute (scipyPass (scipyKernel exStep) 7) (fun _ => none) 2) 7 (fun _ => none) (Output.newFile false false) (exPs 2)) =
    some (.message ⟨.outOfBounds, .success, 9, 3, 2, 5, 3, 1, .sampledAt 4 2 5⟩) := by decide +kernel

theorem exJit : exStop (RandomRun.execute exOpts (kernelExecute (jitPass (jitKernel exStep) 7) (fun _ => none) 2) 7 (fun _ => none) (Output.newFile false false) (exPs 2)) =
    some (.message ⟨.outOfBounds, .success, 9, 3, 2, 5, 3, 1, .particleAt 3 2 5⟩) := by decide +kernel

/-- C104 fails on the equator (and on the meridian): the same run with latitude 0 says nothing about the point at which the field was sampled. -/
theorem C104_equator_fails :
    exStop (RandomRun.execute exOpts (kernelExecute (scipyPass (scipyKernel exStep) 7) (fun _ => none) 2) 7 (fun _ => none) (Output.newFile false false) (exPs 0)) =
      some (.message ⟨.outOfBounds, .success, 9, 3, 0, 5, 3, 1, .particleAt 3 0 5⟩) := by decide +kernel

/-- Particles rise through the surface of the field. -/
def exRise : Step Unit := fun _ dt v => if 0 ≤ v.depth - dt then .ok { v with depth := v.depth - dt } else .error (.surface v.lon v.lat (v.depth - dt))

/-- C104 fails for errors at the surface: the point (1, 2, -1) at which the field was sampled is not in the message. -/
theorem C104_surface_fails :
    exStop (RandomRun.execute exOpts (kernelExecute (scipyPass (scipyKernel exRise) 7) (fun _ => none) 2) 7 (fun _ => none) (Output.newFile false false) ((exPs 2).drop 1)) =
      some (.message ⟨.throughSurface, .success, 9, 1, 2, 0, 6, 1, .particleAt 1 2 0⟩) ∧
    exRise 6 1 ⟨9, 1, 2, 0, ()⟩ = .error (.surface 1 2 (-1)) := by decide +kernel

/-- Particles sample the field half a step ahead, in data that end at time 2. -/
def exLate : Step Unit := fun t dt v => if t + dt / 2 ≤ 2 then .ok { v with lon := v.lon + dt } else .error (.time (t + dt / 2))

/-- C104 fails for errors in time: the field was sampled outside its times at 5/2, and the message says at 2, where there are data. -/
theorem C104_time_fails :
    exStop (RandomRun.execute exOpts (kernelExecute (scipyPass (scipyKernel exLate) 7) (fun _ => none) 2) 7 (fun _ => none) (Output.newFile false false) (exPs 2)) =
      some (.message ⟨.outOfTime, .success, 7, 0, 2, 0, 2, 1, .outsideTime 2⟩) ∧
    exLate 2 1 ⟨7, 0, 2, 0, ()⟩ = .error (.time (5 / 2)) := by decide +kernel

/-- A kernel that samples outside the times of the field at first, and later returns `ErrorOutOfBounds`. -/
def exStale : KernelLoop.Kern Exceptions (Vars Unit) := fun w p =>
  if p.vars.depth = 0 then (Function.update w p.vars.id (some (.time p.time)), ⟨p, none, .exc .timeExtrapolation⟩)
  else if p.time < 3 then (w, ⟨p, none, .ret none⟩)
  else (w, ⟨p, none, .ret (some .errorOutOfBounds)⟩)

/-- The recovery function for the first error moves the particle. -/
def exMove : RMap Exceptions (Vars Unit) := fun c =>
  if c = .errorTimeExtrapolation then some fun w p => (w, some { p with vars := { p.vars with depth := 1 } }) else none

/-- C104 fails after a recovery: exceptions are not forgotten, so that a later error, which a kernel signals by its return value, is reported with the earlier exception. Here the run stops with an
`AttributeError` instead of an `OutOfBoundsError`. -/
theorem C104_stale_fails :
    exStop (RandomRun.execute exOpts (kernelExecute (scipyPass exStale 7) exMove 3) 7 (fun _ => none) (Output.newFile false false) (exPs 2)) = some .attributeError := by
  decide +kernel

/-- A kernel that changes the step of its particle and then raises. -/
def exStepChange : KernelLoop.Kern Exceptions (Vars Unit) := fun w p =>
  (Function.update w p.vars.id (some (.other "no")), ⟨{ p with dt := p.dt / 4 }, none, .exc .anyOther⟩)

/-- C104 fails for the step: what a kernel that raises has assigned to `particle.dt` is kept, and reported. -/
theorem C104_step_fails :
    exStop (RandomRun.execute exOpts (kernelExecute (scipyPass exStepChange 7) (fun _ => none) 2) 7 (fun _ => none) (Output.newFile false false) (exPs 2)) =
      some (.message ⟨.kernel, .success, 7, -2, 2, 0, 0, 1 / 4, .text "no"⟩) := by decide +kernel

end Parcels.ErrorReport
