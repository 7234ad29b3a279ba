import Verif.Model.WholeRun
import Verif.Spec.Schedule
import Verif.Spec.Advection

/-!
Vocabulary for the statements of C97 and C98.
-/

namespace Parcels.WholeRun

open KernelLoop (Particle Kern Exc)
open Recovery (TP RMap)
open Schedule (After AfterExt)

variable {V : Type}

/-- A scheme: from the time, the step and the variables of a particle it computes its variables one step later, or fails. -/
abbrev Scheme (V : Type) := (time dt : ℚ) → V → Except Exc V

/-- The kernel that runs a scheme: it assigns the new variables, or raises an exception. -/
def kernel (f : Scheme V) : Kern Unit V := fun _ p =>
  ((), match f p.time p.dt p.vars with
    | .ok v => ⟨{ p with vars := v }, none, .ret none⟩
    | .error e => ⟨p, none, .exc e⟩)

/-- The numerical solution: `n` steps of the scheme from time `t`; `none` if one of them fails. -/
def solution (f : Scheme V) (dt : ℚ) : Nat → ℚ → V → Option V
  | 0, _, v => some v
  | n + 1, t, v =>
    match f t dt v with
    | .ok v' => solution f dt n (t + dt) v'
    | .error _ => none

/-- Identifier, time and variables of a particle. -/
def core (q : TP V) : Nat × ℚ × V := (q.1, q.2.time, q.2.vars)

/-- Where a particle is at time `t`: if it starts later, still at its start; else the solution has made as many steps as fit between its start and `t`.
`none` if the solution ends before `t`. -/
def trajectory (f : Scheme V) (dt t : ℚ) (q : TP V) : Option (Nat × ℚ × V) :=
  if 0 < (q.2.time - t) * sgn dt then some (core q)
  else (solution f dt ⌊(t - q.2.time) / dt⌋₊ q.2.time q.2.vars).map fun v => (q.1, t, v)

/-- The record of a particle at time `t`: none before its start, and none after its end. -/
def record (f : Scheme V) (dt t : ℚ) (q : TP V) : Option (Nat × ℚ × V) :=
  if 0 < (q.2.time - t) * sgn dt then none else trajectory f dt t q

/-- The kernel is executed in one of the two modes. -/
def IsMode (K : Kern Unit V) (user : RMap Unit V) (exec : Exec V) : Prop :=
  ∃ fuel nRounds, exec = scipyExec K user fuel nRounds ∨ exec = jitExec K user fuel nRounds

/-- Recovery functions that delete the particle, for all errors of field sampling (`{ErrorCode.ErrorOutOfBounds: DeleteParticle, ...}`). -/
def Deletes (user : RMap Unit V) : Prop :=
  ∀ e : Exc, Recovery.recoveryMap user e.code = some fun w p => (w, some { p with state := .delete })

/-- Recovery functions that raise, as the default ones. -/
def Raises (user : RMap Unit V) : Prop :=
  ∀ e : Exc, ∃ h, Recovery.recoveryMap user e.code = some h ∧ ∀ w p, (h w p).2 = none

/-- `x` is a whole number of steps from `S`. -/
def OnGrid (S dt x : ℚ) : Prop := ∃ z : ℤ, x = S + z * dt

/-- Everything happens after a whole number of steps: the run has `N` steps of length `dt`, and outputs, other interruptions, times of the data and
starts of particles are whole numbers of steps away from the start `S` of the run, where the first particle starts. -/
structure Regular (o : Opts) (S : ℚ) (N : Nat) (ps : List (TP V)) : Prop where
  start : ∃ q ∈ ps, q.2.time = S
  step : 1 / 100000000 < |o.dt|
  length : 1 / 100000 ≤ N * |o.dt|
  end_ : match o.until_ with | .runtime r => r = N * |o.dt| | .endtime e => e = S + N * o.dt
  output : ∀ i, o.outputdt = some i → ∃ k : ℕ, 0 < k ∧ i = k * |o.dt|
  movie : ∀ i, o.moviedt = some i → ∃ k : ℕ, 0 < k ∧ i = k * |o.dt|
  callback : ∀ i, o.callbackdt = some i → ∃ k : ℕ, 0 < k ∧ i = k * |o.dt|
  ahead : ∀ i t, AfterExt o.dt t (o.input i t)
  input : ∀ i t q, o.input i t = .fin q → OnGrid S o.dt q
  starts : ∀ q ∈ ps, ∃ j : ℕ, q.2.time = S + j * o.dt

/-- The times at which there is output: the start, every `outputdt`, and the end. -/
def outputTimes (S dt i : ℚ) (N : Nat) : List ℚ :=
  (List.range (⌊N * |dt| / i⌋₊ + 1)).map (fun k : Nat => S + k * i * sgn dt) ++
    (if ⌊N * |dt| / i⌋₊ * i = N * |dt| then [] else [S + N * dt])

/-- All records of the output file, in the order in which they were stored. -/
def records (s : St V) : List (Nat × ℚ × V) :=
  s.outs.flatMap fun o => o.data.filterMap fun p => p.time.map fun t => (p.id.toNat, t, p.vals)

/-- `n` steps of the classical Runge-Kutta method in the flow `g` at depth `d`, from position `x` at time `t`. -/
def rk4Path (g : ℚ → ℚ → ℚ × ℚ → ℚ × ℚ) (dt d : ℚ) : Nat → ℚ → ℚ × ℚ → ℚ × ℚ
  | 0, _, x => x
  | n + 1, t, x => rk4Path g dt d n (t + dt) (Advection.classical.step (fun s => g s d) t dt x)

/-- The options of the same run with another length. -/
def Opts.lasting (o : Opts) (u : Until) : Opts := { o with until_ := u }

end Parcels.WholeRun
