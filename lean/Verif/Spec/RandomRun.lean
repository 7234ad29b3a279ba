import Verif.Model.RandomRun
import Verif.Spec.WholeRun

/-!
Vocabulary for the statements of C103.
-/

namespace Parcels.RandomRun

open KernelLoop (Kern Exc)
open Recovery (TP RMap)

variable {W V : Type}

/-- A scheme with random numbers: from the state of the generator, the time, the step and the variables of a particle it computes the next state of the
generator, and the variables of the particle one step later, or fails. -/
abbrev Scheme (W V : Type) := W → (time dt : ℚ) → V → W × Except Exc V

/-- The kernel that runs a scheme. -/
def kernel (f : Scheme W V) : Kern W V := fun w p =>
  let r := f w p.time p.dt p.vars
  (r.1, match r.2 with
    | .ok v => ⟨{ p with vars := v }, none, .ret none⟩
    | .error e => ⟨p, none, .exc e⟩)

/-- `n` steps of one particle from time `t`. -/
def walk (f : Scheme W V) (dt : ℚ) : Nat → ℚ → W → V → W × Option V
  | 0, _, w, v => (w, some v)
  | n + 1, t, w, v =>
    match f w t dt v with
    | (w', .ok v') => walk f dt n (t + dt) w' v'
    | (w', .error _) => (w', none)

/-- Where the steps of one particle fail, if they do: the time and the variables before the step that fails, and the error. -/
def fault (f : Scheme W V) (dt : ℚ) : Nat → ℚ → W → V → Option (ℚ × V × Exc)
  | 0, _, _, _ => none
  | n + 1, t, w, v =>
    match f w t dt v with
    | (w', .ok v') => fault f dt n (t + dt) w' v'
    | (_, .error e) => some (t, v, e)

/-- One particle (identifier, time, variables) is taken to time `t`: nothing happens if it starts later, else it makes as many steps as fit. -/
def visit (f : Scheme W V) (dt t : ℚ) (w : W) (c : Nat × ℚ × V) : W × Option (Nat × ℚ × V) :=
  if 0 < (c.2.1 - t) * sgn dt then (w, some c)
  else
    let r := walk f dt ⌊(t - c.2.1) / dt⌋₊ c.2.1 w c.2.2
    (r.1, r.2.map fun v => (c.1, t, v))

/-- All particles are taken to time `t`, one after the other; those that fail are dropped. -/
def sweep (f : Scheme W V) (dt t : ℚ) : W → List (Nat × ℚ × V) → W × List (Nat × ℚ × V)
  | w, [] => (w, [])
  | w, c :: cs =>
    let r := visit f dt t w c
    let rest := sweep f dt t r.1 cs
    (rest.1, r.2.toList ++ rest.2)

/-- All particles are taken from one stop to the next. -/
def journey (f : Scheme W V) (dt : ℚ) : List ℚ → W → List (Nat × ℚ × V) → W × List (Nat × ℚ × V)
  | [], w, cs => (w, cs)
  | t :: ts, w, cs =>
    let r := sweep f dt t w cs
    journey f dt ts r.1 r.2

/-- What is written on the journey: at the stops that are due, the particles that have started. -/
def log (f : Scheme W V) (dt : ℚ) (due : ℚ → Prop) [DecidablePred due] : List ℚ → W → List (Nat × ℚ × V) → List (Nat × ℚ × V)
  | [], _, _ => []
  | t :: ts, w, cs =>
    let r := sweep f dt t w cs
    (if due t then r.2.filter fun c => decide (c.2.1 = t) else []) ++ log f dt due ts r.1 r.2

/-- The intervals after which the run is interrupted: for output, for the movie, for the callback. -/
def intervals (o : WholeRun.Opts) : List ℚ := (if o.hasFile then o.outputdt.toList else []) ++ o.moviedt.toList ++ o.callbackdt.toList

/-- Is the run interrupted after `n` steps? At the end, and after every multiple of one of the intervals. -/
def Stops (o : WholeRun.Opts) (N n : Nat) : Prop := n = N ∨ ∃ i ∈ intervals o, ⌊n * |o.dt| / i⌋₊ * i = n * |o.dt|

instance (o : WholeRun.Opts) (N n : Nat) : Decidable (Stops o N n) := by unfold Stops; infer_instance

/-- The times at which a run of `N` steps from `S` is interrupted, when all data are loaded. -/
def stops (o : WholeRun.Opts) (S : ℚ) (N : Nat) : List ℚ := ((List.range' 1 N).filter fun n => decide (Stops o N n)).map fun n : Nat => S + n * o.dt

/-- No data are loaded during the run. -/
def Loaded (o : WholeRun.Opts) : Prop := ∀ i t q, o.input i t ≠ .fin q

/-- The kernel is executed in one of the two modes. -/
def IsMode (K : Kern W V) (user : RMap W V) (exec : Exec W V) : Prop :=
  ∃ fuel nRounds, exec = kernelExecute (scipyPass K fuel) user nRounds ∨ exec = kernelExecute (jitPass K fuel) user nRounds

/-- Recovery functions that delete the particle, for all errors of field sampling. -/
def Deletes (user : RMap W V) : Prop :=
  ∀ e : Exc, Recovery.recoveryMap user e.code = some fun w p => (w, some { p with state := .delete })

/-- Recovery functions that raise, as the default ones. -/
def Raises (user : RMap W V) : Prop :=
  ∀ e : Exc, ∃ h, Recovery.recoveryMap user e.code = some h ∧ ∀ w p, (h w p).2 = none

end Parcels.RandomRun
