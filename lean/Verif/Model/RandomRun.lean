import Verif.Model.WholeRun

/-!
Model of a whole call of `ParticleSet.execute` with a kernel that draws random numbers: Model/WholeRun, with the state of the generator passed on from each
kernel call to the next.

There is one generator per process: the functions of parcels/include/random.h call `srand` and `rand` of the C library, and these are the same for the compiled
kernels and for the library that `parcels.rng` (`ParcelsRandom`) compiles for Python. `W` is the type of its states; what a kernel draws is part of the kernel.

Simplifications: as in Model/WholeRun, except that the world of the kernel is `W`; nothing else draws from the generator during the run; the kernel draws the same numbers
from the same state in both modes; `_next_dt` of the C code is not set when the C code is called (C46).
-/

namespace Parcels.RandomRun

open KernelLoop (Kern)
open Recovery (TP Ending RMap handleAll kept recoveryMap isError)
open Schedule (Args)
open WholeRun (St Run Opts write startTime args)

variable {W V : Type}

/-- One execution of the particle loop, for all particles. Models: the interface of kernel.py:236, 273 (`execute_jit`, `execute_python`). -/
abbrev Pass (W V : Type) := (endtime dt : ℚ) → W → List (TP V) → Option (W × List (TP V))

/-- `execute_python`. Models: kernel.py:273-368. -/
def scipyPass (K : Kern W V) (fuel : Nat) : Pass W V := fun E dt w ps =>
  (Recovery.runPass K E dt fuel w ps).map fun r => (r.1, r.2.1)

/-- `execute_jit`. Models: kernel.py:236-271. -/
def jitPass (K : Kern W V) (fuel : Nat) : Pass W V := fun E dt w ps =>
  (JitExec.runPass K id E dt fuel (w, none) ps).map fun r => (r.1.1, r.2)

/-- The `while n_error > 0` loop. Models: kernel.py:430-465. -/
def rounds (pass : Pass W V) (rm : RMap W V) (E dt : ℚ) : Nat → W → List (TP V) → Option (Ending × W × List (TP V))
  | 0, _, _ => none
  | n + 1, w, ps =>
    if ps.any (fun p => isError p.2) then
      match handleAll rm w ps with
      | .stopped => some (.stopped, w, ps)
      | .raised => some (.raised, w, ps)
      | .done w1 ps1 =>
        match pass E dt w1 (kept ps1) with
        | none => none
        | some (w2, ps2) => rounds pass rm E dt n w2 ps2
    else some (.normal, w, ps)

/-- What `Kernel.execute(pset, endtime, dt, recovery)` does with the generator and the particles. Models: the interface of kernel.py:397. -/
abbrev Exec (W V : Type) := (endtime dt : ℚ) → W → List (TP V) → Option (Ending × W × List (TP V))

/-- `Kernel.execute`. Models: kernel.py:397-465. -/
def kernelExecute (pass : Pass W V) (user : RMap W V) (nRounds : Nat) : Exec W V := fun E dt w ps =>
  match pass E dt w (ps.map fun p => (p.1, { p.2 with state := .evaluate })) with
  | none => none
  | some (w1, ps1) => rounds pass (recoveryMap user) E dt nRounds w1 (kept ps1)

/-- The `while` loop. Models: particlesets/baseparticleset.py:434-478. -/
def loop (a : Args) (exec : Exec W V) : Nat → W → St V → Option (Run V × W)
  | 0, _, _ => none
  | n + 1, w, s =>
    if Schedule.continues a s.sched then
      match Schedule.nextStop a s.sched with
      | .fin t =>
        match exec t a.dt w s.ps with
        | none => none
        | some (.raised, w1, ps) => some (.raised { s with ps := ps }, w1)
        | some (_, w1, ps) =>
          match (bif Schedule.near t (s.sched.next .output) then write a.hasFile { s with ps := ps } t else some { s with ps := ps }) with
          | none => some (.crash { s with ps := ps }, w1)
          | some s2 =>
            if t ≠ a.E ∧ a.hasFieldset = false then some (.crash s2, w1)
            else if a.dt = 0 then some (.done { s2 with sched := Schedule.fire a s.sched t }, w1)
            else loop a exec n w1 { s2 with sched := Schedule.fire a s.sched t }
      | _ => some (.crash s, w)
    else some (.done s, w)

/-- `execute`. Models: particlesets/baseparticleset.py:376-483. -/
def execute (o : Opts) (exec : Exec W V) (fuel : Nat) (w : W) (file : Output.PFile) (ps : List (TP V)) : Option (Run V × W) :=
  match startTime o.dt ps with
  | none => some (.crash ⟨⟨0, fun _ => .pinf, .pinf, 0, [], []⟩, ps, file, []⟩, w)
  | some S =>
    let a := args o S
    let s0 : St V := ⟨Schedule.init a, ps.map fun q => (q.1, { q.2 with dt := a.dt }), file, []⟩
    match write a.hasFile s0 S with
    | none => some (.crash s0, w)
    | some s1 =>
      match loop a exec fuel w s1 with
      | none => none
      | some (.done s2, w2) =>
        match write a.hasFile s2 s2.sched.time with
        | none => some (.crash s2, w2)
        | some s3 => some (.done s3, w2)
      | some r => some r

end Parcels.RandomRun
