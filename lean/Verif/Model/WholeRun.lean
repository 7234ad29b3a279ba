import Verif.Model.Schedule
import Verif.Model.Recovery
import Verif.Model.JitExec
import Verif.Model.Output

/-!
Model of a whole call of `ParticleSet.execute` (parcels/particlesets/baseparticleset.py:304-483), put together from the models of its parts: the event
loop (Model/Schedule), the execution of the kernel between two stops (Model/Recovery in Scipy mode, Model/JitExec in JIT mode) and the output file
(Model/Output).

Simplifications: no repeated release (`repeatdt=None`; see C11 and C59); the set has a fieldset; the release times of all particles are given (no NaN);
movies and callbacks only interrupt the loop; the final records of deleted particles (C20) are not written; the kernel reads and writes its particle and
reads fields that do not change (the world of the kernel is `Unit`); `_next_dt` of the C code is not set when the C code is called (C46).
-/

namespace Parcels.WholeRun

open KernelLoop (Particle Kern)
open Recovery (TP Ending RMap)
open Schedule (Ext Args)

variable {V : Type}

/-- What `Kernel.execute(pset, endtime, dt, recovery)` does with the particles. Models: kernel.py:397-465 (the interface used at
particlesets/baseparticleset.py:447-448). -/
abbrev Exec (V : Type) := (endtime dt : ℚ) → List (TP V) → Option (Ending × List (TP V))

/-- `Kernel.execute` in Scipy mode. Models: kernel.py:397-465. -/
def scipyExec (K : Kern Unit V) (user : RMap Unit V) (fuel nRounds : Nat) : Exec V := fun E dt ps =>
  (Recovery.execute K user E dt fuel nRounds () ps).map fun r => (r.ending, r.ps)

/-- `Kernel.execute` in JIT mode. Models: kernel.py:397-465. -/
def jitExec (K : Kern Unit V) (user : RMap Unit V) (fuel nRounds : Nat) : Exec V := fun E dt ps =>
  (JitExec.execute K id id user E dt fuel nRounds ((), none) ps).map fun r => (r.1, r.2.1)

/-- What the output file reads of a particle. Models: particlesets/collectionsoa.py:36-52, 841-866. -/
def view (q : TP V) : Output.P V :=
  { id := q.1, time := some q.2.time, dt := q.2.dt, deleted := decide (q.2.state = .delete), vals := q.2.vars }

/-- State of a run: the event loop, the particles, the output file and what was stored in it. Models: the local variables of
particlesets/baseparticleset.py:403-483. -/
structure St (V : Type) where
  sched : Schedule.St
  ps : List (TP V)
  file : Output.PFile
  outs : List (Output.Out V)

/-- `if output_file: output_file.write(self, time)`; `none`: IndexError (C63). Models: particlesets/baseparticleset.py:406-407, 461-462, 480-481. -/
def write (hasFile : Bool) (s : St V) (t : ℚ) : Option (St V) :=
  bif hasFile then
    match Output.toDict s.file (s.ps.map view) t .regular with
    | none => none
    | some r => some { s with file := r.1, outs := s.outs ++ [⟨t, r.2.1, r.2.2⟩] }
  else some s

/-- How `execute` ended: it returned, a recovery function raised, or it failed otherwise. Models: particlesets/baseparticleset.py:434-483. -/
inductive Run (V : Type) where
  | done (s : St V)
  | raised (s : St V)
  | crash (s : St V)

/-- The `while` loop. Models: particlesets/baseparticleset.py:434-478. -/
def loop (a : Args) (exec : Exec V) : Nat → St V → Option (Run V)
  | 0, _ => none
  | n + 1, s =>
    if Schedule.continues a s.sched then
      match Schedule.nextStop a s.sched with
      | .fin t =>
        match exec t a.dt s.ps with
        | none => none
        | some (.raised, ps) => some (.raised { s with ps := ps })
        | some (_, ps) =>
          match (bif Schedule.near t (s.sched.next .output) then write a.hasFile { s with ps := ps } t else some { s with ps := ps }) with
          | none => some (.crash { s with ps := ps })
          | some s2 =>
            if t ≠ a.E ∧ a.hasFieldset = false then some (.crash s2)
            else if a.dt = 0 then some (.done { s2 with sched := Schedule.fire a s.sched t })
            else loop a exec n { s2 with sched := Schedule.fire a s.sched t }
      | _ => some (.crash s)
    else some (.done s)

/-- The arguments `runtime` or `endtime`. Models: particlesets/baseparticleset.py:376-392. -/
inductive Until where
  | runtime (r : ℚ)
  | endtime (e : ℚ)

/-- The other arguments of `execute` that matter here; `input` as in Model/Schedule. Models: particlesets/baseparticleset.py:304-374. -/
structure Opts where
  dt : ℚ
  until_ : Until
  hasFile : Bool
  outputdt : Option ℚ
  moviedt : Option ℚ
  callbackdt : Option ℚ
  input : Nat → ℚ → Ext

/-- The time of the first (or, backward in time, last) particle. Models: particlesets/particlesetsoa.py:176; particlesets/baseparticleset.py:385. -/
def startTime (dt : ℚ) : List (TP V) → Option ℚ
  | [] => none
  | q :: qs => some (if 0 ≤ dt then qs.foldl (fun m r => min m r.2.time) q.2.time else qs.foldl (fun m r => max m r.2.time) q.2.time)

/-- Is the run of zero length by its `runtime`? Models: particlesets/baseparticleset.py:395. -/
def Until.zero : Until → Bool
  | .runtime r => decide (r = 0)
  | .endtime _ => false

/-- The arguments of the event loop. Models: particlesets/baseparticleset.py:385-401. -/
def args (o : Opts) (S : ℚ) : Args :=
  Schedule.normalise
    { S := S, E := match o.until_ with | .runtime r => S + r * sgn o.dt | .endtime e => e
      dt := o.dt, hasFile := o.hasFile, outputdt := o.outputdt, moviedt := o.moviedt, callbackdt := o.callbackdt, repeatdt := none, rs := S
      hasFieldset := true, input := o.input } o.until_.zero

/-- `execute`; `none` is a run that does not end within the fuel. An empty set has no smallest time: ValueError.
Models: particlesets/baseparticleset.py:376-483. -/
def execute (o : Opts) (exec : Exec V) (fuel : Nat) (file : Output.PFile) (ps : List (TP V)) : Option (Run V) :=
  match startTime o.dt ps with
  | none => some (.crash ⟨⟨0, fun _ => .pinf, .pinf, 0, [], []⟩, ps, file, []⟩)
  | some S =>
    let a := args o S
    let s0 : St V := ⟨Schedule.init a, ps.map fun q => (q.1, { q.2 with dt := a.dt }), file, []⟩
    match write a.hasFile s0 S with
    | none => some (.crash s0)
    | some s1 =>
      match loop a exec fuel s1 with
      | none => none
      | some (.done s2) =>
        match write a.hasFile s2 s2.sched.time with
        | none => some (.crash s2)
        | some s3 => some (.done s3)
      | some r => some r

end Parcels.WholeRun
