import Verif.Model.Base

/-!
Model of the event loop of `ParticleSet.execute`
(parcels/particlesets/baseparticleset.py:377-483). The kernel execution between two interruptions
is not part of this model (see Model/KernelLoop, Model/Recovery); only its end time is recorded.
-/

namespace Parcels.Schedule

/-- Floating point numbers including infinities, as the loop uses them for event times. Models: particlesets/baseparticleset.py:364, 412-427. -/
inductive Ext where
  | ninf
  | fin (q : ℚ)
  | pinf
deriving DecidableEq, Repr

/-- Python's `min` of two event times. Models: particlesets/baseparticleset.py:444. -/
def Ext.min2 : Ext → Ext → Ext
  | .ninf, _ => .ninf
  | _, .ninf => .ninf
  | .pinf, b => b
  | a, .pinf => a
  | .fin a, .fin b => if b < a then .fin b else .fin a

/-- Python's `max` of two event times. Models: particlesets/baseparticleset.py:446. -/
def Ext.max2 : Ext → Ext → Ext
  | .pinf, _ => .pinf
  | _, .pinf => .pinf
  | .ninf, b => b
  | a, .ninf => a
  | .fin a, .fin b => if a < b then .fin b else .fin a

/-- The four periodic event streams of the loop. Models: particlesets/baseparticleset.py:419-425. -/
inductive Stream where
  | release
  | output
  | movie
  | callback
deriving DecidableEq, Repr

/-- Arguments of one call of `execute`, after conversion to seconds. `none` intervals are
`None`/infinite. `hasFile`: an output file was given. `hasFieldset`: the set has a fieldset.
`rs` is `self.repeat_starttime`. `input i t` is what the `i`-th call of
`fieldset.computeTimeChunk(t, dt)` returns (call 0 is the one before the loop).
Models: parcels/particlesets/baseparticleset.py:304-403. -/
structure Args where
  S : ℚ
  E : ℚ
  dt : ℚ
  hasFile : Bool
  outputdt : Option ℚ
  moviedt : Option ℚ
  callbackdt : Option ℚ
  repeatdt : Option ℚ
  rs : ℚ
  hasFieldset : Bool
  input : Nat → ℚ → Ext

/-- `np.min` over intervals, `none` being infinite. Models: particlesets/baseparticleset.py:414-417. -/
def minOpt : Option ℚ → Option ℚ → Option ℚ
  | none, b => b
  | a, none => a
  | some a, some b => some (min a b)

/-- Interval of each stream, `none` being infinite. The output interval is infinite without output
file (line 364). The default callback interval is the smallest of the others (lines 413-417).
`if self.repeatdt` treats 0 as absent.
Models: parcels/particlesets/baseparticleset.py:364-370, 411-417. -/
def interval (a : Args) : Stream → Option ℚ
  | .release => if a.repeatdt = some 0 then none else a.repeatdt
  | .output => if a.hasFile then a.outputdt else none
  | .movie => a.moviedt
  | .callback =>
    match a.callbackdt with
    | some c => some c
    | none => minOpt (minOpt a.moviedt (if a.hasFile then a.outputdt else none)) a.repeatdt

/-- `time + interval if dt > 0 else time - interval`. Models: particlesets/baseparticleset.py:423-425. -/
def firstEvent (dt t : ℚ) : Option ℚ → Ext
  | some i => .fin (if 0 < dt then t + i else t - i)
  | none => if 0 < dt then .pinf else .ninf

/-- Event times before the loop.
Models: parcels/particlesets/baseparticleset.py:418-425. -/
def initNext (a : Args) : Stream → Ext
  | .release =>
    match interval a .release with
    | some r => .fin (a.rs + (⌊|a.S - a.rs| / r⌋ + 1) * r * sgn a.dt)
    | none => if 0 < a.dt then .pinf else .ninf
  | s => firstEvent a.dt a.S (interval a s)

/-- Loop state: current time, next event of each stream, next input time, number of calls of
`computeTimeChunk` so far; ghost logs of the stops (end times passed to the kernel) and of the
events. Models: particlesets/baseparticleset.py:418-426. -/
structure St where
  time : ℚ
  next : Stream → Ext
  nextIn : Ext
  calls : Nat
  stops : List ℚ
  events : List (Stream × ℚ)

/-- State before the loop. `next_input` is `np.inf` without fieldset (line 427).
Models: parcels/particlesets/baseparticleset.py:418-426. -/
def init (a : Args) : St :=
  { time := a.S, next := initNext a,
    nextIn := if a.hasFieldset then a.input 0 a.S else .pinf,
    calls := 1, stops := [], events := [] }

/-- `time = min(...)` / `time = max(...)`.
Models: parcels/particlesets/baseparticleset.py:443-446. -/
def nextStop (a : Args) (s : St) : Ext :=
  let f := if 0 < a.dt then Ext.min2 else Ext.max2
  f (s.next .release) (f s.nextIn (f (s.next .output) (f (s.next .movie)
    (f (s.next .callback) (.fin a.E)))))

/-- `tol = 1e-12`, line 429. -/
def tol : ℚ := 1 / 1000000000000

/-- `abs(time - next) < tol`. Models: particlesets/baseparticleset.py:449, 460, 464, 468. -/
def near (t : ℚ) : Ext → Bool
  | .fin q => decide (|t - q| < tol)
  | _ => false

/-- `next += interval * np.sign(dt)`. Models: particlesets/baseparticleset.py:459, 463, 466, 472. -/
def bump (dt : ℚ) (i : Option ℚ) : Ext → Ext
  | .fin q => match i with
    | some r => .fin (q + r * sgn dt)
    | none => if 0 < dt then .pinf else .ninf
  | e => e

/-- The streams in the order in which the loop treats them. Models: particlesets/baseparticleset.py:449-472. -/
def streams : List Stream := [.release, .output, .movie, .callback]

/-- The body of the loop after the kernel execution.
Models: parcels/particlesets/baseparticleset.py:449-474. -/
def fire (a : Args) (s : St) (t : ℚ) : St :=
  { time := t
    next := fun x => if near t (s.next x) then bump a.dt (interval a x) (s.next x) else s.next x
    nextIn := if t ≠ a.E then a.input s.calls t else s.nextIn
    calls := if t ≠ a.E then s.calls + 1 else s.calls
    stops := s.stops ++ [t]
    events := s.events ++ (streams.filter fun x => near t (s.next x)).map fun x => (x, t) }

/-- How the loop ended. `crash`: the stop time was infinite, or `computeTimeChunk` was called on a
missing fieldset. Models: particlesets/baseparticleset.py:434-478. -/
inductive Run where
  | done (s : St)
  | crash (s : St)

/-- Loop condition. Models: parcels/particlesets/baseparticleset.py:434. -/
def continues (a : Args) (s : St) : Prop :=
  (s.time < a.E ∧ 0 < a.dt) ∨ (s.time > a.E ∧ a.dt < 0) ∨ a.dt = 0

instance (a : Args) (s : St) : Decidable (continues a s) := by unfold continues; infer_instance

/-- The `while` loop with fuel; `none` when the fuel runs out.
Models: parcels/particlesets/baseparticleset.py:434-478. -/
def loop (a : Args) : Nat → St → Option Run
  | 0, _ => none
  | n + 1, s =>
    if continues a s then
      match nextStop a s with
      | .fin t =>
        if t ≠ a.E ∧ a.hasFieldset = false then some (.crash s)
        else
          let s' := fire a s t
          if a.dt = 0 then some (.done s') else loop a n s'
      | _ => some (.crash s)
    else some (.done s)

/-- The whole event loop. Models: particlesets/baseparticleset.py:418-478. -/
def run (a : Args) (fuel : Nat) : Option Run := loop a fuel (init a)

/-- Times at which `output_file.write(self, time)` is called: before the loop, at every output
event, and after the loop.
Models: parcels/particlesets/baseparticleset.py:406-407, 460-462, 480-481. -/
def writes (a : Args) (s : St) : List ℚ :=
  if a.hasFile then
    [a.S] ++ (s.events.filter fun e => e.1 = .output).map (·.2) ++ [s.time]
  else []

/-- Times at which new particles are released. Models: baseparticleset.py:449-459. -/
def releases (s : St) : List ℚ := (s.events.filter fun e => e.1 = .release).map (·.2)

/-- Normalisation of the arguments: when the interval is (nearly) empty or dt or runtime is zero, the
run is a single execution at the start time.
Models: parcels/particlesets/baseparticleset.py:394-401. -/
def normalise (a : Args) (runtimeZero : Bool) : Args :=
  if |a.E - a.S| < 1 / 100000 ∨ a.dt = 0 ∨ runtimeZero = true then { a with dt := 0, E := a.S } else a

end Parcels.Schedule
