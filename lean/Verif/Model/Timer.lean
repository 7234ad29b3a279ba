import Mathlib.Data.List.Induction
import Mathlib.Data.Rat.Defs
import Mathlib.Algebra.Order.Ring.Unbundled.Rat

/-!
Model of the timers (`parcels.timer.Timer`, parcels/tools/timer.py:11-56): trees of timers that are started and stopped.

Simplifications: the clock is a rational number and never 0 (a start at 0 would count as not started); printing is left out, apart from the shares of the time.
-/

namespace Parcels.Timer

/-- A timer; `parent`: the number of its parent. Models: tools/timer.py:12-21. -/
structure Tm where
  start : Option ℚ
  t : ℚ
  parent : Option Nat
deriving DecidableEq

/-- All timers, in the order of their creation. Models: tools/timer.py:12-21. -/
abbrev State := List Tm

/-- Calls: create a timer (and start it, or not), start, stop. Models: tools/timer.py:12-33. -/
inductive Op where
  | new (parent : Option Nat) (start : Bool)
  | start (i : Nat)
  | stop (i : Nat)
deriving DecidableEq

/-- Does the parent run? Models: tools/timer.py:24-25. -/
def parentRuns (s : State) (x : Tm) : Bool :=
  match x.parent with
  | none => true
  | some p => match s[p]? with
    | some y => y.start.isSome
    | none => false

/-- `start`; `false`: an error (the parent does not run, or the timer runs). Models: tools/timer.py:23-28. -/
def startAt (s : State) (now : ℚ) (i : Nat) : State × Bool :=
  match s[i]? with
  | none => (s, false)
  | some x => if parentRuns s x && x.start.isNone then (s.set i { x with start := some now }, true) else (s, false)

/-- `stop`; `false`: an error (the timer does not run). Models: tools/timer.py:30-33. -/
def stopAt (s : State) (now : ℚ) (i : Nat) : State × Bool :=
  match s[i]? with
  | none => (s, false)
  | some x => match x.start with
    | some a => (s.set i { x with t := x.t + (now - a), start := none }, true)
    | none => (s, false)

/-- One call at time `now`. A timer that cannot be started is created all the same. Models: tools/timer.py:12-33. -/
def step (s : State) (now : ℚ) : Op → State × Bool
  | .new none b => if b then startAt (s ++ [⟨none, 0, none⟩]) now s.length else (s ++ [⟨none, 0, none⟩], true)
  | .new (some p) b =>
    if p < s.length then if b then startAt (s ++ [⟨none, 0, some p⟩]) now s.length else (s ++ [⟨none, 0, some p⟩], true)
    else (s, false)
  | .start i => startAt s now i
  | .stop i => stopAt s now i

/-- The timers after calls, each with its time. Models: tools/timer.py:12-33. -/
def run (h : List (ℚ × Op)) : State := h.foldl (fun s p => (step s p.1 p.2).1) []

/-- `local_time`. Models: tools/timer.py:41-42. -/
def localTime (x : Tm) (now : ℚ) : ℚ :=
  match x.start with
  | some a => x.t + now - a
  | none => x.t

end Parcels.Timer
