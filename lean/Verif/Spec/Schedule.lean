import Verif.Model.Schedule

/-!
Vocabulary for the statements of C09-C12.
-/

namespace Parcels.Schedule

/-- `t` is at or after `s` in the direction of `dt`. -/
def NotBefore (dt s t : ℚ) : Prop := 0 ≤ (t - s) * sgn dt

/-- `t` is after `s` in the direction of `dt`. -/
def After (dt s t : ℚ) : Prop := 0 < (t - s) * sgn dt

/-- An event time (possibly infinite) is after `s` in the direction of `dt`. -/
def AfterExt (dt s : ℚ) : Ext → Prop
  | .fin t => After dt s t
  | .pinf => 0 < dt
  | .ninf => dt < 0

/-- Ordinary arguments: a non-zero time step, end not before start, a fieldset whose next input time
is always ahead of the current time, and positive intervals. -/
structure Ordinary (a : Args) : Prop where
  dt : a.dt ≠ 0
  ahead : NotBefore a.dt a.S a.E
  fieldset : a.hasFieldset = true
  input : ∀ i t, AfterExt a.dt t (a.input i t)
  output : ∀ o, a.outputdt = some o → 0 < o
  movie : ∀ o, a.moviedt = some o → 0 < o
  callback : ∀ o, a.callbackdt = some o → 0 < o
  release : ∀ o, a.repeatdt = some o → 0 < o

/-- All times of the run are multiples of a unit `u` that is at least the loop's tolerance
(for instance whole seconds). -/
structure OnUnit (a : Args) (u : ℚ) : Prop where
  unit : tol ≤ u
  S : ∃ z : ℤ, a.S = z * u
  E : ∃ z : ℤ, a.E = z * u
  rs : ∃ z : ℤ, a.rs = z * u
  output : ∀ o, a.outputdt = some o → ∃ z : ℤ, o = z * u
  movie : ∀ o, a.moviedt = some o → ∃ z : ℤ, o = z * u
  callback : ∀ o, a.callbackdt = some o → ∃ z : ℤ, o = z * u
  release : ∀ o, a.repeatdt = some o → ∃ z : ℤ, o = z * u
  input : ∀ i t q, a.input i t = .fin q → ∃ z : ℤ, q = z * u

/-- The times of the events of one stream, in order. -/
def timesOf (x : Stream) (s : St) : List ℚ := (s.events.filter fun e => e.1 = x).map (·.2)

end Parcels.Schedule
