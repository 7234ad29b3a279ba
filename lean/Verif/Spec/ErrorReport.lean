import Verif.Model.ErrorReport
import Verif.Spec.RandomRun

/-!
Vocabulary for the statements of C104.
-/

namespace Parcels.ErrorReport

open Recovery (TP)

variable {X : Type}

/-- Where the steps of a particle from time `t` fail, if one of the next `n` does: the time and the variables before the step that fails, and what was raised. -/
def failing (g : Step X) (dt : ℚ) : Nat → ℚ → Vars X → Option (ℚ × Vars X × Raised)
  | 0, _, _ => none
  | n + 1, t, v =>
    match g t dt v with
    | .ok v' => failing g dt n (t + dt) v'
    | .error e => some (t, v, e)

/-- Where a particle fails on its way to time `T`, if it does. -/
def failure (g : Step X) (dt T : ℚ) (q : TP (Vars X)) : Option (ℚ × Vars X × Raised) :=
  if 0 < (q.2.time - T) * sgn dt then none else failing g dt ⌊(T - q.2.time) / dt⌋₊ q.2.time q.2.vars

/-- The class of error for what was raised. -/
def classOf : Raised → Class
  | .bound .. => .outOfBounds
  | .surface .. => .throughSurface
  | .time _ => .outOfTime
  | .other _ => .kernel

/-- A message about a particle with variables `v` at time `t`. -/
def about (t dt : ℚ) (v : Vars X) (e : Raised) (d : Detail) : Message := ⟨classOf e, .success, v.id, v.lon, v.lat, v.depth, t, dt, d⟩

/-- What the message says about the error, in Scipy mode. -/
def scipyDetail (t : ℚ) (v : Vars X) : Raised → Detail
  | .bound x y z => if x ≠ 0 ∧ y ≠ 0 then .sampledAt x y z else .particleAt v.lon v.lat v.depth
  | .surface _ _ _ => .particleAt v.lon v.lat v.depth
  | .time _ => .outsideTime t
  | .other s => .text s

/-- What the message says about the error, in JIT mode. -/
def jitDetail (t : ℚ) (v : Vars X) : Raised → Detail
  | .bound _ _ _ => .particleAt v.lon v.lat v.depth
  | .surface _ _ _ => .particleAt v.lon v.lat v.depth
  | .time _ => .outsideTime t
  | .other _ => .nothing

/-- The run stopped on the way to `T`, the first of its stops that not all particles reach. The first particle of the set that does not reach it is `q`; `t`, `v` and `e` are the
time, the variables and the error at its last step. -/
structure StopsAt (g : Step X) (dt : ℚ) (stops : List ℚ) (ps : List (TP (Vars X))) (T : ℚ) (q : TP (Vars X)) (t : ℚ) (v : Vars X) (e : Raised) : Prop where
  stop : ∃ before after, stops = before ++ T :: after ∧ ∀ T' ∈ before, ∀ p ∈ ps, failure g dt T' p = none
  particle : ∃ before after, ps = before ++ q :: after ∧ ∀ p ∈ before, failure g dt T p = none
  fails : failure g dt T q = some (t, v, e)

end Parcels.ErrorReport
