import Verif.Model.RandomRun

/-!
Model of the error with which a run stops when there is no recovery function: the exceptions that field sampling raises, `particle.exception`, the default recovery
functions and the classes of errors (parcels/tools/statuscodes.py).

Simplifications: texts are kept as the numbers in them. Times are written as numbers: `parse_particletime` shows them as dates if the fieldset has a time origin
(Model/Converters). The other written variables in the text of a particle are left out. Exceptions are stored by the identifier of the particle, not by its row.
-/

namespace Parcels.ErrorReport

open KernelLoop (Exc Kern)
open Recovery (TP isError)

/-- The variables of a particle: identifier, position, and the other ones. Models: parcels/particle.py:175-187. -/
structure Vars (X : Type) where
  id : Nat
  lon : ℚ
  lat : ℚ
  depth : ℚ
  rest : X
deriving DecidableEq

/-- An exception in a kernel: the field was sampled at a point outside it, above its surface, at a time outside it, or something else (with its text).
Models: tools/statuscodes.py:53-96; kernel.py:325-337. -/
inductive Raised where
  | bound (x y z : ℚ)
  | surface (x y z : ℚ)
  | time (t : ℚ)
  | other (text : String)
deriving DecidableEq

/-- Which `except` clause catches the exception. Models: kernel.py:325-337. -/
def Raised.kind : Raised → Exc
  | .bound .. => .outOfBound
  | .surface .. => .outOfBoundSurface
  | .time _ => .timeExtrapolation
  | .other _ => .anyOther

/-- `particle.exception` for all particles. Models: particlesets/collectionsoa.py:164-165. -/
abbrev Exceptions := Nat → Option Raised

/-- One step, without the bookkeeping of errors: it computes the new variables or raises. Models: the interface of kernel.py:315. -/
abbrev Step (X : Type) := (time dt : ℚ) → Vars X → Except Raised (Vars X)

variable {X : Type}

/-- In Scipy mode the exception is kept with the particle. Models: kernel.py:314-337. -/
def scipyKernel (g : Step X) : Kern Exceptions (Vars X) := fun w p =>
  match g p.time p.dt p.vars with
  | .ok v => (w, ⟨{ p with vars := v }, none, .ret none⟩)
  | .error e => (Function.update w p.vars.id (some e), ⟨p, none, .exc e.kind⟩)

/-- In JIT mode the C code returns a status code, and no exception. Models: parcels/include/index_search.h:50-52 (StatusCode); compilation/codegenerator.py:1005-1066. -/
def jitKernel (g : Step X) : Kern Exceptions (Vars X) := fun w p =>
  match g p.time p.dt p.vars with
  | .ok v => (w, ⟨{ p with vars := v }, none, .ret none⟩)
  | .error e => (w, ⟨p, none, .exc e.kind⟩)

/-- The classes of errors. Models: tools/statuscodes.py:99, 124, 139, 154, 169. -/
inductive Class where
  | kernel | interpolation | outOfBounds | throughSurface | outOfTime
deriving DecidableEq

/-- The last line of the message. Models: tools/statuscodes.py:107-108, 120, 128-135, 143-150, 158-165, 173-176. -/
inductive Detail where
  | nothing
  | text (s : String)
  | sampledAt (x y z : ℚ)
  | particleAt (x y z : ℚ)
  | outsideTime (t : ℚ)
deriving DecidableEq

/-- A message. Models: tools/statuscodes.py:99-109 (`KernelError`). -/
structure Message where
  cls : Class
  state : Code
  id : Nat
  lon : ℚ
  lat : ℚ
  depth : ℚ
  time : ℚ
  dt : ℚ
  detail : Detail
deriving DecidableEq

/-- What stops the run: one of the errors of Parcels, or an error of Python while the message is made. Models: tools/statuscodes.py:118-215. -/
inductive Stop where
  | message (m : Message)
  | attributeError
  | typeError
deriving DecidableEq

/-- `KernelError.__init__`. Models: tools/statuscodes.py:102-109; particlesets/collectionsoa.py:953-959 (the text of a particle). -/
def kernelError (cls : Class) (p : KernelLoop.Particle (Vars X)) (d : Detail) : Stop :=
  .message ⟨cls, p.state, p.vars.id, p.vars.lon, p.vars.lat, p.vars.depth, p.time, p.dt, d⟩

/-- `if lon`: neither `None` nor zero. Models: tools/statuscodes.py:128, 143, 158. -/
def truthy : Option ℚ → Bool
  | none => false
  | some x => decide (x ≠ 0)

/-- The errors with a position. Models: tools/statuscodes.py:124-166 (`InterpolationError`, `OutOfBoundsError`, `ThroughSurfaceError`). -/
def positionError (cls : Class) (p : KernelLoop.Particle (Vars X)) (lon lat depth : Option ℚ) : Stop :=
  match lon, lat, depth with
  | some x, some y, none => if truthy (some x) && truthy (some y) then .typeError else kernelError cls p (.particleAt p.vars.lon p.vars.lat p.vars.depth)
  | some x, some y, some z =>
    if truthy (some x) && truthy (some y) then kernelError cls p (.sampledAt x y z) else kernelError cls p (.particleAt p.vars.lon p.vars.lat p.vars.depth)
  | _, _, _ => kernelError cls p (.particleAt p.vars.lon p.vars.lat p.vars.depth)

/-- `error.x, error.y, error.z`. Models: tools/statuscodes.py:56-60, 71-75 (attributes of the exceptions); 82-96 (`TimeExtrapolationError` has none). -/
def Raised.point : Raised → Option (ℚ × ℚ × ℚ)
  | .bound x y z => some (x, y, z)
  | .surface x y z => some (x, y, z)
  | _ => none

/-- The default recovery functions. (Those for interpolation and for out-of-bounds errors pass on `error.x, error.y, error.z`, that for errors at the surface `error.z` only, which
arrives as `lon`.) Models: tools/statuscodes.py:118-121, 180-215. -/
def defaultRecovery (c : Code) (exception : Option Raised) (p : KernelLoop.Particle (Vars X)) : Option Stop :=
  let position := fun cls : Class =>
    match exception with
    | none => positionError cls p none none none
    | some e =>
      match e.point with
      | none => .attributeError
      | some (x, y, z) => if cls = .throughSurface then positionError cls p (some z) none none else positionError cls p (some x) (some y) (some z)
  match c with
  | .error => some (kernelError .kernel p (match exception with
      | none => .nothing
      | some (.other s) => .text s
      | some (.bound x y z) => .sampledAt x y z
      | some (.surface x y z) => .sampledAt x y z
      | some (.time t) => .outsideTime t))
  | .errorInterpolation => some (position .interpolation)
  | .errorOutOfBounds => some (position .outOfBounds)
  | .errorThroughSurface => some (position .throughSurface)
  | .errorTimeExtrapolation => some (kernelError .outOfTime p (.outsideTime p.time))
  | _ => none

/-- What stops the run, without recovery functions of the user: the first particle with an error is handed to the default recovery function, in state `Success`.
Models: kernel.py:430-448. -/
def stop (w : Exceptions) (ps : List (TP (Vars X))) : Option Stop :=
  (ps.find? fun q => decide (isError q.2)).bind fun q => defaultRecovery q.2.state (w q.2.vars.id) { q.2 with state := .success }

end Parcels.ErrorReport
