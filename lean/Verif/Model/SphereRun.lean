import Verif.Model.GridRun
import Verif.Model.Converters

/-!
Model of kernels that sample gridded fields on spherical meshes: Model/GridRun with the conversion of units, and with the user's kernel that keeps longitudes
in one turn.

Simplifications: as in Model/GridRun; `cosd` stands for the cosine of an angle in degrees, any function on the rational numbers.
-/

namespace Parcels.SphereRun

open GridRun (Fld Hint Prog Body)
open KernelLoop (Exc)
open Converters (Unit')

/-- A field with its converter. Models: field.py:92-204 (`units` at 115-121). -/
structure SFld where
  fld : Fld
  units : Unit'

/-- `to_target`, with divisions in the order of the code. Models: tools/converters.py:129-130, 147-148, 167-168, 185-186, 205-206. -/
def toTarget (cosd : ℚ → ℚ) (c : Unit') (value y : ℚ) : ℚ :=
  match c with
  | .none => value
  | .geographic => value / 1000 / (1852 / 1000) / 60
  | .geographicPolar => value / 1000 / (1852 / 1000) / 60 / cosd y
  | .geographicSquare => value / (1000 * (1852 / 1000) * 60) ^ 2
  | .geographicPolarSquare => value / (1000 * (1852 / 1000) * 60 * cosd y) ^ 2

/-- The value of the C expression of `ccode_to_target`. Models: tools/converters.py:132-133, 153-154, 173-174, 191-192, 211-212. -/
def cToTarget (cosd : ℚ → ℚ) (c : Unit') (y : ℚ) : ℚ :=
  match c with
  | .none => 1
  | .geographic => 1 / (1000 * (1852 / 1000) * 60)
  | .geographicPolar => 1 / (1000 * (1852 / 1000) * 60 * cosd y)
  | .geographicSquare => (1 / (1000 * (1852 / 1000) * 60)) ^ 2
  | .geographicPolarSquare => (1 / (1000 * (1852 / 1000) * 60 * cosd y)) ^ 2

/-- `field[time, depth, lat, lon]` in Scipy mode. Models: field.py:567-571, 1080-1104, 1632-1643. -/
def eval (cosd : ℚ → ℚ) (f : SFld) (t z y x : ℚ) : Except Exc ℚ :=
  match GridRun.eval f.fld t z y x with
  | .ok v => .ok (toTarget cosd f.units v y)
  | .error e => .error e

/-- The same sample in JIT mode. Models: compilation/codegenerator.py:787-820; field.py:1111-1112; parcels.h:476-591, 958-970. -/
def cEval (cosd : ℚ → ℚ) (f : SFld) (t z y x : ℚ) (h : Hint) : Except Exc (ℚ × Hint) :=
  match GridRun.cEval f.fld t z y x h with
  | .ok (v, h') => .ok (v * cToTarget cosd f.units y, h')
  | .error e => .error e

variable {V : Type}

/-- A program in Scipy mode. Models: kernel.py:315-337. -/
def scipy (cosd : ℚ → ℚ) (fs : Nat → SFld) : Prog V → Except Exc V
  | .ret v => .ok v
  | .fail e => .error e
  | .get f t z y x k =>
    match eval cosd (fs f) t z y x with
    | .error e => .error e
    | .ok w => scipy cosd fs (k w)

/-- A program in JIT mode. Models: compilation/codegenerator.py:787-820 (the calls and `CHECKSTATUS`). -/
def jit (cosd : ℚ → ℚ) (fs : Nat → SFld) : Prog V → (Nat → Hint) → Except Exc (V × (Nat → Hint))
  | .ret v, hs => .ok (v, hs)
  | .fail e, _ => .error e
  | .get f t z y x k, hs =>
    match cEval cosd (fs f) t z y x (hs (fs f).fld.igrid) with
    | .error e => .error e
    | .ok (w, h) => jit cosd fs (k w) (Function.update hs (fs f).fld.igrid h)

/-- The kernel in Scipy mode, for whole runs. Models: kernel.py:315-337. -/
def scipyScheme (cosd : ℚ → ℚ) (fs : Nat → SFld) (b : Body V) : (time dt : ℚ) → V → Except Exc V := fun t dt v => scipy cosd fs (b t dt v)

/-- The kernel in JIT mode, for whole runs. Models: compilation/codegenerator.py:1005-1066. -/
def jitScheme (cosd : ℚ → ℚ) (fs : Nat → SFld) (b : Body V) : (time dt : ℚ) → V × (Nat → Hint) → Except Exc (V × (Nat → Hint)) :=
  fun t dt s => jit cosd fs (b t dt s.1) s.2

/-- A program followed by statements that do not sample. Models: kernel.py:467-477 (`merge`: the second kernel is appended to the first). -/
def andThen (g : V → V) : Prog V → Prog V
  | .ret v => .ret (g v)
  | .fail e => .fail e
  | .get f t z y x k => .get f t z y x fun w => andThen g (k w)

/-- The user's kernel that moves particles which left the domain back into it, as in the tutorial on periodic boundaries.
Models: parcels/examples/tutorial_periodic_boundaries.ipynb:98-102 (`periodicBC`). -/
def wrap (west east : ℚ) (p : ℚ × ℚ × ℚ) : ℚ × ℚ × ℚ :=
  if p.1 < west then (p.1 + (east - west), p.2) else if east < p.1 then (p.1 - (east - west), p.2) else p

/-- Advection and then the user's kernel. Models: kernel.py:467-482; parcels/examples/tutorial_periodic_boundaries.ipynb:130. -/
def periodic (west east : ℚ) (b : Body (ℚ × ℚ × ℚ)) : Body (ℚ × ℚ × ℚ) := fun time dt p => andThen (wrap west east) (b time dt p)

end Parcels.SphereRun
