import Verif.Model.Interp
import Verif.Model.TimeInterp

/-!
Model of `FieldSet.add_constant_field` (parcels/fieldset.py:166-175), and of sampling a field on a rectilinear grid in space and time.
-/

namespace Parcels.ConstField
open Parcels.Search Parcels.Interp Parcels.TimeInterp

/-- What sampling uses of a field on a rectilinear grid. Models: field.py:1080-1104 (what `eval` uses). -/
structure FieldData where
  grid : RGrid
  axis : TAxis
  method : Method
  indexing : Indexing
  data : Nat → Arr

/-- `Field(name, value, lon=0, lat=0, mesh=mesh)`: one node, one level at depth 0, one snapshot at time 0, so that extrapolation in time is
allowed; the default method and indexing. Models: fieldset.py:175, field.py:92-107, 136-137, grid.py:37-40, 326-337. -/
def constantField (value : ℚ) (spherical : Bool) : FieldData where
  grid := { lon := [0], lat := [0], depth := [0], spherical := spherical, zonalPeriodic := false, mom5 := false }
  axis := TAxis.full [0] false true
  method := .linear
  indexing := .nemo
  data := fun _ => { nz := 1, ny := 1, nx := 1, v := fun _ _ _ => value }

/-- `spatial_interpolation`; a RuntimeError is reported as an IndexError. Models: field.py:1033-1046. -/
def spatial (f : FieldData) (x y z : ℚ) (i : Nat) : Except Err ℚ :=
  match sample f.grid f.indexing f.method (f.data i) x y z with
  | .error e => .error e
  | .ok none => .error .index
  | .ok (some v) => .ok v

/-- `Field.eval` without unit conversion. Models: field.py:1080-1104. -/
def eval (f : FieldData) (t z y x : ℚ) : Except SErr ℚ := evalTime f.axis (spatial f x y z) t

/-- Sampling in JIT mode, from the cell, level and snapshot where the particle was. Models: parcels.h:476-588. -/
def cEval (f : FieldData) (fuel : Nat) (t z y x : ℚ) (xi yi zi : Nat) (ti : ℤ) : Option (Except SErr ℚ) :=
  cEvalTime f.axis (fun i => cSample f.grid f.indexing f.method (f.data i) x y z xi yi zi) fuel t ti

end Parcels.ConstField
