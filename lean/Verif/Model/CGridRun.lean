import Verif.Model.PeriodRun
import Verif.Model.CGrid

/-!
Model of sampling the velocity on a C-grid at a time and a position, in both modes: the search of the time and of the cell (Model/TimeInterp, Model/Search), the velocity in the cell (Model/CGrid) and the interpolation in time.

Simplifications: rectilinear grids with z levels, horizontal velocity; fields loaded at once; exact arithmetic; U and V are on the same grid (the constructor of the vector field requires it).
-/

namespace Parcels.CGridRun

open Search Interp TimeInterp
open CGrid (Faces Metric nemoFaces mitgcmFaces pyVelocity cVelocity)
open Curvilinear (Cell)
open KernelLoop (Exc)
open GridRun (Fld Hint exc)

/-- The corners of the cell that was found. Models: field.py:1445-1447; parcels.h:616-622. -/
def cellOf (g : RGrid) (p : Pos) : Cell ℚ where
  x0 := g.lon.getD p.xi.toNat 0
  x1 := g.lon.getD (p.xi.toNat + 1) 0
  x2 := g.lon.getD (p.xi.toNat + 1) 0
  x3 := g.lon.getD p.xi.toNat 0
  y0 := g.lat.getD p.yi.toNat 0
  y1 := g.lat.getD p.yi.toNat 0
  y2 := g.lat.getD (p.yi.toNat + 1) 0
  y3 := g.lat.getD (p.yi.toNat + 1) 0

/-- The velocities on the faces of the cell; `mit`: MITgcm indexing. (JIT mode reads them through shifted cells, with the same result: `C51_mitgcm_jit`.) Models: field.py:1463-1484; parcels.h:707-729, 739-760. -/
def facesOf (mit : Bool) (g : RGrid) (dU dV : Arr) (p : Pos) : Faces ℚ :=
  let k := if 1 < g.depth.length then p.zi.toNat else 0
  bif mit then mitgcmFaces (dU.v k) (dV.v k) p.yi.toNat p.xi.toNat else nemoFaces (dU.v k) (dV.v k) p.yi.toNat p.xi.toNat

/-- `spatial_c_grid_interpolation2D` on snapshot `i`. A failed assertion is `index` here. `f` is U, `dV` the data of V. Models: field.py:1441-1503. -/
def spatial (m : Metric ℚ) (mit : Bool) (f : Fld) (dV : Nat → Arr) (z y x : ℚ) (i : Nat) : Except Err (ℚ × ℚ) :=
  match searchRect f.grid x y z with
  | .error e => .error e
  | .ok p =>
    match pyVelocity m f.grid.spherical (cellOf f.grid p) p.xsi p.eta x y (facesOf mit f.grid (f.data i) (dV i) p) with
    | some w => .ok w
    | none => .error .index

/-- The same in JIT mode, from the remembered cell. Models: parcels.h:606-681, 705-732, 738-762. -/
def cSpatial (m : Metric ℚ) (mit : Bool) (f : Fld) (dV : Nat → Arr) (z y x : ℚ) (h : Hint) (i : Nat) : Except Err (ℚ × ℚ) :=
  match cSearchRect f.grid x y z h.xi h.yi h.zi with
  | .error e => .error e
  | .ok p => .ok (cVelocity m f.grid.spherical (cellOf f.grid p) p.xsi p.eta (facesOf mit f.grid (f.data i) (dV i) p))

/-- `fieldset.UV[time, depth, lat, lon]` in Scipy mode. Both components are interpolated in time in the same way. Models: field.py:1644-1671. -/
def eval (m : Metric ℚ) (mit per : Bool) (f : Fld) (dV : Nat → Arr) (t z y x : ℚ) : Except Exc (ℚ × ℚ) :=
  match evalTime (TAxis.full f.time per f.extrap) (fun i => (spatial m mit f dV z y x i).map Prod.fst) t,
    evalTime (TAxis.full f.time per f.extrap) (fun i => (spatial m mit f dV z y x i).map Prod.snd) t with
  | .ok u, .ok v => .ok (u, v)
  | .error e, _ => .error (exc e)
  | _, .error e => .error (exc e)

/-- The same in JIT mode. Models: parcels.h:683-765. -/
def cEval (m : Metric ℚ) (mit per : Bool) (f : Fld) (dV : Nat → Arr) (t z y x : ℚ) (h : Hint) : Except Exc (ℚ × ℚ) :=
  match cEvalTime (TAxis.full f.time per f.extrap) (fun i => (cSpatial m mit f dV z y x h i).map Prod.fst) 2 t h.ti,
    cEvalTime (TAxis.full f.time per f.extrap) (fun i => (cSpatial m mit f dV z y x h i).map Prod.snd) 2 t h.ti with
  | some (.ok u), some (.ok v) => .ok (u, v)
  | some (.error e), _ => .error (exc e)
  | _, some (.error e) => .error (exc e)
  | _, _ => .error .anyOther

end Parcels.CGridRun
