import Verif.Model.CGrid
import Mathlib.Analysis.SpecialFunctions.Log.Basic
import Mathlib.Analysis.Real.Sqrt

/-!
Model of analytical advection on C-grids (parcels/kernels/advection.py:106-261), for one call.

Simplifications: real arithmetic; the relative coordinates and the velocities on the faces of the cell are arguments (the
cell is the one after lines 130-152), and so is the intermediate time step selected in line 125.
-/

namespace Parcels.Analytical

open Parcels.Curvilinear (Cell near)
open Parcels.CGrid (Faces Metric dist dotPhi jac deg2m)

/-- `tol`. Models: advection.py:115. -/
noncomputable def tol : ℝ := 1 / 10000000000

/-- `r_target`: the face towards which the particle is thought to move. Models: advection.py:203-204. -/
noncomputable def target (direction F0 F1 r : ℝ) : ℝ :=
  if direction * (F0 * (1 - r) + F1 * r) ≥ 0 then 1 else 0

/-- `B`, set to zero if small. Models: advection.py:205, 207. -/
noncomputable def slope (F0 F1 : ℝ) : ℝ := if |F0 - F1| < tol then 0 else F0 - F1

/-- `if abs(ds) < tol: ds = inf`. Models: advection.py:224-225. -/
noncomputable def cut (ds : ℝ) : Option ℝ := if |ds| < tol then none else some ds

/-- `compute_ds`; `none`: TypeError (product of two `None`), `some none`: infinity. Models: advection.py:202-226. -/
noncomputable def computeDs (direction F0 F1 r : ℝ) : Option (Option ℝ) :=
  let rt := target direction F0 F1 r
  let B := slope F0 F1
  let delta := -F0
  if |B| < tol ∧ |delta| < tol then some none
  else if B = 0 then some (cut (-(rt - r) / delta))
  else if tol < |B| then
    if (rt + delta / B) * (r + delta / B) < tol then some none
    else some (cut (-1 / B * Real.log ((rt + delta / B) / (r + delta / B))))
  else none

/-- `compute_rs`. Models: advection.py:244-248. -/
noncomputable def computeRs (F0 F1 r s : ℝ) : ℝ :=
  let B := slope F0 F1
  let delta := -F0
  if |B| < tol then -delta * s + r else (r + delta / B) * Real.exp (-B * s) - delta / B

/-- The corners of the cell. On the sphere the first corner is compared with the longitude of the particle in the west, and
with its latitude in the east (line 163). Models: advection.py:154-165. -/
noncomputable def corners (spherical : Bool) (lon lat : ℝ) (c : Cell ℝ) : Cell ℝ :=
  bif spherical then
    let p0 := if c.x0 < lon - 225 then c.x0 + 360 else c.x0
    let p0 := if p0 > lat + 225 then p0 - 360 else p0
    { c with x0 := p0, x1 := near p0 c.x1, x2 := near p0 c.x2, x3 := near p0 c.x3 }
  else c

/-- The vertical direction, if there is a vertical velocity. Models: kernels/advection.py:166-170, 230-238. -/
structure Vert where
  z0 : ℝ
  z1 : ℝ
  zeta : ℝ
  w0 : ℝ
  w1 : ℝ

/-- The particle after the call. Models: kernels/advection.py:240-261. -/
structure Moved where
  lon : ℝ
  lat : ℝ
  depth : Option ℝ
  dt : ℝ

/-- `min(abs(ds_x), abs(ds_y), abs(ds_z), abs(ds_t / (dxdy * dz)))`. Models: advection.py:241. -/
noncomputable def minTime (ds : List (Option ℝ)) (last : ℝ) : ℝ :=
  ds.foldl (fun s d => match d with | none => s | some d => min s |d|) |last|

/-- The fluxes through the faces, and the area of the cell. Models: advection.py:172-200. -/
structure Fluxes where
  U0 : ℝ
  U1 : ℝ
  V0 : ℝ
  V1 : ℝ
  dxdy : ℝ

/-- The fluxes through the faces, in the direction of time. Models: kernels/advection.py:172-200, 231-235. -/
noncomputable def fluxes (m : Metric ℝ) (sph : Bool) (c : Cell ℝ) (lat direction dz xsi eta : ℝ) (f : Faces ℝ) : Fluxes where
  U0 := direction * f.west * dist m sph c.x3 c.x0 c.y3 c.y0 (dotPhi 0 eta c.y0 c.y1 c.y2 c.y3) * dz
  U1 := direction * f.east * dist m sph c.x1 c.x2 c.y1 c.y2 (dotPhi 1 eta c.y0 c.y1 c.y2 c.y3) * dz
  V0 := direction * f.south * dist m sph c.x0 c.x1 c.y0 c.y1 (dotPhi xsi 0 c.y0 c.y1 c.y2 c.y3) * dz
  V1 := direction * f.north * dist m sph c.x2 c.x3 c.y2 c.y3 (dotPhi xsi 1 c.y0 c.y1 c.y2 c.y3) * dz
  dxdy := jac c xsi eta * (bif sph then deg2m * deg2m * m.cos lat else 1)

/-- The last part: travel times, minimum and new position, given fluxes. `none`: TypeError. Models: advection.py:228-261. -/
noncomputable def travel (c : Cell ℝ) (direction dt dz xsi eta : ℝ) (F : Fluxes) (vert : Option Vert) : Option Moved :=
  match computeDs direction F.U0 F.U1 xsi, computeDs direction F.V0 F.V1 eta with
  | some dx, some dy =>
    match vert with
    | none =>
      let s := minTime [dx, dy] (dt / (F.dxdy * dz))
      let rx := computeRs F.U0 F.U1 xsi s
      let ry := computeRs F.V0 F.V1 eta s
      some { lon := dotPhi rx ry c.x0 c.x1 c.x2 c.x3, lat := dotPhi rx ry c.y0 c.y1 c.y2 c.y3, depth := none,
             dt := direction * s * (F.dxdy * dz) }
    | some v =>
      let W0 := direction * v.w0 * F.dxdy
      let W1 := direction * v.w1 * F.dxdy
      match computeDs direction W0 W1 v.zeta with
      | none => none
      | some dzz =>
        let s := minTime [dx, dy, dzz] (dt / (F.dxdy * dz))
        let rx := computeRs F.U0 F.U1 xsi s
        let ry := computeRs F.V0 F.V1 eta s
        let rz := computeRs W0 W1 v.zeta s
        some { lon := dotPhi rx ry c.x0 c.x1 c.x2 c.x3, lat := dotPhi rx ry c.y0 c.y1 c.y2 c.y3,
               depth := some ((1 - rz) * v.z0 + rz * v.z1), dt := direction * s * (F.dxdy * dz) }
  | _, _ => none

/-- `ds_t`: the time step, not longer than the intermediate time if the fields change. Models: advection.py:121-125. -/
noncomputable def timeLeft (dt : ℝ) : Option ℝ → ℝ
  | none => dt
  | some l => min dt l

/-- One call. `f`: the velocities on the faces, for fields that change in time those interpolated between the two snapshots
(lines 188-191, 197-200, 233-235; the other factors are the same in both terms). Models: advection.py:106-261. -/
noncomputable def advect (m : Metric ℝ) (sph : Bool) (cell : Cell ℝ) (lon lat dt : ℝ) (limit : Option ℝ) (xsi eta : ℝ)
    (f : Faces ℝ) (vert : Option Vert) : Option Moved :=
  let direction : ℝ := if dt > 0 then 1 else -1
  let c := corners sph lon lat cell
  let dz := match vert with | none => 1 | some v => v.z1 - v.z0
  travel c direction (timeLeft dt limit) dz xsi eta (fluxes m sph c lat direction dz xsi eta f) vert

end Parcels.Analytical
