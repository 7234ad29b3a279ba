import Verif.Model.Curvilinear

/-!
Model of the interpolation of horizontal velocities on Arakawa C-grids, for one cell
(parcels/field.py:1422-1503 and parcels/include/parcels.h:591-681).

Simplifications: exact arithmetic in any ordered field, with square root and cosine as arguments; the relative coordinates
are arguments (they come from the search, Model/Search and Model/Curvilinear); a division by a Jacobian that is zero
(NaN or infinity in the code) gives 0 here, so theorems assume that it is not zero.
-/

namespace Parcels.CGrid

open Parcels.Curvilinear

variable {K : Type} [Field K] [LinearOrder K]

/-- The velocities on the four faces of a cell. Models: field.py:1463-1484 (U0, U1, V0, V1). -/
structure Faces (K : Type) where
  west : K
  east : K
  south : K
  north : K

/-- NEMO indexing. Models: field.py:1464-1468, 1475-1479; parcels.h:639-646. -/
def nemoFaces (U V : Nat → Nat → K) (j i : Nat) : Faces K where
  west := U (j + 1) i
  east := U (j + 1) (i + 1)
  south := V j (i + 1)
  north := V (j + 1) (i + 1)

/-- MITgcm indexing. Models: field.py:1469-1473, 1480-1484; parcels.h:714-715, 727-728. -/
def mitgcmFaces (U V : Nat → Nat → K) (j i : Nat) : Faces K where
  west := U j i
  east := U j (i + 1)
  south := V j i
  north := V (j + 1) i

/-- The cell of JIT mode for MITgcm indexing: `getCell2D` at (yi - 1) for U and at (xi - 1) for V, then the NEMO formula
reads [1][0], [1][1] of the one and [0][1], [1][1] of the other. Models: parcels.h:714-715, 727-728, with 639-646. -/
def cMitgcmFaces (U V : ℤ → ℤ → K) (j i : ℤ) : Faces K :=
  let dU := fun a b : ℤ => U (j - 1 + a) (i + b)
  let dV := fun a b : ℤ => V (j + a) (i - 1 + b)
  { west := dU 1 0, east := dU 1 1, south := dV 0 1, north := dV 1 1 }

/-- Square root, and cosine of an angle in degrees. Models: `math.sqrt` and `math.cos` of field.py:1422-1428; parcels.h:591-603. -/
structure Metric (K : Type) where
  sqrt : K → K
  cos : K → K

/-- Metres per degree of latitude: 1852 * 60. Models: field.py:1425, 1488. -/
def deg2m : K := 111120

/-- Python's `dist`. Models: field.py:1422-1428. -/
def dist (m : Metric K) (sph : Bool) (lon1 lon2 lat1 lat2 lat : K) : K :=
  bif sph then
    m.sqrt (((lon2 - lon1) * deg2m * m.cos lat) * ((lon2 - lon1) * deg2m * m.cos lat) +
      ((lat2 - lat1) * deg2m) * ((lat2 - lat1) * deg2m))
  else m.sqrt ((lon2 - lon1) * (lon2 - lon1) + (lat2 - lat1) * (lat2 - lat1))

/-- `np.dot(phi2D_lin(xsi, eta), py)`. Models: tools/interpolation_utils.py:20-26; interpolation_utils.h:11-17. -/
def dotPhi (xsi eta p0 p1 p2 p3 : K) : K :=
  (1 - xsi) * (1 - eta) * p0 + xsi * (1 - eta) * p1 + xsi * eta * p2 + (1 - xsi) * eta * p3

/-- The Jacobian in relative coordinates. Models: field.py:1430-1439; parcels.h:650-660, 669. -/
def jac (c : Cell K) (xsi eta : K) : K :=
  let dxdxsi := c.x0 * (eta - 1) + c.x1 * (1 - eta) + c.x2 * eta + c.x3 * -eta
  let dxdeta := c.x0 * (xsi - 1) + c.x1 * -xsi + c.x2 * xsi + c.x3 * (1 - xsi)
  let dydxsi := c.y0 * (eta - 1) + c.y1 * (1 - eta) + c.y2 * eta + c.y3 * -eta
  let dydeta := c.y0 * (xsi - 1) + c.y1 * -xsi + c.y2 * xsi + c.y3 * (1 - xsi)
  dxdxsi * dydeta - dxdeta * dydxsi

/-- The velocity in the cell with corners c (already brought to one side of the date line). `lat` is the latitude used
for the metric of the mesh. Models: field.py:1459-1462, 1485-1499; parcels.h:638-678. -/
def velocity (m : Metric K) (sph : Bool) (c : Cell K) (xsi eta lat : K) (f : Faces K) : K × K :=
  let c1 := dist m sph c.x0 c.x1 c.y0 c.y1 (dotPhi xsi 0 c.y0 c.y1 c.y2 c.y3)
  let c2 := dist m sph c.x1 c.x2 c.y1 c.y2 (dotPhi 1 eta c.y0 c.y1 c.y2 c.y3)
  let c3 := dist m sph c.x2 c.x3 c.y2 c.y3 (dotPhi xsi 1 c.y0 c.y1 c.y2 c.y3)
  let c4 := dist m sph c.x3 c.x0 c.y3 c.y0 (dotPhi 0 eta c.y0 c.y1 c.y2 c.y3)
  let U0 := f.west * c4
  let U1 := f.east * c2
  let V0 := f.south * c1
  let V1 := f.north * c3
  let U := (1 - xsi) * U0 + xsi * U1
  let V := (1 - eta) * V0 + eta * V1
  let meshJac := bif sph then deg2m * deg2m * m.cos lat else 1
  let j := jac c xsi eta * meshJac
  (((-(1 - eta) * U - (1 - xsi) * V) * c.x0 + ((1 - eta) * U - xsi * V) * c.x1 +
      (eta * U + xsi * V) * c.x2 + (-eta * U + (1 - xsi) * V) * c.x3) / j,
   ((-(1 - eta) * U - (1 - xsi) * V) * c.y0 + ((1 - eta) * U - xsi * V) * c.y1 +
      (eta * U + xsi * V) * c.y2 + (-eta * U + (1 - xsi) * V) * c.y3) / j)

/-- Scipy mode, at the position (x, y). `none`: the assertion fails. Models: field.py:1441-1503. -/
def pyVelocity (m : Metric K) (sph : Bool) (cell : Cell K) (xsi eta x y : K) (f : Faces K) : Option (K × K) :=
  let c := shift sph x cell
  let xx := dotPhi xsi eta c.x0 c.x1 c.x2 c.x3
  if |xx - x| < 1 / 10000 then some (velocity m sph c xsi eta y f) else none

/-- JIT mode brings the corners within 180 of the first one, whatever the mesh. Models: parcels.h:631-635. -/
def cNear (p0 p : K) : K :=
  let p := if p < p0 - 180 then p + 360 else p
  if p > p0 + 180 then p - 360 else p
/-- All four corners. Models: parcels.h:631-635. -/
def cShift (c : Cell K) : Cell K :=
  { c with x1 := cNear c.x0 c.x1, x2 := cNear c.x0 c.x2, x3 := cNear c.x0 c.x3 }

/-- JIT mode. The latitude for the metric is computed from the relative coordinates. (The order of the two ends in `dist`
and of the factors under its root is that of Python here; the values are equal.) Models: parcels.h:606-681. -/
def cVelocity (m : Metric K) (sph : Bool) (cell : Cell K) (xsi eta : K) (f : Faces K) : K × K :=
  let c := cShift cell
  velocity m sph c xsi eta (dotPhi xsi eta c.y0 c.y1 c.y2 c.y3) f

end Parcels.CGrid
