import Verif.Model.CGrid3D
import Verif.Spec.CGrid

/-!
Vocabulary for C73: positions in a cell with moving top and bottom, and the flux of a velocity through a surface.
-/

namespace Parcels.CGrid3D
open Parcels.Curvilinear Parcels.CGrid

variable {K : Type} [Field K] [LinearOrder K]

/-- The point with relative coordinates (xsi, eta, zet): longitude, latitude, depth. -/
def point (c : Cell K) (z : V8 K) (xsi eta zet : K) : V3 K :=
  ⟨bilinX c xsi eta, bilinY c xsi eta,
    (1 - zet) * ((1 - xsi) * (1 - eta) * z.a0 + xsi * (1 - eta) * z.a1 + xsi * eta * z.a2 + (1 - xsi) * eta * z.a3) +
      zet * ((1 - xsi) * (1 - eta) * z.a4 + xsi * (1 - eta) * z.a5 + xsi * eta * z.a6 + (1 - xsi) * eta * z.a7)⟩

def V3.sub (a b : V3 K) : V3 K := ⟨a.x - b.x, a.y - b.y, a.z - b.z⟩
def V3.dot (a b : V3 K) : K := a.x * b.x + a.y * b.y + a.z * b.z
def V3.cross (a b : V3 K) : V3 K := ⟨a.y * b.z - a.z * b.y, a.z * b.x - a.x * b.z, a.x * b.y - a.y * b.x⟩
def V3.norm (sqrt : K → K) (a : V3 K) : K := sqrt (a.dot a)

/-- A displacement, or a velocity, in metres; at latitude `lat`. -/
def metres (m : Metric K) (sph : Bool) (lat : K) (v : V3 K) : V3 K :=
  bif sph then ⟨v.x * (deg2m * m.cos lat), v.y * deg2m, v.z⟩ else v

/-- The displacements, in metres, per unit of each relative coordinate (the map is linear in each of them): to the next column, the next
row and the next level. -/
def toColumn (m : Metric K) (sph : Bool) (c : Cell K) (z : V8 K) (xsi eta zet : K) : V3 K :=
  metres m sph (bilinY c xsi eta) ((point c z 1 eta zet).sub (point c z 0 eta zet))
def toRow (m : Metric K) (sph : Bool) (c : Cell K) (z : V8 K) (xsi eta zet : K) : V3 K :=
  metres m sph (bilinY c xsi eta) ((point c z xsi 1 zet).sub (point c z xsi 0 zet))
def toLevel (m : Metric K) (sph : Bool) (c : Cell K) (z : V8 K) (xsi eta zet : K) : V3 K :=
  metres m sph (bilinY c xsi eta) ((point c z xsi eta 1).sub (point c z xsi eta 0))

/-- Flux of the velocity `v` through the parallelogram with sides `a` and `b`, positive if it goes to the side of `along`. -/
def through (v a b along : V3 K) : K := if 0 < (a.cross b).dot along then v.dot (a.cross b) else -(v.dot (a.cross b))

/-- Towards greater depth. -/
def deeper : V3 K := ⟨0, 0, 1⟩

/-- Both modes give the velocity v at the position (x, y) with relative coordinates (xsi, eta, zet). -/
def BothGive3 (m : Metric K) (sph : Bool) (c : Cell K) (z : V8 K) (xsi eta zet x : K) (f : Faces3 K) (v : V3 K) : Prop :=
  pyVelocity3 m sph c z xsi eta zet x f = some v ∧ cVelocity3 m sph c z xsi eta zet f = v

/-- The thickness of the layer at the relative position (xsi, eta); negative if depths decrease with the level. -/
def thickness (c : Cell K) (z : V8 K) (xsi eta : K) : K := (point c z xsi eta 1).z - (point c z xsi eta 0).z

/-- If the point is on a face, the velocity `v` there has, normal to that face, the velocity `f` of the face: positive to the next column, the
next row, and greater depth. -/
structure Normals (m : Metric K) (sph : Bool) (c : Cell K) (z : V8 K) (f : Faces3 K) (v : V3 K) (xsi eta zet : K) : Prop where
  west : xsi = 0 → through v (toRow m sph c z xsi eta zet) (toLevel m sph c z xsi eta zet) (toColumn m sph c z xsi eta zet) =
    f.u0 * ((toRow m sph c z xsi eta zet).cross (toLevel m sph c z xsi eta zet)).norm m.sqrt
  east : xsi = 1 → through v (toRow m sph c z xsi eta zet) (toLevel m sph c z xsi eta zet) (toColumn m sph c z xsi eta zet) =
    f.u1 * ((toRow m sph c z xsi eta zet).cross (toLevel m sph c z xsi eta zet)).norm m.sqrt
  south : eta = 0 → through v (toLevel m sph c z xsi eta zet) (toColumn m sph c z xsi eta zet) (toRow m sph c z xsi eta zet) =
    f.v0 * ((toLevel m sph c z xsi eta zet).cross (toColumn m sph c z xsi eta zet)).norm m.sqrt
  north : eta = 1 → through v (toLevel m sph c z xsi eta zet) (toColumn m sph c z xsi eta zet) (toRow m sph c z xsi eta zet) =
    f.v1 * ((toLevel m sph c z xsi eta zet).cross (toColumn m sph c z xsi eta zet)).norm m.sqrt
  first : zet = 0 → through v (toColumn m sph c z xsi eta zet) (toRow m sph c z xsi eta zet) deeper =
    f.w0 * ((toColumn m sph c z xsi eta zet).cross (toRow m sph c z xsi eta zet)).norm m.sqrt
  second : zet = 1 → through v (toColumn m sph c z xsi eta zet) (toRow m sph c z xsi eta zet) deeper =
    f.w1 * ((toColumn m sph c z xsi eta zet).cross (toRow m sph c z xsi eta zet)).norm m.sqrt

/-- The cell is less than half a turn wide, in the sense of the mesh. -/
def NarrowCell (sph : Bool) (x : K) (c : Cell K) : Prop := if sph = true then NarrowOnSphere x c else Narrow c

/-- The cell is not folded, and depths increase with the level. -/
def Upright (c : Cell K) (z : V8 K) : Prop :=
  ∀ xsi eta : K, 0 ≤ xsi → xsi ≤ 1 → 0 ≤ eta → eta ≤ 1 → 0 < jacobian c xsi eta ∧ 0 < thickness c z xsi eta

/-- The first and second level are planes over the cell: depth is a linear function of the horizontal position. -/
def Planes (c : Cell K) (z : V8 K) : Prop :=
  ∃ a b d a' b' d' : K, (z.a0 = a * c.x0 + b * c.y0 + d ∧ z.a1 = a * c.x1 + b * c.y1 + d ∧ z.a2 = a * c.x2 + b * c.y2 + d ∧ z.a3 = a * c.x3 + b * c.y3 + d) ∧
    (z.a4 = a' * c.x0 + b' * c.y0 + d' ∧ z.a5 = a' * c.x1 + b' * c.y1 + d' ∧ z.a6 = a' * c.x2 + b' * c.y2 + d' ∧ z.a7 = a' * c.x3 + b' * c.y3 + d')

/-- A square root for all numbers that are not negative. -/
def Roots (sqrt : K → K) : Prop := ∀ a, 0 ≤ a → 0 ≤ sqrt a ∧ sqrt a * sqrt a = a

/-- A box with sides along the axes: lengths, bottom and top. -/
def boxCell (x y a b : K) : Cell K := { x0 := x, x1 := x + a, x2 := x + a, x3 := x, y0 := y, y1 := y, y2 := y + b, y3 := y + b }
def boxDepths (z t : K) : V8 K := ⟨z, z, z, z, z + t, z + t, z + t, z + t⟩

/-- The faces of cell (k, j, i) if element (k, j, i) of U, V and W is on its west, south and first face (MITgcm). -/
def mitgcm3 (U V W : Nat → Nat → Nat → K) (k j i : Nat) : Faces3 K where
  u0 := U k j i
  u1 := U k j (i + 1)
  v0 := V k j i
  v1 := V k (j + 1) i
  w0 := W k j i
  w1 := W (k + 1) j i

end Parcels.CGrid3D
