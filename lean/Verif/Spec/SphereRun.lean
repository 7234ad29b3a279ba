import Verif.Model.SphereRun
import Verif.Spec.GridRun
import Verif.Spec.Sphere

/-!
Vocabulary for C101: the interpolated value of a field on the sphere, in degrees, and runs that follow it.
-/

namespace Parcels.SphereRun

open Search Interp
open GridRun (Fld Hint Prog Body TimeValue)
open KernelLoop (Exc)
open Converters (Unit')

/-- Metres to degrees: a degree of latitude has 60 nautical miles of 1852 metres, a degree of longitude `cosd y` times that at latitude `y`; squares for diffusivities. -/
def degrees (cosd : ℚ → ℚ) (c : Unit') (y v : ℚ) : ℚ :=
  match c with
  | .none => v
  | .geographic => v / (60 * 1852)
  | .geographicPolar => v / (60 * 1852 * cosd y)
  | .geographicSquare => v / (60 * 1852) ^ 2
  | .geographicPolarSquare => v / (60 * 1852 * cosd y) ^ 2

/-- `w` is the bilinear (trilinear) interpolation of the data at the position, in a cell that contains it, with longitudes modulo 360. -/
def SpaceValue (g : RGrid) (d : Arr) (z y x w : ℚ) : Prop :=
  ∃ n m : Nat, ∃ r s : ℚ, LocatesMod360 g.lon x n r ∧ Locates g.lat y m s ∧
    (g.depth.length ≤ 1 → w = bilinearAt d 0 m n s r) ∧
    (2 ≤ g.depth.length → ∃ k : Nat, ∃ q : ℚ, Locates g.depth z k q ∧ w = trilinearAt d k m n q s r)

/-- `w` is the value of the field at time `t`, depth `z`, latitude `y` and longitude `x`, in degrees. -/
def FieldValue (cosd : ℚ → ℚ) (f : SFld) (t z y x w : ℚ) : Prop :=
  ∃ v : Nat → ℚ, ∃ u : ℚ, (∀ i, i < f.fld.time.length → SpaceValue f.fld.grid (f.fld.data i) z y x (v i)) ∧
    TimeValue f.fld.time f.fld.extrap t v u ∧ w = degrees cosd f.units y u

/-- The data go round the globe: the axis is shorter than one turn, or nodes that are one turn apart have the same data (a closed axis, or a halo). -/
def Cyclic (U : List ℚ) (d : Arr) : Prop :=
  U.getLastD 0 - U.headD 0 < 360 ∨
  ∃ n : Nat, 0 < n ∧ n < U.length ∧ ∀ i a b, U[i]? = some a → U[i + n]? = some b → b = a + 360 ∧ ∀ k j, d.v k j i = d.v k j (i + n)

/-- A field on the sphere. `U` is the axis of longitudes without the jump at the date line; it has at most one turn, or no jump and at most 450 degrees
(a turn and its halo). -/
structure Sound (f : Fld) (U : List ℚ) : Prop where
  sphere : SphereGrid f.grid U
  narrow : ∀ (n : Nat) (a b : ℚ), U[n]? = some a → U[n + 1]? = some b → b - a < 135
  number : f.grid.lon.length ≤ 5000
  span : U.getLastD 0 - U.headD 0 ≤ 360 ∨ (f.grid.lon = U ∧ U.getLastD 0 - U.headD 0 ≤ 450)
  mom5 : f.grid.mom5 = false
  depth : f.grid.depth.length ≤ 1 ∨ Increasing f.grid.depth
  timeInc : Increasing f.time
  timeLen : 1 ≤ f.time.length
  fits : ∀ i, Fits (f.data i) f.grid
  cyclic : ∀ i, Cyclic U (f.data i)

/-- The longitudes at which both modes look for a cell: those that pass the range check (grids recognised as going round the globe have none) and are on the
axis, as they are or, west of an axis of at most one turn, with 360 added. -/
def Places (g : RGrid) (U : List ℚ) (x : ℚ) : Prop :=
  Accepted g x ∧ (OnAxis U x 0 ∨ (U.getLastD 0 - U.headD 0 ≤ 360 ∧ x < U.headD 0 ∧ OnAxis U x 1))

/-- A grid that is not recognised as going round the globe, of at most one turn. -/
def Regional (g : RGrid) (U : List ℚ) : Prop := g.zonalPeriodic = false ∧ U.getLastD 0 - U.headD 0 ≤ 360

/-- Fields with the same number of the grid are on the same grid, with the same times. -/
def Grids (fs : Nat → SFld) : Prop := GridRun.Grids fun i => (fs i).fld

/-- Remembered cells that are cells of the grids. -/
def Hints (fs : Nat → SFld) (hs : Nat → Hint) : Prop := GridRun.Hints (fun i => (fs i).fld) hs

/-- `val` gives the values of the fields, at the longitudes where both modes look. -/
def Interpolates (cosd : ℚ → ℚ) (fs : Nat → SFld) (U : Nat → List ℚ) (val : Nat → (t z y x : ℚ) → Option ℚ) : Prop :=
  ∀ i t z y x w, val i t z y x = some w ↔ Places (fs i).fld.grid (U i) x ∧ FieldValue cosd (fs i) t z y x w

/-- `val` gives the values of the fields at all longitudes, modulo 360. -/
def Everywhere (cosd : ℚ → ℚ) (fs : Nat → SFld) (val : Nat → (t z y x : ℚ) → Option ℚ) : Prop :=
  ∀ i t z y x w, val i t z y x = some w ↔ FieldValue cosd (fs i) t z y x w

/-- The same longitude up to full turns. -/
def SameMeridian (x x' : ℚ) : Prop := ∃ q : ℤ, x' = x + 360 * q

/-- The fields 0 and 1 are on axes without jump from `lo` or further west to `hi` or further east. -/
def Spans (fs : Nat → SFld) (U : Nat → List ℚ) (lo hi : ℚ) : Prop :=
  ∀ i, i = 0 ∨ i = 1 → (fs i).fld.grid.lon = U i ∧ (U i).headD 0 ≤ lo ∧ hi ≤ (U i).getLastD 0

/-- The same place (longitude, latitude, depth) up to full turns, the second one with a longitude from `west` to `west + 360`. -/
def Same (west : ℚ) (p q : ℚ × ℚ × ℚ) : Prop := SameMeridian p.1 q.1 ∧ q.2 = p.2 ∧ west ≤ q.1 ∧ q.1 ≤ west + 360

/-- Identifier and time are the same, and so is the place up to full turns. -/
def SameCore (west : ℚ) (c c' : Nat × ℚ × ℚ × ℚ × ℚ) : Prop := c'.1 = c.1 ∧ c'.2.1 = c.2.1 ∧ Same west c.2.2 c'.2.2

end Parcels.SphereRun
