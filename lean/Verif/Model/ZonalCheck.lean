import Verif.Model.Search

/-!
Model of how a grid is recognised as going round the globe: `Grid.check_zonal_periodic`, called for every grid when a FieldSet is completed.

Simplification: longitudes are rational numbers; in the code they are float32.
-/

namespace Parcels.ZonalCheck

/-- `np.where(dx < -180, dx+360, dx)` and then `np.where(dx > 180, dx-360, dx)`, for one difference. Models: grid.py:164-165. -/
def fold (d : ℚ) : ℚ :=
  let d := if d < -180 then d + 360 else d
  if 180 < d then d - 360 else d

/-- `lon[1:] - lon[:-1]`. Models: grid.py:163. -/
def diffs : List ℚ → List ℚ
  | a :: b :: l => (b - a) :: diffs (b :: l)
  | _ => []

/-- The longitudes of a grid: an axis, or a matrix by rows. Models: grid.py:163 (`lon.shape`). -/
inductive Lon where
  | axis (l : List ℚ)
  | rows (l : List (List ℚ))

/-- `lon.size`. Models: grid.py:161. -/
def Lon.size : Lon → Nat
  | .axis l => l.length
  | .rows l => (l.map List.length).sum

/-- The longitudes that are looked at: the axis, or the first row. Models: grid.py:163. -/
def Lon.first : Lon → List ℚ
  | .axis l => l
  | .rows l => l.headD []

/-- `Grid.check_zonal_periodic`: the new value of `zonal_periodic`. Models: grid.py:160-166. -/
def check (zonalPeriodic flat : Bool) (lon : Lon) : Bool :=
  if zonalPeriodic || flat || lon.size == 1 then zonalPeriodic
  else decide ((3599 : ℚ) / 10 < ((diffs lon.first).map fold).sum)

/-- A rectilinear grid after the FieldSet is completed. Models: fieldset.py:228-229. -/
def complete (g : Search.RGrid) : Search.RGrid := { g with zonalPeriodic := check g.zonalPeriodic (!g.spherical) (.axis g.lon) }

end Parcels.ZonalCheck
