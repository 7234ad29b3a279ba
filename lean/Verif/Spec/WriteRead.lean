import Verif.Spec.Load
import Verif.Spec.Search

/-!
Vocabulary for C70: what it means that a field is the same after it was written and read.
-/

namespace Parcels.Load
open Parcels.Search

/-- The request of `FieldSet.from_parcels`: everything. -/
def readBack : Request := ⟨none, none, none, true, false, false⟩

/-- A grid as `create_grid` leaves it: vectors or matrices, and vectors of latitudes do not run from north to south. -/
structure Valid (g : Grid) : Prop where
  shape : (∃ X Y, g.lon.shape = [X] ∧ g.lat.shape = [Y] ∧ (1 < Y → g.lat.get [0] ≤ g.lat.get [Y - 1])) ∨
    (∃ X Y, g.lon.shape = [Y, X] ∧ g.lat.shape = [Y, X])
  dims : 1 ≤ g.xdim ∧ 1 ≤ g.ydim ∧ 1 ≤ g.depth.length ∧ 1 ≤ g.time.length
  times : Increasing g.time

/-- Data as a field has them: (time, depth, lat, lon), or (time, lat, lon) if there is one depth. -/
def FieldData (g : Grid) (d : ND ℚ) : Prop :=
  d.shape = [g.time.length, g.depth.length, g.ydim, g.xdim] ∨ g.depth.length = 1 ∧ d.shape = [g.time.length, g.ydim, g.xdim]

/-- What a reader finds in the file of a field. -/
structure SameField (date : ℚ) (g : Grid) (d : ND ℚ) (date' : ℚ) (g' : Grid) (d' : ND ℚ) : Prop where
  kind : g'.curvilinear = g.curvilinear
  xdim : g'.xdim = g.xdim
  ydim : g'.ydim = g.ydim
  depth : g'.depth = g.depth
  lat : ∀ y x, y < g.ydim → x < g.xdim → g'.latAt y x = g.latAt y x
  lon : ∀ y x, y < g.ydim → x < g.xdim → g'.lonAt y x = g.lonAt y x
  /-- the times are the same dates -/
  time : g'.time.map (· + date') = g.time.map (· + date)
  value : ∀ t z y x, t < g.time.length → z < g.depth.length → y < g.ydim → x < g.xdim → nodeValue d' t z y x = nodeValue d t z y x

end Parcels.Load
