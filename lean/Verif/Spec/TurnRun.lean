import Verif.Spec.UnitRun
import Verif.Spec.SphereRun

/-!
Vocabulary for C117: another prime meridian, and other origins and units of depth and time, on spherical meshes.
-/

namespace Parcels.TurnRun

open SphereRun (SFld)
open UnitRun (Units)

/-- Longitudes are counted from another meridian; latitudes remain. Depth and time may have other origins and units. -/
structure Turn (u : Units) : Prop where
  lon : u.x.scale = 1
  lat : u.y.scale = 1 ∧ u.y.shift = 0

/-- The same field. Its values, before the conversion to degrees, are multiplied by `c`. -/
def turn (u : Units) (c : ℚ) (f : SFld) : SFld := { f with fld := UnitRun.change u c f.fld }

end Parcels.TurnRun
