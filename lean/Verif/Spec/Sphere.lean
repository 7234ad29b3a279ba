import Verif.Spec.Interp

/-!
Vocabulary for C26 and C29 on spherical meshes.
-/

namespace Parcels.Search

/-- A rectilinear grid on the sphere: longitudes eastward (`U` is the axis without the jump at the date line),
latitudes increasing. -/
structure SphereGrid (g : RGrid) (U : List ℚ) : Prop where
  sph : g.spherical = true
  lon : EastwardAxis g.lon U
  latInc : Increasing g.lat
  latLen : 2 ≤ g.lat.length

/-- The longitude passes the range check: a zonally periodic grid has none. -/
def Accepted (g : RGrid) (x : ℚ) : Prop := g.zonalPeriodic = true ∨ InRange g.lon x

/-- The longitude, moved by `s` turns, is on the unwrapped axis. -/
def OnAxis (U : List ℚ) (x : ℚ) (s : ℤ) : Prop := U.headD 0 ≤ x + 360 * s ∧ x + 360 * s ≤ U.getLastD 0

/-- Cells narrower than 135 degrees, at most one turn in all. -/
def ModestAxis (U : List ℚ) : Prop :=
  (∀ (n : Nat) (a b : ℚ), U[n]? = some a → U[n + 1]? = some b → b - a < 135) ∧ U.getLastD 0 - U.headD 0 ≤ 360

/-- The axis covers less than a full turn, or one full turn with the same data at its two ends. -/
def Seamless (g : RGrid) (U : List ℚ) (d : Interp.Arr) : Prop :=
  U.getLastD 0 - U.headD 0 < 360 ∨
    (U.getLastD 0 - U.headD 0 = 360 ∧ ∀ k j, d.v k j 0 = d.v k j (g.lon.length - 1))

/-- Among all nodes of the axis, node `i` is nearest to `x` on the circle: some way round from `x` to it is no longer
than any way round to any node. -/
def NearestOnCircle (l : List ℚ) (x : ℚ) (i : Nat) : Prop :=
  ∃ a, ∃ q : ℤ, l[i]? = some a ∧ ∀ (j : Nat) (b : ℚ) (k : ℤ), l[j]? = some b → |x - a + 360 * q| ≤ |x - b + 360 * k|

end Parcels.Search
