import Verif.Model.CGrid3D

/-!
Model of the functions for interpolation in a cell (`parcels.tools.interpolation_utils`), as lists of weights.

Simplification: numbers are elements of an ordered field.
-/

namespace Parcels.Shapes

variable {K : Type} [Field K]

/-- `np.dot`. Models: tools/interpolation_utils.py:87-95, 145-148, 167. -/
def dot (a b : List K) : K := (List.zipWith (· * ·) a b).sum

/-- `phi1D_lin`. Models: tools/interpolation_utils.py:5-9. -/
def phi1 (xsi : K) : List K := [1 - xsi, xsi]

/-- `phi1D_quad`. Models: tools/interpolation_utils.py:12-17; interpolation_utils.h:20-25. -/
def phiQ (xsi : K) : List K := [2 * xsi ^ 2 - 3 * xsi + 1, -4 * xsi ^ 2 + 4 * xsi, 2 * xsi ^ 2 - xsi]

/-- `phi2D_lin`. Models: tools/interpolation_utils.py:20-26; interpolation_utils.h:11-17. -/
def phi2 (xsi eta : K) : List K := [(1 - xsi) * (1 - eta), xsi * (1 - eta), xsi * eta, (1 - xsi) * eta]

/-- `phi3D_lin`. Models: tools/interpolation_utils.py:29-39. -/
def phi3 (xsi eta zet : K) : List K :=
  [(1 - xsi) * (1 - eta) * (1 - zet), xsi * (1 - eta) * (1 - zet), xsi * eta * (1 - zet), (1 - xsi) * eta * (1 - zet),
    (1 - xsi) * (1 - eta) * zet, xsi * (1 - eta) * zet, xsi * eta * zet, (1 - xsi) * eta * zet]

/-- `dphidxsi3D_lin`, first result. Models: tools/interpolation_utils.py:43-50. -/
def dphi3xsi (_xsi eta zet : K) : List K :=
  [-(1 - eta) * (1 - zet), (1 - eta) * (1 - zet), eta * (1 - zet), -eta * (1 - zet), -(1 - eta) * zet, (1 - eta) * zet, eta * zet, -eta * zet]

/-- `dphidxsi3D_lin`, second result. Models: tools/interpolation_utils.py:51-58. -/
def dphi3eta (xsi _eta zet : K) : List K :=
  [-(1 - xsi) * (1 - zet), -xsi * (1 - zet), xsi * (1 - zet), (1 - xsi) * (1 - zet), -(1 - xsi) * zet, -xsi * zet, xsi * zet, (1 - xsi) * zet]

/-- `dphidxsi3D_lin`, third result. Models: tools/interpolation_utils.py:59-66. -/
def dphi3zet (xsi eta _zet : K) : List K :=
  [-(1 - xsi) * (1 - eta), -xsi * (1 - eta), -xsi * eta, -(1 - xsi) * eta, (1 - xsi) * (1 - eta), xsi * (1 - eta), xsi * eta, (1 - xsi) * eta]

/-- `dphidxsi2D_lin`, first result. Models: tools/interpolation_utils.py:130-133. -/
def dphi2xsi (_xsi eta : K) : List K := [-(1 - eta), 1 - eta, eta, -eta]

/-- `dphidxsi2D_lin`, second result. Models: tools/interpolation_utils.py:134-137. -/
def dphi2eta (xsi _eta : K) : List K := [-(1 - xsi), -xsi, xsi, 1 - xsi]

/-- `jacobian2D_lin`, with `dxdxsi2D_lin`. Models: tools/interpolation_utils.py:142-157. -/
def jac2 (qx qy : List K) (xsi eta : K) : K :=
  dot qx (dphi2xsi xsi eta) * dot qy (dphi2eta xsi eta) - dot qx (dphi2eta xsi eta) * dot qy (dphi2xsi xsi eta)

/-- `interpolate`. Models: tools/interpolation_utils.py:166-167. -/
def interpolate (phi : K → List K) (f : List K) (xsi : K) : K := dot (phi xsi) f

end Parcels.Shapes
