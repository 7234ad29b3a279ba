import Verif.Model.CGrid
import Verif.Spec.Curvilinear

/-!
Vocabulary for C51.
-/

namespace Parcels.CGrid

open Parcels.Curvilinear

variable {K : Type} [Field K] [LinearOrder K]

/-- A rectangle with sides along the axes. -/
def Rectangle (c : Cell K) : Prop :=
  c.x3 = c.x0 ∧ c.x2 = c.x1 ∧ c.y1 = c.y0 ∧ c.y2 = c.y3 ∧ c.x0 < c.x1 ∧ c.y0 < c.y3

/-- Volume flux of the velocity (p, q) through the segment with extent (dx, dy), from left to right seen along it. -/
def flux (p q dx dy : K) : K := p * dy - q * dx

/-- Length of the segment with extent (dx, dy). -/
def length (sqrt : K → K) (dx dy : K) : K := sqrt (dx * dx + dy * dy)

/-- The extent of the cell along the line xsi = const (from south to north), and along eta = const (west to east). -/
def alongEtaX (c : Cell K) (xsi : K) : K := (1 - xsi) * (c.x3 - c.x0) + xsi * (c.x2 - c.x1)
def alongEtaY (c : Cell K) (xsi : K) : K := (1 - xsi) * (c.y3 - c.y0) + xsi * (c.y2 - c.y1)
def alongXsiX (c : Cell K) (eta : K) : K := (1 - eta) * (c.x1 - c.x0) + eta * (c.x2 - c.x3)
def alongXsiY (c : Cell K) (eta : K) : K := (1 - eta) * (c.y1 - c.y0) + eta * (c.y2 - c.y3)

/-- The face data are the components of the uniform velocity (p, q) normal to the faces. -/
def CarriesUniform (sqrt : K → K) (c : Cell K) (p q : K) (f : Faces K) : Prop :=
  f.west * length sqrt (c.x3 - c.x0) (c.y3 - c.y0) = flux p q (c.x3 - c.x0) (c.y3 - c.y0) ∧
  f.east * length sqrt (c.x2 - c.x1) (c.y2 - c.y1) = flux p q (c.x2 - c.x1) (c.y2 - c.y1) ∧
  f.south * length sqrt (c.x1 - c.x0) (c.y1 - c.y0) = - flux p q (c.x1 - c.x0) (c.y1 - c.y0) ∧
  f.north * length sqrt (c.x2 - c.x3) (c.y2 - c.y3) = - flux p q (c.x2 - c.x3) (c.y2 - c.y3)

/-- No corner is more than 180 (degrees or metres) east or west of the first. -/
def Narrow (c : Cell K) : Prop := |c.x1 - c.x0| ≤ 180 ∧ |c.x2 - c.x0| ≤ 180 ∧ |c.x3 - c.x0| ≤ 180

/-- On the sphere: after the shifts of the two modes the cell is narrower than half a turn. -/
def NarrowOnSphere (x : K) (c : Cell K) : Prop :=
  let s := shift true x c
  let t := cShift c
  (|s.x1 - s.x0| < 180 ∧ |s.x2 - s.x0| < 180 ∧ |s.x3 - s.x0| < 180) ∧
  (|t.x1 - t.x0| < 180 ∧ |t.x2 - t.x0| < 180 ∧ |t.x3 - t.x0| < 180)

/-- Both modes give the velocity v at the position (x, y) with relative coordinates (xsi, eta). -/
def BothGive (m : Metric K) (sph : Bool) (c : Cell K) (xsi eta x y : K) (f : Faces K) (v : K × K) : Prop :=
  pyVelocity m sph c xsi eta x y f = some v ∧ cVelocity m sph c xsi eta f = v

end Parcels.CGrid
