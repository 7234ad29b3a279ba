import Verif.Model.Curvilinear

/-!
Vocabulary for C27, C28 and C68: the bilinear map of a cell.
-/

namespace Parcels.Curvilinear

variable {K : Type} [Field K] [LinearOrder K]

/-- The point with relative coordinates (xsi, eta) of the quadrilateral with corners c. -/
def bilinX (c : Cell K) (xsi eta : K) : K :=
  (1 - xsi) * (1 - eta) * c.x0 + xsi * (1 - eta) * c.x1 + xsi * eta * c.x2 + (1 - xsi) * eta * c.x3
def bilinY (c : Cell K) (xsi eta : K) : K :=
  (1 - xsi) * (1 - eta) * c.y0 + xsi * (1 - eta) * c.y1 + xsi * eta * c.y2 + (1 - xsi) * eta * c.y3

/-- (xsi, eta) are relative coordinates of (x, y). -/
def At (c : Cell K) (x y xsi eta : K) : Prop := bilinX c xsi eta = x ∧ bilinY c xsi eta = y

/-- The Jacobian determinant of the bilinear map: positive if the rows of the grid run to the left of its
columns (for example columns to the east and rows to the north). -/
def jacobian (c : Cell K) (xsi eta : K) : K :=
  ((1 - eta) * (c.x1 - c.x0) + eta * (c.x2 - c.x3)) * ((1 - xsi) * (c.y3 - c.y0) + xsi * (c.y2 - c.y1)) -
  ((1 - eta) * (c.y1 - c.y0) + eta * (c.y2 - c.y3)) * ((1 - xsi) * (c.x3 - c.x0) + xsi * (c.x2 - c.x1))

/-- Cross product of the two sides (0,3) and (1,2): zero if they are parallel. -/
def sideCross (c : Cell K) : K := (c.x2 - c.x1) * (c.y3 - c.y0) - (c.x3 - c.x0) * (c.y2 - c.y1)

/-- Extent in x of the line eta = const within the cell. -/
def chord (c : Cell K) (eta : K) : K := (1 - eta) * (c.x1 - c.x0) + eta * (c.x2 - c.x3)

/-- A cell on which the solver makes no approximation: the sides are exactly parallel or clearly not. -/
def Clear (c : Cell K) : Prop := sideCross c = 0 ∨ tiny ≤ |sideCross c|

/-- `sqrt` is the square root, as far as the field has one. -/
def IsSqrt (sqrt : K → K) : Prop := ∀ r, sqrt (r * r) = |r|

/-- Cell (yi, xi) exists. -/
def ValidCell (g : CGrid K) (xi yi : ℤ) : Prop := 0 ≤ xi ∧ xi + 1 < g.xdim ∧ 0 ≤ yi ∧ yi + 1 < g.ydim

/-- The corners of cell (yi, xi). -/
def corners (g : CGrid K) (xi yi : ℤ) : Cell K :=
  { x0 := g.lon yi.toNat xi.toNat, x1 := g.lon yi.toNat (xi.toNat + 1),
    x2 := g.lon (yi.toNat + 1) (xi.toNat + 1), x3 := g.lon (yi.toNat + 1) xi.toNat,
    y0 := g.lat yi.toNat xi.toNat, y1 := g.lat yi.toNat (xi.toNat + 1),
    y2 := g.lat (yi.toNat + 1) (xi.toNat + 1), y3 := g.lat (yi.toNat + 1) xi.toNat }

/-- The same longitude up to full turns. -/
def SameLon (p q : K) : Prop := ∃ k : ℤ, p = q + 360 * k

end Parcels.Curvilinear
