import Mathlib.Algebra.Order.Field.Basic

/-!
Vocabulary for C126.
-/

namespace Parcels.Shapes

variable {K : Type} [Field K]

/-- The corners of the unit square, counterclockwise. -/
def corners2 : List (K × K) := [(0, 0), (1, 0), (1, 1), (0, 1)]

/-- The corners of the unit cube: around its lower face, then around its upper one. -/
def corners3 : List (K × K × K) := [(0, 0, 0), (1, 0, 0), (1, 1, 0), (0, 1, 0), (0, 0, 1), (1, 0, 1), (1, 1, 1), (0, 1, 1)]

/-- The ends and the middle of the unit interval. -/
def thirds : List K := [0, 1 / 2, 1]

/-- Twice the signed area of the triangle of three points: positive if they turn left. -/
def turn (a b c : K × K) : K := (b.1 - a.1) * (c.2 - a.2) - (c.1 - a.1) * (b.2 - a.2)

/-- The signed area of a quadrilateral: half the sum of the two triangles on one of its diagonals. -/
def area (a b c d : K × K) : K := (turn a b c + turn a c d) / 2

/-- The quadrilateral turns left at each of its corners. -/
def Convex [LinearOrder K] (a b c d : K × K) : Prop := 0 < turn d a b ∧ 0 < turn a b c ∧ 0 < turn b c d ∧ 0 < turn c d a

/-- In the unit interval. -/
def In [LinearOrder K] (s : K) : Prop := 0 ≤ s ∧ s ≤ 1

end Parcels.Shapes
