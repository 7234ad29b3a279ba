import Mathlib.Algebra.Order.Field.Rat
import Mathlib.Data.List.Basic

/-!
Vocabulary for C24-C26: what it means to locate a coordinate on an axis.
-/

namespace Parcels.Search

/-- A strictly increasing / decreasing axis. -/
def Increasing (l : List ℚ) : Prop := l.Pairwise (· < ·)
def Decreasing (l : List ℚ) : Prop := l.Pairwise (· > ·)

/-- Cell `i` and relative coordinate `r` locate `x` on the axis: `i` is a cell of the axis, `r` is in [0, 1], and
`x` is at fraction `r` between the nodes `i` and `i+1`. -/
def Locates (l : List ℚ) (x : ℚ) (i : ℤ) (r : ℚ) : Prop :=
  ∃ n : Nat, ∃ a b : ℚ, i = (n : ℤ) ∧ l[n]? = some a ∧ l[n + 1]? = some b ∧
    0 ≤ r ∧ r ≤ 1 ∧ x = (1 - r) * a + r * b

/-- The same on a circle of 360 degrees: going east from node `i`, node `i+1` is reached after `w` degrees,
`0 < w ≤ 360`, and `x` is reached after `r * w` degrees. -/
def LocatesMod360 (l : List ℚ) (x : ℚ) (i : ℤ) (r : ℚ) : Prop :=
  ∃ n : Nat, ∃ a b w : ℚ, ∃ p q : ℤ, i = (n : ℤ) ∧ l[n]? = some a ∧ l[n + 1]? = some b ∧
    w = b - a + 360 * p ∧ 0 < w ∧ w ≤ 360 ∧ 0 ≤ r ∧ r ≤ 1 ∧ x + 360 * q = a + r * w

/-- A longitude axis that runs eastward, in cells narrower than 180 degrees, and may jump down once (from 180 to
-180, say): from the jump on, the longitudes count with 360 added. `U` is the unwrapped axis. -/
def EastwardAxis (l U : List ℚ) : Prop :=
  ∃ A B : List ℚ, l = A ++ B ∧ U = A ++ B.map (· + 360) ∧ 2 ≤ l.length ∧ A ≠ [] ∧
    (∀ b ∈ B.head?, ∀ a ∈ A, b < a) ∧ Increasing U ∧
    ∀ (n : Nat) (a b : ℚ), U[n]? = some a → U[n + 1]? = some b → b - a < 180

/-- Smallest and largest coordinate of the axis. -/
def InRange (l : List ℚ) (x : ℚ) : Prop := ∃ a b, a ∈ l ∧ b ∈ l ∧ a ≤ x ∧ x ≤ b

end Parcels.Search
