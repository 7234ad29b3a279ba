import Verif.Model.ZonalCheck
import Verif.Spec.Sphere

/-!
Vocabulary for grids that go round the globe (C92).
-/

namespace Parcels.ZonalCheck

/-- The same meridians, node by node: longitudes that differ by whole turns. -/
def SameMeridians (l U : List ℚ) : Prop :=
  l.length = U.length ∧ ∀ (n : Nat) (a b : ℚ), l[n]? = some a → U[n]? = some b → ∃ k : ℤ, b = a + 360 * k

/-- Neighbouring longitudes differ by less than `d`. -/
def StepsBelow (d : ℚ) (l : List ℚ) : Prop := ∀ (n : Nat) (a b : ℚ), l[n]? = some a → l[n + 1]? = some b → |b - a| < d

/-- `n` meridians at equal distances round the globe, from `x0` on. -/
def around (x0 : ℚ) (n : Nat) : List ℚ := (List.range n).map fun i : Nat => x0 + i * (360 / n)

end Parcels.ZonalCheck
