import Verif.Model.FromField
import Verif.Spec.Curvilinear
import Mathlib.Algebra.BigOperators.Group.Finset.Basic

/-!
Vocabulary for C75: releases according to a field.
-/

namespace Parcels.FromField
open Parcels.Interp

/-- A start field without depth, with the value `v j i` at node `(j, i)`. -/
def start2D (ny nx : Nat) (v : Nat → Nat → ℚ) (m : Method) (g : HGrid) : Start where
  d := { shape := [ny, nx], entry := fun ix => v (ix.getD 0 0) (ix.getD 1 0) }
  method := m
  grid := g

/-- The weight of cell `(j, i)`: for C-grid tracers the value of the cell, which is stored at its north-eastern node; otherwise the mean of
its four nodes, and zero if one of them is zero (land). -/
def weight (m : Method) (v : Nat → Nat → ℚ) (j i : Nat) : ℚ :=
  if m = .cgridTracer then v (j + 1) (i + 1)
  else if v j i = 0 ∨ v j (i + 1) = 0 ∨ v (j + 1) i = 0 ∨ v (j + 1) (i + 1) = 0 then 0
  else (v j i + v j (i + 1) + v (j + 1) i + v (j + 1) (i + 1)) / 4

/-- The sum of the weights of all cells. -/
def total (m : Method) (ny nx : Nat) (v : Nat → Nat → ℚ) : ℚ :=
  ∑ j ∈ Finset.range (ny - 1), ∑ i ∈ Finset.range (nx - 1), weight m v j i

/-- A density on a grid of `ny` times `nx` nodes: no cell has a negative weight, some have a positive one. -/
structure Density (m : Method) (ny nx : Nat) (v : Nat → Nat → ℚ) : Prop where
  nonneg : ∀ j i, j + 1 < ny → i + 1 < nx → 0 ≤ weight m v j i
  pos : 0 < total m ny nx v

/-- A grid with enough rows and columns: two, and three for C-grid tracers. -/
def Enough (m : Method) (ny nx : Nat) : Prop := 2 ≤ ny ∧ 2 ≤ nx ∧ (m = .cgridTracer → 3 ≤ ny ∧ 3 ≤ nx)

/-- A random number from the uniform distribution on [0, 1). -/
def Unit01 (u : ℚ) : Prop := 0 ≤ u ∧ u < 1

/-- The triples of random numbers for which `E` holds fill a box of volume `p` in the unit cube: `p` is the probability of `E`. -/
def Chance (E : ℚ → ℚ → ℚ → Prop) (p : ℚ) : Prop :=
  ∃ a a' b b' c c', 0 ≤ a ∧ a ≤ a' ∧ a' ≤ 1 ∧ 0 ≤ b ∧ b ≤ b' ∧ b' ≤ 1 ∧ 0 ≤ c ∧ c ≤ c' ∧ c' ≤ 1 ∧
    p = (a' - a) * (b' - b) * (c' - c) ∧
    ∀ u xsi eta, Unit01 u → Unit01 xsi → Unit01 eta →
      (E u xsi eta ↔ (a ≤ u ∧ u < a') ∧ (b ≤ xsi ∧ xsi < b') ∧ (c ≤ eta ∧ eta < c'))

/-- The particles of a release are independent and have the same distribution: each position is the same function `pos` of three numbers of
its own. In particular there are as many particles as asked for. -/
def Draws (f : Start) (pos : ℚ → ℚ → ℚ → ℚ × ℚ) : Prop :=
  ∀ (n : Nat) (rnd : Nat → ℚ), (∀ k, Unit01 (rnd k)) →
    monteCarlo f n rnd "monte_carlo" = .ok ((List.range n).map fun q => pos (rnd q) (rnd (n + q)) (rnd (2 * n + q)))

end Parcels.FromField
