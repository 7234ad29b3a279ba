import Verif.Model.CurviS
import Verif.Spec.CurviField
import Verif.Spec.SLevels

/-!
Vocabulary for sampling on curvilinear grids with s-levels (C29, C30, C74, C76).
-/

namespace Parcels.CurviS
open Parcels.Search Parcels.Interp Parcels.SLevels

/-- Data with the shape of the grid, which has cells, and levels that get deeper (or less deep) from one to the next in every column. -/
structure WellFormed (f : CSField) : Prop where
  nx : 2 ≤ f.grid.xdim
  ny : 2 ≤ f.grid.ydim
  nz : 2 ≤ f.levels.zdim
  order : (∀ u j i k k', k < k' → (f.levels.depths u).v k j i < (f.levels.depths u).v k' j i) ∨
    (∀ u j i k k', k < k' → (f.levels.depths u).v k' j i < (f.levels.depths u).v k j i)
  shape : ∀ i, (f.data i).nx = f.grid.xdim ∧ (f.data i).ny = f.grid.ydim ∧ (f.data i).nz = f.levels.zdim
  snapshots : f.levels.z4d = true → f.levels.ndep = f.axis.time.length

/-- (x, y, z) is in the cell (m, n) at (r, s), and at fraction q between the levels k and k + 1, which are where they are at this place
and at fraction w between the snapshots i and i + 1. -/
def PlacesS (f : CSField) (i : Nat) (w x y z : ℚ) (k m n : Nat) (q s r : ℚ) : Prop :=
  CurviField.Places f.grid x y m n r s ∧ Locates (f.levels.levels i w m n s r) z (k : ℤ) q

/-- All nodes of all snapshots have the value `c`. -/
def Uniform (f : CSField) (c : ℚ) : Prop := ∀ i k b a, (f.data i).v k b a = c

end Parcels.CurviS
