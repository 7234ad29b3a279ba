import Verif.Model.CurviField
import Verif.Spec.Curvilinear
import Verif.Spec.Interp

/-!
Vocabulary for sampling on curvilinear grids (C29, C30, C76).
-/

namespace Parcels.CurviField
open Parcels.Search Parcels.Interp

/-- Data with the shape of the grid, which has cells and levels in strictly monotone order. -/
structure WellFormed (f : CField) : Prop where
  nx : 2 ≤ f.grid.xdim
  ny : 2 ≤ f.grid.ydim
  depth : Increasing f.depth ∨ Decreasing f.depth
  shape : ∀ i, (f.data i).nx = f.grid.xdim ∧ (f.data i).ny = f.grid.ydim ∧ (f.data i).nz = f.depth.length

/-- The cell (m, n) of the grid exists and (r, s) are in the unit square. -/
def InCell (g : Curvilinear.CGrid ℚ) (m n : Nat) (r s : ℚ) : Prop :=
  n + 1 < g.xdim ∧ m + 1 < g.ydim ∧ 0 ≤ r ∧ r ≤ 1 ∧ 0 ≤ s ∧ s ≤ 1

/-- The cell (m, n), with its longitudes brought to one side of the date line near `x`. -/
def cellNear (g : Curvilinear.CGrid ℚ) (m n : Nat) (x : ℚ) : Curvilinear.Cell ℚ :=
  Curvilinear.shift g.spherical x (Curvilinear.corners g n m)

/-- The provisos of C27: sides of the cell exactly parallel or clearly not, no line eta = const upright, and the
position has coordinates with respect to the cell. -/
def Benign (c : Curvilinear.Cell ℚ) (x y : ℚ) : Prop :=
  Curvilinear.Clear c ∧ (∃ xsi eta, Curvilinear.At c x y xsi eta ∧ Curvilinear.jacobian c xsi eta ≠ 0) ∧
  ∀ eta, -Curvilinear.tol ≤ eta → eta ≤ 1 + Curvilinear.tol → Curvilinear.tiny ≤ |Curvilinear.chord c eta|

/-- (a, b) are relative coordinates of (x, y) in the cell, which is accepted if they are in the unit square up to the tolerance. -/
def Accepts (c : Curvilinear.Cell ℚ) (x y a b : ℚ) : Prop :=
  Curvilinear.At c x y a b ∧ -Curvilinear.tol ≤ a ∧ a ≤ 1 + Curvilinear.tol ∧ -Curvilinear.tol ≤ b ∧ b ≤ 1 + Curvilinear.tol

/-- (r, s) are where (x, y) is in the cell (m, n): a point of the cell and, under the provisos of C27, the relative
coordinates of the position, limited to the unit square. -/
def Places (g : Curvilinear.CGrid ℚ) (x y : ℚ) (m n : Nat) (r s : ℚ) : Prop :=
  InCell g m n r s ∧
  (Benign (cellNear g m n x) x y → ∃ a b, Accepts (cellNear g m n x) x y a b ∧ r = min 1 (max 0 a) ∧ s = min 1 (max 0 b))

/-- The provisos of C27 hold in all cells, and no cell has the position outside, within the tolerance. -/
def AwayFromEdges (g : Curvilinear.CGrid ℚ) (x y : ℚ) : Prop :=
  ∀ m n, n + 1 < g.xdim → m + 1 < g.ydim → Benign (cellNear g m n x) x y ∧
    ∀ a b, Accepts (cellNear g m n x) x y a b → 0 ≤ a ∧ a ≤ 1 ∧ 0 ≤ b ∧ b ≤ 1

/-- `b` is the side (0 or 1) of the unit interval nearest to `r`. -/
def NearSide (r : ℚ) (b : Nat) : Prop := (b = 0 ∧ r ≤ 1 / 2) ∨ (b = 1 ∧ 1 / 2 ≤ r)

/-- All nodes of all snapshots have the value `k`. -/
def Uniform (f : CField) (k : ℚ) : Prop := ∀ i a b c, (f.data i).v a b c = k

end Parcels.CurviField
