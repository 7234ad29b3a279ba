import Verif.Model.Analytical
import Verif.Spec.CGrid

/-!
Vocabulary for C57.
-/

namespace Parcels.Analytical

open Parcels.Curvilinear (Cell bilinX bilinY)

/-- The velocity in one relative coordinate, linear between the values F0 at 0 and F1 at 1. -/
def speed (F0 F1 r : ℝ) : ℝ := F0 * (1 - r) + F1 * r

/-- The particle does not reach the face towards which it moves: the velocity vanishes on the way (or everywhere). -/
def Blocked (F0 F1 r : ℝ) : Prop :=
  (F0 = 0 ∧ F1 = 0) ∨
  (tol < |F0 - F1| ∧ ∃ z, speed F0 F1 z = 0 ∧
    ((0 ≤ speed F0 F1 r ∧ r ≤ z ∧ z ≤ 1) ∨ (speed F0 F1 r < 0 ∧ 0 ≤ z ∧ z ≤ r)))

/-- A finite travel time is computed, or the particle is blocked. -/
def AxisOk (F0 F1 r : ℝ) : Prop := (∃ d, computeDs 1 F0 F1 r = some (some d)) ∨ Blocked F0 F1 r

/-- The point lies in the cell or on its boundary, with relative coordinates (a, b). -/
def InCellAt (c : Cell ℝ) (x y a b : ℝ) : Prop :=
  0 ≤ a ∧ a ≤ 1 ∧ 0 ≤ b ∧ b ≤ 1 ∧ bilinX c a b = x ∧ bilinY c a b = y

/-- Volume per time through a face of the flat cell: velocity times length times thickness of the layer. -/
noncomputable def through (sqrt : ℝ → ℝ) (v dx dy dz : ℝ) : ℝ := v * CGrid.length sqrt dx dy * dz

/-- In a flat cell, each horizontal direction has a finite travel time or is blocked. -/
def HorizontalOk (sqrt : ℝ → ℝ) (c : Cell ℝ) (f : CGrid.Faces ℝ) (dz xsi eta : ℝ) : Prop :=
  AxisOk (through sqrt f.west (c.x3 - c.x0) (c.y3 - c.y0) dz) (through sqrt f.east (c.x2 - c.x1) (c.y2 - c.y1) dz) xsi ∧
  AxisOk (through sqrt f.south (c.x1 - c.x0) (c.y1 - c.y0) dz) (through sqrt f.north (c.x2 - c.x3) (c.y2 - c.y3) dz) eta

/-- (a, b) is where the two paths of `computeRs` (exact by C57_path) are after the scaled time s. -/
def OnPaths (sqrt : ℝ → ℝ) (c : Cell ℝ) (f : CGrid.Faces ℝ) (dz xsi eta s a b : ℝ) : Prop :=
  a = computeRs (through sqrt f.west (c.x3 - c.x0) (c.y3 - c.y0) dz) (through sqrt f.east (c.x2 - c.x1) (c.y2 - c.y1) dz) xsi s ∧
  b = computeRs (through sqrt f.south (c.x1 - c.x0) (c.y1 - c.y0) dz) (through sqrt f.north (c.x2 - c.x3) (c.y2 - c.y3) dz) eta s

end Parcels.Analytical
