import Verif.Model.Plot
import Verif.Spec.PeriodRun

/-!
Vocabulary for the statements of C119: what a display should show.
-/

namespace Parcels.Plot

open Search
open GridRun (Fld)
open PeriodRun (Value)

/-- Every displayed node has the value that a particle samples there at time `t` and depth `z`. -/
def Faithful (per : Bool) (f : Fld) (t z : ℚ) (m : Img) : Prop :=
  ∀ (j i : Nat) (y x : ℚ), m.y[j]? = some y → m.x[i]? = some x → Value per f t z y x (m.v j i)

/-- `z` is the depth of the level that is displayed (any depth, if there is one level). -/
def AtLevel (f : Fld) (level : Nat) (z : ℚ) : Prop := 2 ≤ f.grid.depth.length → f.grid.depth[level]? = some z

/-- The domain is inside the grid. -/
def Inside (dom : Option Domain) (f : Fld) : Prop :=
  ∀ d, dom = some d → InRange f.grid.lon d.W ∧ InRange f.grid.lon d.E ∧ InRange f.grid.lat d.S ∧ InRange f.grid.lat d.N

/-- One of the four corners of the cell is exactly zero (the mark of land). -/
def Masked (m : Img) (j i : Nat) : Prop := m.v j i = 0 ∨ m.v (j + 1) i = 0 ∨ m.v j (i + 1) = 0 ∨ m.v (j + 1) (i + 1) = 0

end Parcels.Plot
