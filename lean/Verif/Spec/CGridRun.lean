import Verif.Model.CGridRun
import Verif.Spec.CGrid
import Verif.Spec.PeriodRun

/-!
Vocabulary for C120: the velocity on a C-grid, from the velocities given on the faces of the cell that contains the position.
-/

namespace Parcels.CGridRun

open Search Interp
open GridRun (Fld Hint TimeValue)
open PeriodRun (span)

/-- The velocity given on the western face of cell `(m, n)` of level `k` (that on the eastern face is the western one of cell `(m, n + 1)`): at row `m + 1` in files of NEMO, at row `m` in files of MITgcm. -/
def western (mit : Bool) (d : Arr) (k m n : Nat) : ℚ := if mit then d.v k m n else d.v k (m + 1) n

/-- The velocity given on the southern face: at column `n + 1` in files of NEMO, at column `n` in files of MITgcm. -/
def southern (mit : Bool) (d : Arr) (k m n : Nat) : ℚ := if mit then d.v k m n else d.v k m (n + 1)

/-- Cell `(m, n)` of level `k` contains the position, at the fractions `s` and `r` between its sides. -/
structure InCell (g : RGrid) (z y x : ℚ) (k m n : Nat) (s r : ℚ) : Prop where
  lon : Locates g.lon x n r
  lat : Locates g.lat y m s
  one : g.depth.length ≤ 1 → k = 0
  more : 2 ≤ g.depth.length → ∃ q, Locates g.depth z k q

/-- `w` is the value at time `t` of a quantity with value `v i` at the `i`-th time of the field. -/
def InTime (per : Bool) (f : Fld) (t : ℚ) (v : Nat → ℚ) (w : ℚ) : Prop :=
  if per then ∃ k : ℤ, ∃ i : Nat, ∃ r : ℚ, Locates f.time (t - k * span f) i r ∧ w = lerp r (v i) (v (i + 1))
  else TimeValue f.time f.extrap t v w

/-- `(u, v)` is the velocity in a cell that contains the position: `u` is interpolated between the western and the eastern face, `v` between the southern and the northern one, and both in time. -/
def Gives (mit per : Bool) (f : Fld) (dV : Nat → Arr) (t z y x u v : ℚ) : Prop :=
  ∃ k m n : Nat, ∃ s r : ℚ, InCell f.grid z y x k m n s r ∧
    InTime per f t (fun i => lerp r (western mit (f.data i) k m n) (western mit (f.data i) k m (n + 1))) u ∧
    InTime per f t (fun i => lerp s (southern mit (dV i) k m n) (southern mit (dV i) k (m + 1) n)) v

/-- The position is in the range of the axes, and the time in the range of the times, or the field is periodic or extrapolated in time. -/
def Covers (per : Bool) (f : Fld) (t z y x : ℚ) : Prop :=
  InRange f.grid.lon x ∧ InRange f.grid.lat y ∧ (2 ≤ f.grid.depth.length → InRange f.grid.depth z) ∧ (per = true ∨ f.extrap = true ∨ InRange f.time t)

/-- A velocity that is periodic in time: at least two times, and the data at the last one are those at the first. -/
structure Closed (f : Fld) (dV : Nat → Arr) : Prop where
  two : 2 ≤ f.time.length
  sameU : f.data 0 = f.data (f.time.length - 1)
  sameV : dV 0 = dV (f.time.length - 1)

/-- No cell is wider than 180. -/
def NarrowCells (f : Fld) : Prop := ∀ (i : Nat) (a b : ℚ), f.grid.lon[i]? = some a → f.grid.lon[i + 1]? = some b → b - a ≤ 180

/-- A remembered cell of the grid. -/
def Remembered (f : Fld) (h : Hint) : Prop :=
  h.xi + 1 < f.grid.lon.length ∧ h.yi + 1 < f.grid.lat.length ∧ h.zi ≤ f.grid.depth.length - 1 ∧ h.ti < f.time.length

end Parcels.CGridRun
