import Verif.Model.GridRun
import Verif.Spec.WholeRun
import Verif.Spec.Interp

/-!
Vocabulary for C99: the reference interpolation of gridded data, and runs that follow it.
-/

namespace Parcels.GridRun

open Search Interp
open KernelLoop (Exc)

variable {V : Type}

/-- `w` is the bilinear (trilinear) interpolation of the data at the position, in a cell that contains it. -/
def SpaceValue (g : RGrid) (d : Arr) (z y x w : ℚ) : Prop :=
  ∃ n m : Nat, ∃ r s : ℚ, Locates g.lon x n r ∧ Locates g.lat y m s ∧
    (g.depth.length ≤ 1 → w = bilinearAt d 0 m n s r) ∧
    (2 ≤ g.depth.length → ∃ k : Nat, ∃ q : ℚ, Locates g.depth z k q ∧ w = trilinearAt d k m n q s r)

/-- `w` is the value at time `t` of a quantity with value `v i` at time `T[i]`: that value itself, the linear interpolation between two times, or, if
extrapolation is allowed, the value at the nearest end. -/
def TimeValue (T : List ℚ) (extrap : Bool) (t : ℚ) (v : Nat → ℚ) (w : ℚ) : Prop :=
  (∃ i : Nat, T[i]? = some t ∧ w = v i) ∨
  (∃ i : Nat, ∃ r : ℚ, Locates T t i r ∧ w = lerp r (v i) (v (i + 1))) ∨
  (extrap = true ∧ (∀ a ∈ T, t ≤ a) ∧ w = v 0) ∨
  (extrap = true ∧ (∀ a ∈ T, a ≤ t) ∧ w = v (T.length - 1))

/-- `w` is the value of the field at time `t`, depth `z`, latitude `y` and longitude `x`. -/
def FieldValue (f : Fld) (t z y x w : ℚ) : Prop :=
  ∃ v : Nat → ℚ, (∀ i, i < f.time.length → SpaceValue f.grid (f.data i) z y x (v i)) ∧ TimeValue f.time f.extrap t v w

/-- A field on a flat grid with increasing axes; one level, or increasing depths. -/
structure Sound (f : Fld) : Prop where
  flat : f.grid.spherical = false
  noHalo : f.grid.zonalPeriodic = false
  mom5 : f.grid.mom5 = false
  lonInc : Increasing f.grid.lon
  lonLen : 2 ≤ f.grid.lon.length
  latInc : Increasing f.grid.lat
  latLen : 2 ≤ f.grid.lat.length
  depth : f.grid.depth.length ≤ 1 ∨ Increasing f.grid.depth
  timeInc : Increasing f.time
  timeLen : 1 ≤ f.time.length
  fits : ∀ i, Fits (f.data i) f.grid

/-- Fields with the same number of the grid are on the same grid, with the same times. -/
def Grids (fs : Nat → Fld) : Prop := ∀ i j, (fs i).igrid = (fs j).igrid → (fs i).grid = (fs j).grid ∧ (fs i).time = (fs j).time

/-- Remembered cells that are cells of the grids; those of a new particle are (`ParticleSet` sets them to 0, and `ti` to -1). -/
def Hints (fs : Nat → Fld) (hs : Nat → Hint) : Prop := ∀ i,
  (hs (fs i).igrid).xi + 1 < (fs i).grid.lon.length ∧ (hs (fs i).igrid).yi + 1 < (fs i).grid.lat.length ∧
  (hs (fs i).igrid).zi ≤ (fs i).grid.depth.length - 1 ∧ (hs (fs i).igrid).ti < (fs i).time.length

/-- The reference: the program with given values of the fields; `none` if it samples where a field has no value, or fails. -/
def follow (val : Nat → (t z y x : ℚ) → Option ℚ) : Prog V → Option V
  | .ret v => some v
  | .fail _ => none
  | .get f t z y x k =>
    match val f t z y x with
    | none => none
    | some w => follow val (k w)

/-- The kernel with given values of the fields. -/
def refScheme (val : Nat → (t z y x : ℚ) → Option ℚ) (b : Body V) : WholeRun.Scheme V := fun t dt v =>
  match follow val (b t dt v) with
  | some v' => .ok v'
  | none => .error .anyOther

/-- `val` gives the interpolated values of the fields, where they have one. -/
def Interpolates (fs : Nat → Fld) (val : Nat → (t z y x : ℚ) → Option ℚ) : Prop :=
  ∀ i t z y x w, val i t z y x = some w ↔ FieldValue (fs i) t z y x w

/-- The field has a value there: the position is in the range of the axes, and the time in the range of the times or extrapolation is allowed. -/
def Covers (f : Fld) (t z y x : ℚ) : Prop :=
  InRange f.grid.lon x ∧ InRange f.grid.lat y ∧ (2 ≤ f.grid.depth.length → InRange f.grid.depth z) ∧ (f.extrap = true ∨ InRange f.time t)

/-- The same value everywhere and always. -/
def Constant (f : Fld) (c : ℚ) : Prop := ∀ i k j l, (f.data i).v k j l = c

/-- Identifier, time and variables without the remembered cells. -/
def bare (c : Nat × ℚ × V × (Nat → Hint)) : Nat × ℚ × V := (c.1, c.2.1, c.2.2.1)

/-- The same particle without the remembered cells. -/
def strip (q : Recovery.TP (V × (Nat → Hint))) : Recovery.TP V := (q.1, { q.2 with vars := q.2.vars.1 })

end Parcels.GridRun
