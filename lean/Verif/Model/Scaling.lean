import Mathlib.Data.Rat.Defs
import Mathlib.Algebra.Order.Ring.Rat

/-!
Model of scaling and masking of data: the field constructor (parcels/field.py:158-176), `set_scaling_factor`
(field.py:540-554) and `rescale_and_set_minmax` (field.py:1307-1315).

Simplifications: exact arithmetic; one datum, `none` is NaN; a snapshot is represented by one datum.
-/

namespace Parcels.Scaling

/-- `data[isnan(data)] = 0`. Models: field.py:167, 1308. -/
def noNaN (x : Option ℚ) : ℚ := x.getD 0

/-- `data[data < vmin] = 0`. Models: field.py:169, 1312. -/
def maskMin (vmin : Option ℚ) (x : ℚ) : ℚ :=
  match vmin with
  | none => x
  | some m => if x < m then 0 else x

/-- `data[data > vmax] = 0`. Models: field.py:171, 1314. -/
def maskMax (vmax : Option ℚ) (x : ℚ) : ℚ :=
  match vmax with
  | none => x
  | some m => if m < x then 0 else x

/-- The constructor, direct loading. Models: field.py:161-171. -/
def construct (vmin vmax : Option ℚ) (x : Option ℚ) : ℚ := maskMax vmax (maskMin vmin (noNaN x))

/-- `if self._scaling_factor`: neither None nor zero. Models: field.py:550, 1309. -/
def truthy (f : Option ℚ) : Option ℚ :=
  match f with
  | none => none
  | some f => if f = 0 then none else some f

/-- `rescale_and_set_minmax`, deferred loading. Models: field.py:1307-1315. -/
def rescale (vmin vmax factor : Option ℚ) (x : Option ℚ) : ℚ :=
  let y := noNaN x
  let z := match truthy factor with
    | none => y
    | some f => y * f
  maskMax vmax (maskMin vmin z)

/-- State of a field: `_scaling_factor`, and the data in memory. Models: field.py:161-176, 550-554. -/
structure FState where
  factor : Option ℚ
  data : List ℚ
deriving DecidableEq, Repr

/-- `set_scaling_factor`; `none`: NotImplementedError. Models: field.py:550-554. -/
def setScaling (deferred : Bool) (s : FState) (f : ℚ) : Option FState :=
  if (truthy s.factor).isSome then none
  else some { factor := some f, data := if deferred then s.data else s.data.map (· * f) }

/-- A snapshot is loaded from file (deferred loading). Models: fieldset.py:1065, 1099. -/
def load (vmin vmax : Option ℚ) (s : FState) (x : Option ℚ) : FState :=
  { s with data := s.data ++ [rescale vmin vmax s.factor x] }

end Parcels.Scaling
