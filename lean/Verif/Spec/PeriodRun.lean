import Verif.Model.PeriodRun
import Verif.Spec.GridRun

/-!
Vocabulary for the statements of C113: the values of fields that are periodic in time, and runs at other times.
-/

namespace Parcels.PeriodRun

open Search Interp
open GridRun (Fld Prog Body Sound FieldValue SpaceValue)
open Recovery (TP)

variable {V : Type}

/-- The period of a field: from its first to its last time. -/
def span (f : Fld) : ℚ := f.time.getLastD 0 - f.time.headD 0

/-- `w` is the value of the field at time `t`, depth `z`, latitude `y` and longitude `x`: if the field is periodic in time, the linear interpolation between two of its times at a time that is a whole number of
periods away from `t`. -/
def Value (per : Bool) (f : Fld) (t z y x w : ℚ) : Prop :=
  if per then ∃ v : Nat → ℚ, (∀ i, i < f.time.length → SpaceValue f.grid (f.data i) z y x (v i)) ∧
    ∃ k : ℤ, ∃ i : Nat, ∃ r : ℚ, Locates f.time (t - k * span f) i r ∧ w = lerp r (v i) (v (i + 1))
  else FieldValue f t z y x w

/-- A periodic field: there are at least two times, and the data at the last time are those at the first. -/
structure Closed (f : Fld) : Prop where
  two : 2 ≤ f.time.length
  same : f.data 0 = f.data (f.time.length - 1)

/-- `val` gives the values of the fields, where they have one. -/
def Gives (per : Nat → Bool) (fs : Nat → Fld) (val : Nat → (t z y x : ℚ) → Option ℚ) : Prop :=
  ∀ i t z y x w, val i t z y x = some w ↔ Value (per i) (fs i) t z y x w

/-- The same samples `c` seconds later. -/
def delay (c : ℚ) : Prog V → Prog V
  | .ret v => .ret v
  | .fail e => .fail e
  | .get f t z y x k => .get f (t + c) z y x fun w => delay c (k w)

/-- The kernel uses the time only to sample fields. -/
def Timeless (b : Body V) : Prop := ∀ c t dt v, b (t + c) dt v = delay c (b t dt v)

/-- The field is the same `c` seconds later: it is periodic and `c` is a whole number of periods, or it has one time only and is extrapolated to all others. -/
def Repeats (per : Bool) (f : Fld) (c : ℚ) : Prop :=
  (per = true ∧ ∃ m : ℤ, c = m * span f) ∨ (per = false ∧ f.time.length = 1 ∧ f.extrap = true)

/-- The same particle, `c` seconds later. -/
def later (c : ℚ) (q : TP V) : TP V := (q.1, { q.2 with time := q.2.time + c })

/-- Identifier, time and variables, `c` seconds later. -/
def postpone (c : ℚ) (q : Nat × ℚ × V) : Nat × ℚ × V := (q.1, q.2.1 + c, q.2.2)

end Parcels.PeriodRun
