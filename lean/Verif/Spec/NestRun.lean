import Verif.Model.NestRun
import Verif.Spec.GridRun
import Verif.Spec.PathRun

/-!
Vocabulary for the statements of C112: the values of nested fields.
-/

namespace Parcels.NestRun

open Search
open KernelLoop (Exc)
open GridRun (Fld FieldValue)

variable {V : Type}

/-- The time is in the range of the times of the field, or extrapolation is allowed. -/
def TimeOk (f : Fld) (t : ℚ) : Prop := f.extrap = true ∨ InRange f.time t

/-- The position is outside the horizontal range of the grid, or deeper than its last level. -/
def Outside (f : Fld) (z y x : ℚ) : Prop :=
  ¬ InRange f.grid.lon x ∨ ¬ InRange f.grid.lat y ∨ (2 ≤ f.grid.depth.length ∧ ∀ d ∈ f.grid.depth, d < z)

/-- The member (a field, or the components of a vector field) is out of bounds there: the first component without a value has values at that time, but not at that position. -/
def Misses (fs : Nat → Fld) (m : List Nat) (t z y x : ℚ) : Prop :=
  ∃ a i b, m = a ++ i :: b ∧ (∀ j ∈ a, ∃ w, FieldValue (fs j) t z y x w) ∧ TimeOk (fs i) t ∧ Outside (fs i) z y x

/-- `ws` are the values of the nested field: those of a member, all members before it being out of bounds there. -/
def NestValue (fs : Nat → Fld) (ms : List (List Nat)) (t z y x : ℚ) (ws : List ℚ) : Prop :=
  ∃ pre m post, ms = pre ++ m :: post ∧ (∀ m' ∈ pre, Misses fs m' t z y x) ∧ List.Forall₂ (fun i w => FieldValue (fs i) t z y x w) m ws

/-- The first member of the list that covers the position and time has the values `ws` there. -/
def FirstValue (fs : Nat → Fld) (ms : List (List Nat)) (t z y x : ℚ) (ws : List ℚ) : Prop :=
  ∃ pre m post, ms = pre ++ m :: post ∧ (∀ m' ∈ pre, ¬ ∀ i ∈ m', GridRun.Covers (fs i) t z y x) ∧ List.Forall₂ (fun i w => FieldValue (fs i) t z y x w) m ws

/-- The position is above the first level of the grid. -/
def Above (f : Fld) (z : ℚ) : Prop := 2 ≤ f.grid.depth.length ∧ ∀ d ∈ f.grid.depth, z < d

/-- `val` gives the values of the nested fields, where they have one. -/
def Nests (fs : Nat → Fld) (ns : Nat → List (List Nat)) (val : Nat → (t z y x : ℚ) → Option (List ℚ)) : Prop :=
  ∀ n t z y x ws, val n t z y x = some ws ↔ NestValue fs (ns n) t z y x ws

/-- The reference: the program with given values; `none` if it samples where there are none, or fails. -/
def follow (val : Nat → (t z y x : ℚ) → Option (List ℚ)) : Prog V → Option V
  | .ret v => some v
  | .fail _ => none
  | .get n t z y x k =>
    match val n t z y x with
    | none => none
    | some ws => follow val (k ws)

/-- The kernel with given values of the nested fields. -/
def refScheme (val : Nat → (t z y x : ℚ) → Option (List ℚ)) (b : Body V) : WholeRun.Scheme V := fun t dt v =>
  match follow val (b t dt v) with
  | some v' => .ok v'
  | none => .error .anyOther

end Parcels.NestRun
