import Verif.Model.Access
import Verif.Spec.Collection

/-!
Vocabulary for the statements of C84. A particle is seen as a record: its ID and a value for each variable.
-/

namespace Parcels.Access

open Collection

variable {V : Type}

/-- A particle as a record of its ID and its variables. -/
abbrev Record (V : Type) := Option ℤ × List (String × Option V)

/-- The value of a variable in a record. -/
def Record.get (r : Record V) (v : String) : Option V := (r.2.lookup v).join

/-- The record with another value for one variable. -/
def Record.set (r : Record V) (v : String) (x : V) : Record V :=
  (r.1, r.2.map fun p => if p.1 = v then (p.1, some x) else p)

/-- What `p.v = f(p.r₁, …, p.rₙ)` means for a single record. -/
def Record.assign (a : Assign V) (r : Record V) : Record V :=
  match a.reads.mapM r.get with
  | none => r
  | some vals => r.set a.v (a.f vals)

/-- A sequence of such assignments. -/
def Record.run : List (Assign V) → Record V → Record V
  | [], r => r
  | a :: as, r => Record.run as (Record.assign a r)

/-- All names that a loop body uses are Variables of the set. -/
def Uses (as : List (Assign V)) (ns : List String) : Prop :=
  ∀ a ∈ as, a.v ∈ ns ∧ ∀ r ∈ a.reads, r ∈ ns

/-- The loop body that only writes down which accessor it was given. -/
def note (i : ℤ) (s : Coll V × List ℤ) : Except Err (Coll V × List ℤ) := .ok (s.1, s.2 ++ [i])

end Parcels.Access
