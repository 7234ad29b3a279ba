import Mathlib.Data.List.Basic

/-!
Model of the names of fields in generated C code: `FieldSet.check_complete` (parcels/fieldset.py:252-260), and of the
dictionary from these names to fields with which the C function is called (parcels/compilation/codegenerator.py:758,
kernel.py:154-162, 267).

Simplifications: the list of fields (`get_fields`) is given by their names, in its order; a field is its position in
that list.
-/

namespace Parcels.Names

/-- The loop: `used` are the names given so far, `counter` the next number. Models: fieldset.py:252-260. -/
def assign : List String → List String → Nat → List String
  | [], _, _ => []
  | n :: rest, used, counter =>
    if n ∈ used then (n ++ toString counter) :: assign rest (used ++ [n ++ toString counter]) (counter + 1)
    else n :: assign rest (used ++ [n]) counter

/-- `ccode_name` of each field. Models: fieldset.py:252-260. -/
def ccodeNames (names : List String) : List String := assign names [] 1

/-- `field_args[name] = field`: replace the value of an existing key in place, or append. Models: compilation/codegenerator.py:758, 763, 768. -/
def dictSet (d : List (String × Nat)) (k : String) (v : Nat) : List (String × Nat) :=
  match d with
  | [] => [(k, v)]
  | (k', v') :: rest => if k' = k then (k, v) :: rest else (k', v') :: dictSet rest k v

/-- Translation of a kernel that samples the fields at the given positions, in order.
Models: codegenerator.py:756-782. -/
def fieldArgs (ccode : List String) (visited : List Nat) : List (String × Nat) :=
  visited.foldl (fun d i => dictSet d (ccode.getD i "") i) []

/-- The field whose data a sample of field `i` reads in C: the argument bound to its name.
Models: codegenerator.py:542, 1003-1008, kernel.py:267. -/
def cReads (ccode : List String) (visited : List Nat) (i : Nat) : Option Nat :=
  ((fieldArgs ccode visited).find? fun p => decide (p.1 = ccode.getD i "")).map (·.2)

end Parcels.Names
