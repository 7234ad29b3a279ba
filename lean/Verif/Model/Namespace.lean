import Mathlib.Data.List.Basic

/-!
Model of a FieldSet as a namespace: `add_field`, `add_vector_field`, `add_constant`, `get_fields`, and the parts of
`check_complete` that read or set attributes (parcels/fieldset.py:34-48, 130-196, 220-252, 926-955).

Names and Fields are numbers; `nm f` is `field.name`. Simplifications: attributes that a FieldSet has from the start
(methods, `gridset`, `completed`) are not replaced by `add_constant`; a VectorField is its name and its components; Fields
are of class Field itself. The velocity checks are in `Model/Complete`, grids in `Model/GridSet` and `Model/SharedFields`:
here it is only recorded which Fields were given to `GridSet.add_grid`.
-/

namespace Parcels.Namespace

/-- A Field, or a VectorField. Models: parcels/field.py:92-135, 1399-1405. -/
inductive Item where
  | field (f : Nat)
  | vector (name : Nat) (comps : List Nat)
deriving DecidableEq, Repr

/-- What an attribute can be: a Field or VectorField, a NestedField or SummedField, a constant.
Models: parcels/field.py:1736-1753, 1797-1814, parcels/fieldset.py:926-955. -/
inductive Val where
  | one (i : Item)
  | many (nested : Bool) (name : Nat) (l : List Item)
  | const (c : Nat)
deriving DecidableEq, Repr

/-- A FieldSet: `__dict__` in its order, the Fields given to `add_grid`, `completed`. Models: parcels/fieldset.py:34-48. -/
structure FS where
  attrs : List (Nat × Val)
  reg : List Nat
  completed : Bool
deriving DecidableEq, Repr

/-- `getattr`. Models: attribute access, parcels/fieldset.py:192, 221, 226, compilation/codegenerator.py:26-50. -/
def lookup (s : FS) (n : Nat) : Option Val := (s.attrs.find? fun p => decide (p.1 = n)).map (·.2)

/-- `hasattr`; `res` are the names every FieldSet has. Models: parcels/fieldset.py:146, 237, 244. -/
def has (res : Nat → Bool) (s : FS) (n : Nat) : Bool := res n || (lookup s n).isSome

/-- Assignment in a dictionary keeps the place of an existing key. Models: parcels/fieldset.py:149, 155, 162, 182, 955. -/
def put (d : List (Nat × Val)) (n : Nat) (v : Val) : List (Nat × Val) :=
  match d with
  | [] => [(n, v)]
  | p :: rest => if p.1 = n then (n, v) :: rest else p :: put rest n v

/-- `setattr`. Models: parcels/fieldset.py:149, 155, 162, 182, 955. -/
def setAttr (s : FS) (n : Nat) (v : Val) : FS := { s with attrs := put s.attrs n v }

/-- `field.name`, with which `add_field` is called if no name is given. Models: parcels/fieldset.py:145. -/
def Val.name (nm : Nat → Nat) : Val → Option Nat
  | .one (.field f) => some (nm f)
  | .one (.vector n _) => some n
  | .many _ n _ => some n
  | .const _ => none

/-- Why a call raises. Models: parcels/fieldset.py:144, 147, and the AttributeError of `field.grid` (parcels/gridset.py:15) for
VectorFields and constants. -/
inductive Err where
  | completed
  | taken
  | noGrid
deriving DecidableEq, Repr

/-- The loop over the members of a SummedField or NestedField. Models: parcels/fieldset.py:151-153, 156-158. -/
def regAll (s : FS) : List Item → Option Err × FS
  | [] => (none, s)
  | .field f :: rest => regAll { s with reg := s.reg ++ [f] } rest
  | .vector _ _ :: _ => (some .noGrid, s)

/-- `add_field(v, name)`. The exception, if any, and the FieldSet afterwards. Models: parcels/fieldset.py:143-164. -/
def addField (nm : Nat → Nat) (res : Nat → Bool) (s : FS) (v : Val) (name : Option Nat) : Option Err × FS :=
  if s.completed then (some .completed, s)
  else
    match name.orElse fun _ => v.name nm with
    | none => (some .noGrid, s)
    | some n =>
      if has res s n then (some .taken, s)
      else
        match v with
        | .one (.field f) => (none, { setAttr s n v with reg := s.reg ++ [f] })
        | .one (.vector _ _) => (some .noGrid, setAttr s n v)
        | .many nested k l => regAll (setAttr s n (.many nested (if nested then k else n) l)) l
        | .const _ => (some .noGrid, setAttr s n v)

/-- Appends what is not yet in the list. Models: parcels/fieldset.py:932-933. -/
def note (l : List Val) (v : Val) : List Val := if v ∈ l then l else l ++ [v]

/-- What one attribute adds in `get_fields`. Models: parcels/fieldset.py:930-939. -/
def gather (acc : List Val) (v : Val) : List Val :=
  match v with
  | .one i => note acc (.one i)
  | .many b k l => l.foldl (fun a i => note a (.one i)) (note acc (.many b k l))
  | .const _ => acc

/-- `get_fields`. Models: parcels/fieldset.py:926-940. -/
def getFields (s : FS) : List Val := s.attrs.foldl (fun acc p => gather acc p.2) []

/-- The loop over the components in `add_vector_field`. Models: parcels/fieldset.py:183-185. -/
def addComps (nm : Nat → Nat) (res : Nat → Bool) (s : FS) : List Nat → Option Err × FS
  | [] => (none, s)
  | f :: rest =>
    if Val.one (.field f) ∈ getFields s then addComps nm res s rest
    else
      match addField nm res s (.one (.field f)) none with
      | (none, s') => addComps nm res s' rest
      | (some e, s') => (some e, s')

/-- `add_vector_field(v)`; only a VectorField has its Fields in `__dict__`. Models: parcels/fieldset.py:177-189. -/
def addVector (nm : Nat → Nat) (res : Nat → Bool) (s : FS) (v : Val) : Option Err × FS :=
  match v.name nm with
  | none => (some .noGrid, s)
  | some n =>
    match v with
    | .one (.vector _ cs) => addComps nm res (setAttr s n v) cs
    | _ => (none, setAttr s n v)

/-- `add_constant`. Models: parcels/fieldset.py:942-955. -/
def addConstant (s : FS) (n c : Nat) : FS := setAttr s n (.const c)

/-- The members of a SummedField or NestedField of Fields. Models: parcels/field.py:1736-1753 (the assertions). -/
def fieldsOf : List Item → Option (List Nat)
  | [] => some []
  | .field f :: rest => (fieldsOf rest).map (f :: ·)
  | .vector _ _ :: _ => none

/-- The vector field made of velocities, under name `n`; member `i` gets the name `sub n i`.
Models: parcels/fieldset.py:237-250, parcels/field.py:1736-1753, 1797-1814. -/
def combine (sub : Nat → Nat → Nat) (n : Nat) (vels : List Val) : Option Val :=
  match vels with
  | [.one (.field u), .one (.field v)] => some (.one (.vector n [u, v]))
  | [.one (.field u), .one (.field v), .one (.field w)] => some (.one (.vector n [u, v, w]))
  | [.many b _ lu, .many _ _ lv] =>
    match fieldsOf lu, fieldsOf lv with
    | some us, some vs => some (.many b n ((us.zip vs).zipIdx.map fun p => .vector (sub n p.2) [p.1.1, p.1.2]))
    | _, _ => none
  | [.many b _ lu, .many _ _ lv, .many _ _ lw] =>
    match fieldsOf lu, fieldsOf lv, fieldsOf lw with
    | some us, some vs, some ws =>
      some (.many b n ((us.zip (vs.zip ws)).zipIdx.map fun p => .vector (sub n p.2) [p.1.1, p.1.2.1, p.1.2.2]))
    | _, _, _ => none
  | _ => none

/-- Adds the vector field `n` made of `vels`, unless there is one; `none`: an exception. Models: parcels/fieldset.py:237-250. -/
def ensureVector (nm : Nat → Nat) (res : Nat → Bool) (sub : Nat → Nat → Nat) (s : FS) (n : Nat) (vels : List Val) : Option FS :=
  if has res s n then some s
  else
    match combine sub n vels with
    | none => none
    | some v =>
      match addVector nm res s v with
      | (none, s') => some s'
      | (some _, _) => none

/-- The names of the velocities and of the vector fields made of them. Models: parcels/fieldset.py:192-193, 225, 237, 244. -/
structure Names where
  u : Nat
  v : Nat
  w : Nat
  uv : Nat
  uvw : Nat

/-- `check_complete`; `none`: an exception. Models: parcels/fieldset.py:191-196, 220-226, 237-250, 271. -/
def complete (nm : Nat → Nat) (res : Nat → Bool) (sub : Nat → Nat → Nat) (k : Names) (s : FS) : Option FS :=
  match lookup s k.u, lookup s k.v with
  | some u, some v =>
    if s.attrs.all fun p => match p.2 with
      | .one (.field f) => decide (nm f = p.1)
      | _ => true
    then
      match ensureVector nm res sub s k.uv [u, v] with
      | none => none
      | some s1 =>
        match lookup s1 k.w with
        | none => some { s1 with completed := true }
        | some w => (ensureVector nm res sub s1 k.uvw [u, v, w]).map fun s2 => { s2 with completed := true }
    else none
  | _, _ => none

end Parcels.Namespace
