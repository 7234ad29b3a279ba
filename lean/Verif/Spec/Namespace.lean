import Verif.Model.Namespace

/-!
Vocabulary for C90: what can be done with a FieldSet before it is used, and which Fields a kernel can sample through it.
-/

namespace Parcels.Namespace

/-- Calls on a FieldSet. -/
inductive Op where
  | addField (v : Val) (name : Option Nat)
  | addVector (v : Val)
  | addConstant (n c : Nat)
  | complete
deriving DecidableEq, Repr

/-- What is fixed: names of Fields, names that every FieldSet has, names of members, names of velocities. -/
structure Env where
  nm : Nat → Nat
  res : Nat → Bool
  sub : Nat → Nat → Nat
  k : Names

/-- Does the call raise an exception? -/
def raises (e : Env) (s : FS) : Op → Bool
  | .addField v name => (addField e.nm e.res s v name).1.isSome
  | .addVector v => (addVector e.nm e.res s v).1.isSome
  | .addConstant _ _ => false
  | .complete => (complete e.nm e.res e.sub e.k s).isNone

/-- The FieldSet after the call, whether or not it raised an exception. (Exceptions of `check_complete`: as before the call.) -/
def step (e : Env) (s : FS) : Op → FS
  | .addField v name => (addField e.nm e.res s v name).2
  | .addVector v => (addVector e.nm e.res s v).2
  | .addConstant n c => addConstant s n c
  | .complete => (complete e.nm e.res e.sub e.k s).getD s

def run (e : Env) (s : FS) (ops : List Op) : FS := ops.foldl (step e) s

/-- A new FieldSet. -/
def start : FS := ⟨[], [], false⟩

/-- The Fields behind a Field or VectorField. -/
def Item.fields : Item → List Nat
  | .field f => [f]
  | .vector _ cs => cs

/-- The Fields that are read when a kernel samples an attribute. -/
def Val.fields : Val → List Nat
  | .one i => i.fields
  | .many _ _ l => l.flatMap Item.fields
  | .const _ => []

/-- A Field, or a SummedField or NestedField of Fields: what `add_field` is for. -/
def Val.Scalar : Val → Prop
  | .one (.field _) => True
  | .many _ _ l => ∀ i ∈ l, ∃ f, i = .field f
  | _ => False

instance (v : Val) : Decidable (Val.Scalar v) :=
  match v with
  | .one (.field _) => isTrue trivial
  | .one (.vector _ _) => isFalse (fun h => h)
  | .const _ => isFalse (fun h => h)
  | .many _ _ l =>
    if h : l.all (fun i => match i with | .field _ => true | _ => false) = true then
      isTrue (fun i hi => by
        have := List.all_eq_true.mp h i hi
        cases i with
        | field f => exact ⟨f, rfl⟩
        | vector n cs => simp at this)
    else isFalse (fun hs => h (List.all_eq_true.mpr (fun i hi => by obtain ⟨f, rfl⟩ := hs i hi; rfl)))

/-- Calls as they are meant: `add_field` with Fields or lists of Fields (raising or not); `add_vector_field` with a VectorField, if it
does not raise. -/
def Meant (e : Env) (s : FS) : Op → Prop
  | .addField v _ => v.Scalar
  | .addVector v => (∃ n cs, v = .one (.vector n cs)) ∧ raises e s (.addVector v) = false
  | _ => True

/-- All calls of a program are meant so. -/
def AllMeant (e : Env) : FS → List Op → Prop
  | _, [] => True
  | s, op :: ops => Meant e s op ∧ AllMeant e (step e s op) ops

/-- Calls that put something under the name `n` whatever is there. -/
def Overwrites (e : Env) (n : Nat) : Op → Prop
  | .addVector v => v.name e.nm = some n
  | .addConstant m _ => m = n
  | _ => False

end Parcels.Namespace
