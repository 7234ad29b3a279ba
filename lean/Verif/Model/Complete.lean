import Mathlib.Algebra.BigOperators.Group.List.Basic

/-!
Model of the checks of the velocity fields of a FieldSet and of the vector fields made from them (`FieldSet.check_complete`, parcels/fieldset.py:191-252, `VectorField.__init__`,
parcels/field.py:1399-1420, `SummedField.__init__` and `NestedField.__init__`, field.py:1736-1753, 1797-1814).

Simplification: no vector field `UV` or `UVW` was added by hand. Errors are one value.
-/

namespace Parcels.Complete

/-- `interp_method`, as far as it matters here. Models: fieldset.py:199-204, field.py:1406-1416. -/
inductive Method where
  | cgrid
  | invdist
  | other
deriving DecidableEq

/-- `gridindexingtype`. Models: fieldset.py:210-218. -/
inductive Indexing where
  | nemo
  | mitgcm
  | mom5
  | pop
  | unknown
deriving DecidableEq

/-- `grid.gtype`. Models: fieldset.py:213, grid.py:20-24. -/
inductive GType where
  | rectZ
  | rectS
  | curvZ
  | curvS
deriving DecidableEq

/-- A field; `grid` stands for coordinates and times of its grid, `tag` for the rest. Models: field.py:1399-1420, fieldset.py:198-218 (the attributes used). -/
structure VF where
  method : Method
  indexing : Indexing
  gtype : GType
  xdim : Nat
  ydim : Nat
  grid : Nat
  tag : Nat
deriving DecidableEq

/-- `fieldset.U`: a Field, a SummedField or a NestedField. Models: fieldset.py:220-226. -/
inductive Vel where
  | single (f : VF)
  | summed (fs : List VF)
  | nested (fs : List VF)
deriving DecidableEq

/-- `check_velocityfields`: true if it does not raise. Models: fieldset.py:198-218. -/
def checkVel (u v : VF) (w : Option VF) : Bool :=
  if (u.method = .cgrid ∧ v.method ≠ .cgrid) ∨ (u.method ≠ .cgrid ∧ v.method = .cgrid) then false
  else if u.method = .invdist ∨ v.method = .invdist then false
  else if u.method = .cgrid ∧ (u.xdim = 1 ∨ u.ydim = 1 ∨ v.xdim = 1 ∨ v.ydim = 1) then false
  else if u.indexing = .unknown then false
  else if u.indexing = .mitgcm ∧ (u.gtype = .curvZ ∨ u.gtype = .curvZ) then false
  else if v.indexing ≠ u.indexing ∨ (∃ x, w = some x ∧ x.indexing ≠ u.indexing) then false
  else true

/-- `VectorField.__init__`: true if no assertion fails. Models: field.py:1406-1416. -/
def checkVector (u v : VF) (w : Option VF) : Bool :=
  if u.method = .cgrid then
    decide (v.method = .cgrid) && decide (u.grid = v.grid) &&
      (match w with
       | none => true
       | some x => decide (x.method = .cgrid) && decide (u.grid = x.grid))
  else true

/-- Kinds of fields. Models: fieldset.py:237-250. -/
inductive Kind where
  | single
  | summed
  | nested
deriving DecidableEq

/-- The vector fields of a complete FieldSet: their kind, the components of `UV` and, with `W`, those of `UVW`. Models: fieldset.py:237-250. -/
structure Vectors where
  kind : Kind
  uv : List (VF × VF)
  uvw : Option (List (VF × VF × VF))
deriving DecidableEq

/-- The components of a sum or a nest; a Field cannot be iterated over (TypeError). Models: fieldset.py:222 (`zip`). -/
def Vel.iter : Vel → Option (List VF)
  | .single _ => none
  | .summed fs => some fs
  | .nested fs => some fs

/-- `assert self.U`: an empty list is false. Models: fieldset.py:192-193. -/
def Vel.truthy : Vel → Bool
  | .single _ => true
  | .summed fs => !fs.isEmpty
  | .nested fs => !fs.isEmpty

/-- The vector fields for a sum or nest without W. Models: fieldset.py:220-223, 237-241, field.py:1743-1747, 1804-1808. -/
def list2 (k : Kind) (us vs : List VF) : Option Vectors :=
  let l := us.zip vs
  if (l.all fun t => checkVel t.1 t.2 none) && l.all fun t => checkVector t.1 t.2 none then some ⟨k, l, none⟩ else none

/-- The vector fields for a sum or nest with W. Models: fieldset.py:220-223, 237-241, 244-248, field.py:1743-1752, 1804-1813. -/
def list3 (k : Kind) (us vs ws : List VF) : Option Vectors :=
  let l := us.zip vs
  let m := us.zip (vs.zip ws)
  if (m.all fun t => checkVel t.1 t.2.1 (some t.2.2)) && (l.all fun t => checkVector t.1 t.2 none) &&
      m.all fun t => checkVector t.1 t.2.1 (some t.2.2) then some ⟨k, l, some m⟩
  else none

/-- U is a sum or nest with the components `us`. Models: fieldset.py:220-223, 237-241, 244-248. -/
def listCase (k : Kind) (us : List VF) (V : Vel) : Option Vel → Option Vectors
  | none => V.iter.bind fun vs => list2 k us vs
  | some W => V.iter.bind fun vs => W.iter.bind fun ws => list3 k us vs ws

/-- U is a single field; the components of the other ones have to be single fields (AttributeError). Models: fieldset.py:224-226, 242-243, 249-250. -/
def singleCase (u : VF) : Vel → Option Vel → Option Vectors
  | .single v, none => if checkVel u v none && checkVector u v none then some ⟨.single, [(u, v)], none⟩ else none
  | .single v, some (.single w) =>
    if checkVel u v (some w) && checkVector u v none && checkVector u v (some w) then some ⟨.single, [(u, v)], some [(u, v, w)]⟩ else none
  | _, _ => none

/-- `check_complete` for the velocities; `none` is an exception. Models: fieldset.py:191-193, 198-226, 237-250. -/
def checkComplete (U V : Vel) (W : Option Vel) : Option Vectors :=
  if U.truthy && V.truthy then
    match U with
    | .summed us => listCase .summed us V W
    | .nested us => listCase .nested us V W
    | .single u => singleCase u V W
  else none

/-- The value of a summed `UV` at a place where component `f` has the value `s f` (field.py:1755-1767; errors are C35). -/
def sumUV {K : Type} [Add K] [Zero K] (s : VF → K) (l : List (VF × VF)) : K × K := ((l.map fun p => s p.1).sum, (l.map fun p => s p.2).sum)

/-- The same for `UVW`. Models: field.py:1755-1767. -/
def sumUVW {K : Type} [Add K] [Zero K] (s : VF → K) (l : List (VF × VF × VF)) : K × K × K :=
  ((l.map fun p => s p.1).sum, (l.map fun p => s p.2.1).sum, (l.map fun p => s p.2.2).sum)

end Parcels.Complete
