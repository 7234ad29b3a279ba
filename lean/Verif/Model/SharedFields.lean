import Mathlib.Data.Rat.Defs
import Mathlib.Data.List.Basic

/-!
Model of Fields, Grids and FieldSets as Python objects that refer to each other: what happens to a Field that is put into
more than one FieldSet.

Identities of objects are positions in lists. Simplifications: all coordinates of a grid but its times are one number,
compared exactly (tolerances are in `Model/GridSet`); no `chunksize`; dates are numbers of seconds; loading is not deferred.
A SummedField or NestedField is the list of its members, added one after the other (parcels/fieldset.py:149-158).
-/

namespace Parcels.SharedFields

/-- A Grid: its coordinates, `time`, `time_origin`. Models: parcels/grid.py:37-68. -/
structure G where
  coords : Nat
  time : List ℚ
  origin : ℚ
deriving DecidableEq, Repr

/-- A Field: `field.grid`, `field.igrid` (`none` is -1), `field.fieldset`.
Models: parcels/field.py:104-108, parcels/gridset.py:42-46, parcels/fieldset.py:164. -/
structure F where
  grid : Nat
  igrid : Option Nat
  home : Option Nat
deriving DecidableEq, Repr

/-- A FieldSet: `gridset.grids`, its fields, `time_origin`, `completed`. Models: parcels/fieldset.py:34-48. -/
structure S where
  grids : List Nat
  members : List Nat
  origin : Option ℚ
  completed : Bool
deriving DecidableEq, Repr

/-- All objects. Models: the references between them, parcels/fieldset.py:34-48, parcels/gridset.py:12-46. -/
structure W where
  grids : List G
  fields : List F
  sets : List S
deriving DecidableEq, Repr

/-- Grid `h` of the set can be used for grid `g`: it is the same object, or origin, coordinates and times are the same.
Models: parcels/gridset.py:20-31. -/
def same (gs : List G) (h g : Nat) : Bool :=
  decide (h = g) ||
    match gs[h]?, gs[g]? with
    | some a, some b => decide (a.origin = b.origin) && (decide (a.coords = b.coords) && decide (a.time = b.time))
    | _, _ => false

/-- `GridSet.add_grid`: the grids of the set afterwards, and the field's grid. Models: parcels/gridset.py:14-45. -/
def addGrid (gs : List G) (set : List Nat) (g : Nat) : List Nat × Nat :=
  match set.find? fun h => same gs h g with
  | some h => (set, h)
  | none => (set ++ [g], g)

/-- `FieldSet(U, V)` without fields yet. Models: parcels/fieldset.py:34-36. -/
def newSet (w : W) : W := { w with sets := w.sets ++ [⟨[], [], none, false⟩] }

/-- `add_field`; the first field of a FieldSet (U) gives it its origin. `none`: refused.
Models: parcels/fieldset.py:37-46, 143-164, parcels/gridset.py:14-46. -/
def addField (w : W) (s f : Nat) : Option W :=
  match w.sets[s]?, w.fields[f]? with
  | some st, some fl =>
    if st.completed then none
    else
      let r := addGrid w.grids st.grids fl.grid
      some { w with
        sets := w.sets.set s { st with
          grids := r.1
          members := st.members ++ [f]
          origin := st.origin.orElse fun _ => (w.grids[r.2]?).map (·.origin) }
        fields := w.fields.set f ⟨r.2, some (r.1.idxOf r.2), some s⟩ }
  | _, _ => none

/-- One grid in `check_complete`. Models: parcels/fieldset.py:230-236. -/
def shiftTo (o : ℚ) (g : G) : G :=
  if g.time.length = 1 then g else { g with time := g.time.map (· + (g.origin - o)), origin := o }

/-- `check_complete`, as far as it changes grids. `none`: there is no field. Models: parcels/fieldset.py:191-192, 228-236, 271. -/
def complete (w : W) (s : Nat) : Option W :=
  match w.sets[s]? with
  | some st =>
    match st.origin with
    | some o => some { w with
        grids := w.grids.zipIdx.map fun p => if p.2 ∈ st.grids then shiftTo o p.1 else p.1
        sets := w.sets.set s { st with completed := true } }
    | none => none
  | none => none

/-- Entry of the index arrays `xi`, `yi`, `zi`, `ti` for particle `p` and the grid `igrid`, where the FieldSet of the
particles has `ngrid` grids. Models: parcels/include/parcels.h:483-509, parcels/field.py:1106-1109, 1679-1692 (`&particles->xi[pnum*ngrid]`),
particlesets/collectionsoa.py:143-145. -/
def entry (ngrid p igrid : Nat) : Nat := p * ngrid + igrid

end Parcels.SharedFields
