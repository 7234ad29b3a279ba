import Verif.Model.TimeChunk

/-!
Model of depths that are given by a field: `Field.set_depth_from_field`, the slot `grid.depth_field`, and the two places where the depths of a grid
are replaced by the data of that field (`FieldSet.check_complete` and `FieldSet.computeTimeChunk`).

Simplifications: an array in memory is represented by the snapshots (indices in the whole series) of the field that it holds; which snapshots are
loaded is Model/TimeChunk; requests that raise an exception end the history.
-/

namespace Parcels.DepthFields
open Parcels.TimeChunk

/-- `grid.depth_field`. Models: grid.py:68; field.py:190, 356, 563. -/
inductive Src where
  | none
  | notYetSet
  | field (j : Nat)
deriving DecidableEq, Repr

/-- `grid.depth`: as given when the grid was created (`given`; an array without entries for 'not_yet_set'), or the snapshots of field `j`, or (if the
data of field `j` are not there yet) no numbers at all. Models: grid.py:366-378; fieldset.py:269-270, 1158-1159. -/
inductive Depth where
  | given
  | snaps (j : Nat) (l : List Nat)
  | noNumbers
deriving DecidableEq, Repr

/-- The times of a grid: all in memory, or loaded when needed. Models: field.py:390-391, 436-440. -/
inductive Times where
  | all (times : List ℚ)
  | deferred (fl : Flags) (g : DG)
deriving DecidableEq, Repr

/-- A grid. Models: grid.py:37-68. -/
structure GridS where
  times : Times
  src : Src
  depth : Depth
deriving DecidableEq, Repr

/-- A field: its grid, and whether it has files (`dataFiles is not None`). Models: field.py:181. -/
structure FieldS where
  grid : Nat
  files : Bool
deriving DecidableEq, Repr

/-- A FieldSet: the fields in the order of `get_fields`, and the grids. Models: fieldset.py:38-46. -/
structure FSet where
  fields : List FieldS
  grids : List GridS
deriving DecidableEq, Repr

/-- Field `i`. Models: fieldset.py:97-113 (`get_fields`). -/
def FSet.field (S : FSet) (i : Nat) : FieldS := S.fields.getD i ⟨0, false⟩

/-- Grid `k`. Models: gridset.py:8-12. -/
def FSet.grid (S : FSet) (k : Nat) : GridS := S.grids.getD k ⟨.all [], .none, .given⟩

/-- Change grid `k`. Models: attribute assignment on a grid, field.py:190, 563-565. -/
def FSet.modify (S : FSet) (k : Nat) (f : GridS → GridS) : FSet := { S with grids := S.grids.modify k f }

/-- The snapshots in `field.data`; `none`: no data yet (`DeferredArray`). Models: fieldset.py:1044-1123; field.py:436-440. -/
def FSet.data (S : FSet) (j : Nat) : Option (List Nat) :=
  match (S.grid (S.field j).grid).times with
  | .all T => some (List.range T.length)
  | .deferred _ g =>
    if (S.field j).files then (if g.ti = -1 then none else some [g.mem.1, g.mem.2]) else some (List.range g.full.length)

/-- The constructor of a field on an existing grid overwrites the slot. Models: field.py:190. -/
def FSet.addField (S : FSet) (k : Nat) (files notYetSet : Bool) : FSet :=
  { S.modify k (fun g => { g with src := if notYetSet then .notYetSet else .none }) with fields := S.fields ++ [⟨k, files⟩] }

/-- `fields[i].set_depth_from_field(fields[j])`. Models: field.py:556-565. -/
def FSet.setDepth (S : FSet) (i j : Nat) : FSet :=
  let S1 := S.modify (S.field i).grid fun g => { g with src := .field j }
  if (S.field i).grid = (S.field j).grid then S1 else S1.modify (S.field j).grid fun g => { g with src := .field j }

/-- `f.grid.depth = depth_field.data`. Models: fieldset.py:269-270, 1158-1159. -/
def FSet.copyDepth (S : FSet) (k j : Nat) : FSet :=
  S.modify k fun g => { g with depth := match S.data j with | some l => .snaps j l | none => .noNumbers }

/-- Whether times of the grid are loaded when needed. Models: grid.py:64 (`defer_load`). -/
def Times.isDeferred : Times → Bool
  | .all _ => false
  | .deferred _ _ => true

/-- The loop at the end of `check_complete`; `none`: ValueError. Models: fieldset.py:262-270. -/
def FSet.completeLoop (S : FSet) : List FieldS → Option FSet
  | [] => some S
  | f :: rest =>
    if f.files = false then S.completeLoop rest
    else
      match (S.grid f.grid).src with
      | .none => S.completeLoop rest
      | .notYetSet => none
      | .field j => if (S.grid f.grid).times.isDeferred then S.completeLoop rest else (S.copyDepth f.grid j).completeLoop rest

/-- `check_complete`, as far as the depths are concerned. Models: fieldset.py:262-271. -/
def FSet.complete (S : FSet) : Option FSet := S.completeLoop S.fields

/-- The snapshots of all grids for time `t` are loaded; `none`: an exception. Models: fieldset.py:1031-1123; grid.py:188-234. -/
def loadGrids (t : ℚ) (s : ℤ) : List GridS → Option (List GridS)
  | [] => some []
  | g :: rest =>
    match g.times with
    | .all _ => (loadGrids t s rest).map (g :: ·)
    | .deferred fl d =>
      match gridChunk fl d t s with
      | .error _ => none
      | .ok (d', nx) => if nx = some t ∧ s ≠ 0 then none else (loadGrids t s rest).map ({ g with times := .deferred fl d' } :: ·)

/-- The loop at the end of `computeTimeChunk`; `none`: `'not_yet_set'.data` is an AttributeError. Models: fieldset.py:1153-1159. -/
def FSet.depthLoop (S : FSet) : List FieldS → Option FSet
  | [] => some S
  | f :: rest =>
    if f.files = false ∨ (S.grid f.grid).times.isDeferred = false then S.depthLoop rest
    else
      match (S.grid f.grid).src with
      | .none => S.depthLoop rest
      | .notYetSet => none
      | .field j => (S.copyDepth f.grid j).depthLoop rest

/-- `FieldSet.computeTimeChunk`, as far as the depths are concerned; the sign of dt is `s`. Models: fieldset.py:1017-1159. -/
def FSet.request (S : FSet) (t : ℚ) (s : ℤ) : Option FSet :=
  match loadGrids t s S.grids with
  | none => none
  | some gs => { S with grids := gs }.depthLoop S.fields

end Parcels.DepthFields
