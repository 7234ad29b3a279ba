import Verif.Model.Collection

/-!
Several ParticleSets in one process: which sets share their data dictionary.

`add_same` on an empty set assigns `self._data = same_class._data`
(parcels/particlesets/collectionsoa.py:426-429): from then on the two sets hold the same
dictionary object. All other operations assign entries of that dictionary (`self._data[d] = ...`,
collectionsoa.py:435, 440, 558, 645), so they are seen through both sets.
-/

namespace Parcels.SharedData
open Parcels.Collection

/-- A data dictionary: ID array and the other arrays. Models: particlesets/collectionsoa.py:140-174. -/
structure Data (V : Type) where
  ids : List ℤ
  cols : List (String × List V)
deriving DecidableEq

/-- One set: which dictionary it holds, `_ncount`, `_sorted`. Models: particlesets/collectionsoa.py:81, 140, 149. -/
structure Ref where
  addr : Nat
  ncount : ℤ
  sorted : Bool
deriving DecidableEq

/-- All dictionaries of the process, and its sets. Models: the dictionaries made at particlesets/collectionsoa.py:140. -/
structure World (V : Type) where
  heap : List (Data V)
  sets : List Ref
deriving DecidableEq

/-- What set number `a` looks like. Models: particlesets/collectionsoa.py:140-149. -/
def view {V : Type} (w : World V) (a : Nat) : Option (Coll V) :=
  match w.sets[a]? with
  | none => none
  | some r =>
    match w.heap[r.addr]? with
    | none => none
    | some d => some { ids := d.ids, cols := d.cols, ncount := r.ncount, sorted := r.sorted }

/-- Construction: a new dictionary. Models: collectionsoa.py:141-160. -/
def new {V : Type} (w : World V) (c : Coll V) : World V :=
  { heap := w.heap ++ [{ ids := c.ids, cols := c.cols }]
    sets := w.sets ++ [{ addr := w.heap.length, ncount := c.ncount, sorted := c.sorted }] }

/-- Write back the result `c` of an operation on set `a` into the dictionary that `a` holds. Models: particlesets/collectionsoa.py:434-443, 644-647. -/
def store {V : Type} (w : World V) (a : Nat) (r : Ref) (c : Coll V) : World V :=
  { heap := w.heap.set r.addr { ids := c.ids, cols := c.cols }
    sets := w.sets.set a { addr := r.addr, ncount := c.ncount, sorted := c.sorted } }

/-- `set_a += set_b`. Models: collectionsoa.py:415-443. -/
def add {V : Type} (w : World V) (a b : Nat) : World V :=
  match w.sets[a]?, w.sets[b]?, view w a, view w b with
  | some ra, some rb, some ca, some cb =>
    if rb.ncount = 0 then w
    else if ra.ncount = 0 then
      { w with sets := w.sets.set a { addr := rb.addr, ncount := rb.ncount, sorted := ra.sorted } }
    else store w a ra (addSame ca cb).1
  | _, _, _, _ => w

/-- Removal of particles of set `a` by index. Models: collectionsoa.py:634-647. -/
def remove {V : Type} (w : World V) (a : Nat) (idx : List ℤ) : World V :=
  match w.sets[a]?, view w a with
  | some ra, some ca =>
    match removeMulti ca idx with
    | .ok c => store w a ra c
    | .error _ => w
  | _, _ => w

/-- One operation of the program on its sets. Models: particlesets/collectionsoa.py:70-197, 415-443, 634-647. -/
inductive Op (V : Type) where
  | new (c : Coll V)
  | add (a b : Nat)
  | remove (a : Nat) (idx : List ℤ)

/-- Effect of one operation. Models: particlesets/collectionsoa.py:70-197, 415-443, 634-647. -/
def step {V : Type} (w : World V) : Op V → World V
  | .new c => new w c
  | .add a b => add w a b
  | .remove a idx => remove w a idx

/-- Effect of a history, from a process without sets. Models: particlesets/collectionsoa.py:70-197, 415-443, 634-647, called several times. -/
def run {V : Type} (ops : List (Op V)) : World V := ops.foldl step { heap := [], sets := [] }

end Parcels.SharedData
