import Verif.Model.Collection

/-!
Model of the generic access methods of a particle collection (`pset.collection.get`, `.remove`,
`.delete`, `.pop`, `-` and `-=`): how the type of the argument decides what is done
(parcels/particlesets/collections.py and collectionsoa.py). The specific methods to which the calls
are forwarded are those of `Verif.Model.Collection`.
-/

namespace Parcels.Dispatch

open Parcels.Collection

/-- Integer types an argument can have. Models: the types named in collections.py:133-151. -/
inductive Kind where
  /-- Python `int` -/
  | py
  /-- `np.int32` -/
  | i32
  /-- `np.int64`, the type of particle IDs (particle.py:183) -/
  | i64
  /-- `np.uint64` -/
  | u64
deriving DecidableEq, Repr

/-- `type(x) in [int, np.int32, np.intp]`. `w`: whether `np.intp` is `np.int64` (64-bit platforms)
or `np.int32`. Models: collections.py:133, 142, 148, 381, 446, 455, 461, 596, 605, 612. -/
def isIndex (w : Bool) : Kind → Bool
  | .py => true
  | .i32 => true
  | .i64 => w
  | .u64 => false

/-- `type(x) in [np.int64, np.uint64]`. Models: collections.py:135, 144, 150, 383, 448, 457, 463, 598, 607, 614. -/
def isID : Kind → Bool
  | .i64 => true
  | .u64 => true
  | _ => false

/-- An argument. Simplifications: the elements of a list, array or dict all have the same type (as in
a numpy array; the code looks at the first only), and the values of a dict are given as a list.
Models: the arguments of collections.py:112, 369, 408, 423, 582. -/
inductive Arg where
  | none
  /-- a `ParticleCollectionSOA` -/
  | same
  /-- a collection of another class -/
  | other
  /-- a number -/
  | num (k : Kind) (i : ℤ)
  /-- a list, array or dict of integers -/
  | arr (k : Kind) (l : List ℤ)
  /-- a particle (accessor) with this ID -/
  | particle (id : ℤ)
  /-- a list, array or dict of `n` particles or other objects -/
  | objs (n : Nat)
  /-- anything else: floats, strings, ... -/
  | thing
deriving DecidableEq, Repr

/-- Exceptions. Models: the exceptions of collections.py:112-668 and collectionsoa.py:238-730. -/
inductive Exc where
  | err (e : Err)
  | assertion
  | notImplemented
  | typeError
deriving DecidableEq, Repr

/-- Exceptions of the specific methods, as exceptions of the generic ones. Models: the calls in collections.py:125-153, 438-466. -/
def lift {α : Type} : Except Err α → Except Exc α
  | .ok a => .ok a
  | .error e => .error (.err e)

/-- What `get` returns. Models: the values returned by collections.py:112-153. -/
inductive Got where
  | none
  /-- an accessor for the particle at this index (which is not checked) -/
  | one (i : ℤ)
  /-- an iterator over the particles at these indices -/
  | many (l : List ℤ)
deriving DecidableEq, Repr

/-- `get_single_by_ID`. Models: collectionsoa.py:269-291. -/
def getByID {V : Type} (c : Coll V) (id : ℤ) : Except Exc Got :=
  match indexOfID c id with
  | .error e => .error (.err e)
  | .ok k => .ok (.one k)

/-- `get_multi_by_IDs`, of a list that is not empty. Models: collectionsoa.py:334-362. -/
def getByIDs {V : Type} (c : Coll V) (l : List ℤ) : Except Exc Got :=
  match getMulti c l with
  | .error e => .error (.err e)
  | .ok r => .ok (.many (r.map fun (i : Nat) => (i : ℤ)))

/-- `get`. Models: collections.py:112-153, collectionsoa.py:238-332. -/
def get {V : Type} (w : Bool) (c : Coll V) : Arg → Except Exc Got
  | .none => .ok .none
  | .same => .error .notImplemented
  | .other => .error .notImplemented
  | .arr k l =>
    if l = [] then .ok .none
    else if isIndex w k then .ok (.many l)
    else if isID k then getByIDs c l
    else .error .notImplemented
  | .objs n => if n = 0 then .ok .none else .error .notImplemented
  | .num k i =>
    if isIndex w k then .ok (.one i)
    else if isID k then getByID c i
    else .error .assertion
  | .particle id => getByID c id
  | .thing => .error .assertion

/-- `remove`. The set after the call. Models: collections.py:423-466, collectionsoa.py:544-671. -/
def remove {V : Type} (w : Bool) (c : Coll V) : Arg → Except Exc (Coll V)
  | .none => .ok c
  | .same => .error .notImplemented
  | .other => .error .notImplemented
  | .arr k l =>
    if l = [] then .ok c
    else if isIndex w k then lift (removeMulti c l)
    else if isID k then lift (removeByIDs c l)
    else .error .notImplemented
  | .objs n => if n = 0 then .ok c else .error .notImplemented
  | .num k i =>
    if isIndex w k then lift (removeSingle c i)
    else if isID k then lift (removeByID c i)
    else .error .assertion
  | .particle id => lift (removeByID c id)
  | .thing => .error .assertion

/-- `delete_by_index`: `mark` (`OperationCode.Delete`) is written to the `state` array.
Models: collectionsoa.py:510-520. -/
def deleteByIndex {V : Type} (c : Coll V) (mark : V) (i : ℤ) : Except Err (Coll V) :=
  match npIndex c.ids.length i with
  | none => .error .indexError
  | some k => .ok { c with cols := c.cols.map fun p => (p.1, if p.1 = "state" then p.2.set k mark else p.2) }

/-- `delete`: only numbers are looked at, everything else does nothing.
Models: collections.py:369-384, collectionsoa.py:510-542. -/
def delete {V : Type} (w : Bool) (c : Coll V) (mark : V) : Arg → Except Exc (Coll V)
  | .num k i =>
    if isIndex w k then lift (deleteByIndex c mark i)
    else if isID k then lift (deleteByID c mark i)
    else .ok c
  | _ => .ok c

/-- `a - b`: the set `a` after it; the value of the expression is `None`.
Models: collections.py:408-421. -/
def sub {V : Type} (c : Coll V) : Arg → Except Exc (Coll V)
  | .same => .error .notImplemented
  | .other => .error .notImplemented
  | _ => .ok c

/-- `a -= b`: what the variable `a` holds afterwards (`none`: `None`).
Models: collectionsoa.py:673-691. -/
def isub {V : Type} (c : Coll V) : Arg → Except Exc (Option (Coll V))
  | .none => .ok none
  | .same => .error .notImplemented
  | .particle id =>
    match removeByID c id with
    | .error e => .error (.err e)
    | .ok c' => .ok (some c')
  | _ => .error .typeError

/-- `pop`: the set afterwards; the value returned is always `None`. Models: collections.py:582-615, collectionsoa.py:693-730. -/
def pop {V : Type} (w : Bool) (c : Coll V) : Arg → Except Exc (Coll V)
  | .num k _ => if isIndex w k then .error .notImplemented else if isID k then .error .notImplemented else .ok c
  | .arr k l =>
    if l = [] then .ok c
    else if isIndex w k then .error .notImplemented else if isID k then .error .notImplemented else .ok c
  | _ => .ok c

end Parcels.Dispatch
