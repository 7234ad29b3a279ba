import Verif.Model.Collection

/-!
Model of looping over a ParticleSet and of the accessor that stands for one particle
(parcels/particlesets/collectionsoa.py:205-249, 903-1022; parcels/particlesets/particlesetsoa.py:166-255;
parcels/particlesets/baseparticleset.py:51-69).

Simplifications: the variable `id` is only read; attribute names of the accessor object itself (`pcoll`,
`_index`, `_next_dt`, `delete`, `set_state`, `update_next_dt`) are not used as names of Variables.
-/

namespace Parcels.Access

open Collection

variable {V : Type}

/-- `particle.v`: `self.pcoll.data[name][self._index]`. Models: collectionsoa.py:922-931. -/
def getVar (c : Coll V) (i : ℤ) (v : String) : Except Err V :=
  match c.cols.lookup v with
  | none => .error .keyError
  | some col =>
    match npIndex col.length i with
    | none => .error .indexError
    | some k => match col[k]? with
      | none => .error .indexError
      | some x => .ok x

/-- `particle.id`. Models: collectionsoa.py:922-931. -/
def getID (c : Coll V) (i : ℤ) : Except Err ℤ :=
  match npIndex c.ids.length i with
  | none => .error .indexError
  | some k => match c.ids[k]? with
    | none => .error .indexError
    | some x => .ok x

/-- Assignment of entry `k` in the array with name `v`. Models: `self.pcoll.data[name][self._index] = value`
of collectionsoa.py:943. -/
def setEntry (v : String) (k : Nat) (x : V) (p : String × List V) : String × List V :=
  if p.1 = v then (p.1, p.2.set k x) else p

/-- `particle.v = x`: assignment to one entry of the array. Models: collectionsoa.py:933-943. -/
def setVar (c : Coll V) (i : ℤ) (v : String) (x : V) : Except Err (Coll V) :=
  match c.cols.lookup v with
  | none => .error .keyError
  | some col =>
    match npIndex col.length i with
    | none => .error .indexError
    | some k => .ok { c with cols := c.cols.map (setEntry v k x) }

/-- `particle.delete()`: the state becomes `OperationCode.Delete`. Models: iterators.py:66-68. -/
def delete (c : Coll V) (i : ℤ) (deleteCode : V) : Except Err (Coll V) := setVar c i "state" deleteCode

/-- The accessor: index and `_next_dt`. `update_next_dt(x)` only stores; `update_next_dt()` writes the stored value
to `dt` and forgets it. Models: collectionsoa.py:945-951. -/
def updateNextDt (c : Coll V) (i : ℤ) (stored : Option V) : Option V → Except Err (Coll V × Option V)
  | none => match stored with
    | none => .ok (c, none)
    | some x => match setVar c i "dt" x with
      | .error e => .error e
      | .ok c' => .ok (c', none)
  | some x => .ok (c, some x)

/-- A `ParticleCollectionIteratorSOA`: the indices, `max_len`, `_index`. Models: collectionsoa.py:962-1001. -/
structure Iter where
  indices : List ℤ
  maxLen : ℤ
  pos : Nat
deriving DecidableEq, Repr

/-- `range(n)` with the `n` of `len(pcoll)`. Models: collectionsoa.py:990. -/
def pyRange (n : ℤ) : List ℤ := (List.range n.toNat).map fun (k : Nat) => (k : ℤ)

/-- Creation of an iterator: all particles or a subset of indices, forward or backward. With a subset
and `reverse`, the indices are what `subset.reverse()` returns, which is None: `len` raises.
Models: collectionsoa.py:973-1001 (`len(pcoll)` is `_ncount`, collections.py:746-750). -/
def mkIter (c : Coll V) (reverse : Bool) : Option (List ℤ) → Except Err Iter
  | some s => if reverse then .error .typeError else .ok ⟨s, s.length, 0⟩
  | none =>
    if reverse then .ok ⟨(pyRange c.ncount).reverse, c.ncount, 0⟩
    else .ok ⟨pyRange c.ncount, c.ncount, 0⟩

/-- `__next__`: the index of the accessor that is returned; `none`: StopIteration. Models: collectionsoa.py:1003-1014. -/
def next (it : Iter) : Option (ℤ × Iter) :=
  if (it.pos : ℤ) < it.maxLen then
    match it.indices[it.pos]? with
    | some i => some (i, { it with pos := it.pos + 1 })
    | none => none
  else none

/-- `for p in it: body(p)`: `body` gets the accessor's index and may change anything, also the set; the
iterator does not see that. An exception ends the loop. The fuel is the number of entries that are left. Models: the Python
`for` statement over the iterator of collectionsoa.py:962-1014. -/
def forLoop {S : Type} (body : ℤ → S → Except Err S) : Nat → Iter → S → Except Err S
  | 0, _, s => .ok s
  | fuel + 1, it, s =>
    match next it with
    | none => .ok s
    | some (i, it') =>
      match body i s with
      | .error e => .error e
      | .ok s' => forLoop body fuel it' s'

/-- `for p in pset: body(p)` (or `reversed`, or over an indexed subset), where the body may use and change
the set `c` and other data `s` of the caller. Models: collectionsoa.py:205-216, baseparticleset.py:51-55,
particlesetsoa.py:192-194. -/
def loopOver {S : Type} (reverse : Bool) (subset : Option (List ℤ))
    (body : ℤ → Coll V × S → Except Err (Coll V × S)) (c : Coll V) (s : S) : Except Err (Coll V × S) :=
  match mkIter c reverse subset with
  | .error e => .error e
  | .ok it => forLoop body it.indices.length it (c, s)

/-- A statement `p.v = f(p.r₁, …, p.rₙ)` of a loop body. Models: a use of collectionsoa.py:922-943. -/
structure Assign (V : Type) where
  v : String
  reads : List String
  f : List V → V

/-- One such statement, through the accessor: first the reads, then the write. Models: collectionsoa.py:922-943. -/
def execAssign (i : ℤ) (a : Assign V) (c : Coll V) : Except Err (Coll V) :=
  match a.reads.mapM (getVar c i) with
  | .error e => .error e
  | .ok vals => setVar c i a.v (a.f vals)

/-- A loop body of such statements, executed in order. Models: collectionsoa.py:922-943. -/
def execBody (i : ℤ) : List (Assign V) → Coll V → Except Err (Coll V)
  | [], c => .ok c
  | a :: as, c =>
    match execAssign i a c with
    | .error e => .error e
    | .ok c' => execBody i as c'

/-- `pset.data_indices(v, values, invert)`: `np.where(np.isin(data[v], values, invert=invert))[0]`.
`eq` is numpy's comparison. Models: particlesetsoa.py:178-190. -/
def dataIndices (eq : V → V → Bool) (c : Coll V) (v : String) (values : List V) (invert : Bool) :
    Except Err (List ℤ) :=
  match c.cols.lookup v with
  | none => .error .keyError
  | some col => .ok (((List.range col.length).filter fun k =>
      match col[k]? with
      | none => false
      | some x => (values.any (eq x)) != invert).map fun (k : Nat) => (k : ℤ))

/-- `pset.error_particles`: the iterator over the particles whose state is neither Success nor Evaluate.
Models: particlesetsoa.py:226-233. -/
def errorIter (eq : V → V → Bool) (success evaluate : V) (c : Coll V) : Except Err Iter :=
  match dataIndices eq c "state" [success, evaluate] true with
  | .error e => .error e
  | .ok l => mkIter c false (some l)

/-- `pset.num_error_particles`. Models: particlesetsoa.py:235-243. -/
def numErrors (eq : V → V → Bool) (success evaluate : V) (c : Coll V) : Except Err Nat :=
  match c.cols.lookup "state" with
  | none => .error .keyError
  | some col => .ok (col.countP fun x => !([success, evaluate].any (eq x)))

/-! ### Attributes of the set -/

/-- Names that the class or the constructor of a ParticleSet defines: attribute access finds these before
any Variable. Models: baseparticleset.py:30-49, 72-304, particlesetsoa.py:78-551 (public names only). -/
def classNames : List String :=
  ["fieldset", "time_origin", "repeat_starttime", "repeatlon", "repeatlat", "repeatdepth", "repeatpclass",
   "repeatkwargs", "repeatdt", "repeatpid", "kernel", "collection", "cstruct", "ctypes_struct", "from_list", "from_line",
   "from_field", "from_particlefile", "monte_carlo_sample", "show", "density", "Kernel", "ParticleFile",
   "error_particles", "num_error_particles", "execute", "data_indices", "indexed_subset",
   "populate_indices", "to_dict", "size", "add", "remove_indices", "remove_booleanvector",
   "set_variable_write_status", "lonlatdepth_dtype_from_field_interp_method"]

/-- A ParticleSet: its collection and the attributes that the user set on it. Models: the instance dictionary of
particlesetsoa.py:78-158. -/
structure PSet (V : Type) where
  coll : Coll V
  attrs : List (String × List V)

/-- What reading an attribute gives. Models: the results of baseparticleset.py:57-69. -/
inductive Attr (V : Type) where
  /-- something that the class defines -/
  | builtin
  /-- an attribute that the user set -/
  | user (x : List V)
  /-- the array of a Variable -/
  | column (x : List V)
  /-- the Python value `False` -/
  | pyFalse
deriving DecidableEq

/-- `pset.name`: names of the class and the instance come first; only then `__getattr__` looks for a
Variable; any other name gives `False`. Models: baseparticleset.py:57-69, collectionsoa.py:227-236. -/
def psetGet (p : PSet V) (name : String) : Attr V :=
  if name ∈ classNames then .builtin
  else match p.attrs.lookup name with
    | some x => .user x
    | none => match p.coll.cols.lookup name with
      | some col => .column col
      | none => .pyFalse

/-- `pset.name = x`: there is no `__setattr__`, so the instance dictionary gets the value. Models: the absence of
`__setattr__` in baseparticleset.py and particlesetsoa.py (baseparticleset.py:28-69). -/
def psetSet (p : PSet V) (name : String) (x : List V) : PSet V :=
  { p with attrs := (name, x) :: p.attrs }

/-- `pset._set_particle_vector(name, x)`: all entries of the array. Models: particlesetsoa.py:160-166. -/
def setVector (p : PSet V) (name : String) (x : V) : Except Err (PSet V) :=
  match p.coll.cols.lookup name with
  | none => .error .keyError
  | some _ => .ok { p with coll := { p.coll with
      cols := p.coll.cols.map fun q => (q.1, if q.1 = name then q.2.map fun _ => x else q.2) } }

end Parcels.Access
