import Verif.Model.Base
import Mathlib.Data.List.Sort

/-!
Model of the structure-of-arrays particle collection
(parcels/particlesets/collectionsoa.py) and of the operations of `ParticleSetSOA` built on it.

A collection holds one array per variable. The array of IDs is kept apart from the other arrays
because IDs are integers; `cols` are all others (including `exception`). Entries are of an arbitrary
type `V`; two-dimensional arrays (xi, yi, zi, ti) are columns of rows.
-/

namespace Parcels.Collection

/-- Python exceptions that the modelled functions can raise. Models: the exceptions of particlesets/collectionsoa.py:68-760 and of numpy. -/
inductive Err where
  | indexError
  | valueError
  | keyError
  | runtimeError
  | typeError
deriving DecidableEq, Repr

/-- A `ParticleCollectionSOA`: ID array, other arrays by name, `_ncount`, `_sorted`.
Models: parcels/particlesets/collectionsoa.py:70-162. -/
structure Coll (V : Type) where
  ids : List ℤ
  cols : List (String × List V)
  ncount : ℤ
  sorted : Bool
deriving DecidableEq

/-- `np.all(np.diff(pid) >= 0)`. Models: collectionsoa.py:81. -/
def diffsNonneg : List ℤ → Bool
  | [] => true
  | [_] => true
  | a :: b :: l => decide (a ≤ b) && diffsNonneg (b :: l)

/-- `np.max(pid) if len(pid) > 0 else -1`. Models: collectionsoa.py:98. -/
def maxOr : List ℤ → ℤ
  | [] => -1
  | a :: l => l.foldl max a

/-- Construction of a collection without MPI: IDs are `pid_orig + lastID`; the class counter becomes
`offset + 1`. Result: collection and new counter.
Models: collectionsoa.py:76-162. -/
def construct {V : Type} (lastID : ℤ) (pidOrig : List ℤ) (cols : List (String × List V)) :
    Coll V × ℤ :=
  let pid := pidOrig.map (· + lastID)
  ({ ids := pid, cols := cols, ncount := pid.length, sorted := diffsNonneg pid }, maxOr pid + 1)

/-- `np.arange(n)`: the default `pid_orig` (particlesetsoa.py:91-92). -/
def arange (n : Nat) : List ℤ := (List.range n).map fun (i : Nat) => (i : ℤ)

/-- A numpy index (possibly negative) for an array of length `n`; `none`: IndexError. Models: indexing in collectionsoa.py:557, 645, 922-943. -/
def npIndex (n : Nat) (i : ℤ) : Option Nat :=
  if 0 ≤ i ∧ i < n then some i.toNat
  else if -(n : ℤ) ≤ i ∧ i < 0 then some (i + n).toNat
  else none

/-- Positions that `np.delete` keeps in an array of length `n`. Models: collectionsoa.py:557, 645. -/
def survivors (n : Nat) (del : List Nat) : List Nat := (List.range n).filter fun i => i ∉ del

/-- `np.delete(l, del, axis=0)` for valid indices. Models: collectionsoa.py:384, 557, 645. -/
def npDelete {α : Type} (del : List Nat) (l : List α) : List α :=
  (survivors l.length del).filterMap fun i => l[i]?

/-- `remove_multi_by_indices`. An out-of-range index raises before anything is assigned.
Models: collectionsoa.py:634-647. -/
def removeMulti {V : Type} (c : Coll V) (idx : List ℤ) : Except Err (Coll V) :=
  match idx.mapM (npIndex c.ids.length) with
  | none => .error .indexError
  | some del =>
    .ok { c with
      ids := npDelete del c.ids
      cols := c.cols.map fun p => (p.1, npDelete del p.2)
      ncount := c.ncount - idx.length }

/-- `remove_single_by_index`. Models: collectionsoa.py:544-559. -/
def removeSingle {V : Type} (c : Coll V) (i : ℤ) : Except Err (Coll V) :=
  match npIndex c.ids.length i with
  | none => .error .indexError
  | some k =>
    .ok { c with
      ids := npDelete [k] c.ids
      cols := c.cols.map fun p => (p.1, npDelete [k] p.2)
      ncount := c.ncount - 1 }

/-- `remove_booleanvector`: `np.where(v)[0]`, then removal by indices.
Models: parcels/particlesets/particlesetsoa.py:458-460. -/
def removeBool {V : Type} (c : Coll V) (v : List Bool) : Except Err (Coll V) :=
  removeMulti c (((List.range v.length).filter fun i => v.getD i false).map fun (i : Nat) => (i : ℤ))

/-- `bisect.bisect_left(l, x)` on `l[lo:hi]` bounds: the standard library loop. `fuel ≥ hi - lo`. Models: collectionsoa.py:4, 285, 373, 535, 591. -/
def bisectLoop (l : List ℤ) (x : ℤ) : Nat → Nat → Nat → Nat
  | 0, lo, _ => lo
  | fuel + 1, lo, hi =>
    if lo < hi then
      let mid := (lo + hi) / 2
      if l.getD mid 0 < x then bisectLoop l x fuel (mid + 1) hi
      else bisectLoop l x fuel lo mid
    else lo

/-- `bisect_left(l, x)`. Models: collectionsoa.py:4, 285, 373, 535, 591. -/
def bisectLeft (l : List ℤ) (x : ℤ) : Nat := bisectLoop l x l.length 0 l.length

/-- Index of the particle with a given ID: binary search if `_sorted`, else
`np.where(ids == id)[0][0]`. Used by `get_single_by_ID`, `delete_by_ID`, `remove_single_by_ID`.
Models: collectionsoa.py:283-291, 533-542, 589-598. -/
def indexOfID {V : Type} (c : Coll V) (id : ℤ) : Except Err Nat :=
  if c.sorted then
    let k := bisectLeft c.ids id
    if k = c.ids.length ∨ c.ids.getD k 0 ≠ id then .error .valueError else .ok k
  else
    match (List.range c.ids.length).filter fun i => c.ids.getD i 0 = id with
    | [] => .error .indexError
    | k :: _ => .ok k

/-- `remove_single_by_ID` (and `pset -= particle`). Models: collectionsoa.py:577-598. -/
def removeByID {V : Type} (c : Coll V) (id : ℤ) : Except Err (Coll V) :=
  match indexOfID c id with
  | .error e => .error e
  | .ok k => removeSingle c k

/-- `delete_by_ID`: marks the particle by writing to the `state` array only.
Models: collectionsoa.py:522-542. -/
def deleteByID {V : Type} (c : Coll V) (mark : V) (id : ℤ) : Except Err (Coll V) :=
  match indexOfID c id with
  | .error e => .error e
  | .ok k => .ok { c with cols := c.cols.map fun p => (p.1, if p.1 = "state" then p.2.set k mark else p.2) }

/-- Concatenation of the columns, `front` telling whether the other set goes first. Stops with KeyError
at the first column that the other set lacks: earlier columns are then already replaced. Models: collectionsoa.py:434-442. -/
def concatCols {V : Type} (front : Bool) (other : List (String × List V)) :
    List (String × List V) → List (String × List V) × Bool
  | [] => ([], true)
  | (n, l) :: rest =>
    match other.lookup n with
    | none => ((n, l) :: rest, false)
    | some l' =>
      let r := concatCols front other rest
      ((n, if front then l' ++ l else l ++ l') :: r.1, r.2)

/-- State after `add_same`, and the exception if one was raised (the state is then what is left
behind). Simplification: the ID array is taken to be the first array of the dictionary.
Models: collectionsoa.py:415-443. -/
def addSame {V : Type} (c o : Coll V) : Coll V × Option Err :=
  if o.ncount = 0 then (c, none)
  else if c.ncount = 0 then ({ c with ids := o.ids, cols := o.cols, ncount := o.ncount }, none)
  else
    match c.ids.head?, c.ids.getLast?, o.ids.head?, o.ids.getLast? with
    | some ch, some cl, some oh, some ol =>
      if c.sorted && o.sorted && decide (ch > ol) then
        let r := concatCols true o.cols c.cols
        if r.2 then
          ({ c with ids := o.ids ++ c.ids, cols := r.1, ncount := c.ncount + o.ncount }, none)
        else ({ c with ids := o.ids ++ c.ids, cols := r.1 }, some .keyError)
      else
        let s := if o.sorted && decide (cl < oh) then c.sorted else false
        let r := concatCols false o.cols c.cols
        if r.2 then
          ({ ids := c.ids ++ o.ids, cols := r.1, ncount := c.ncount + o.ncount, sorted := s }, none)
        else ({ ids := c.ids ++ o.ids, cols := r.1, ncount := c.ncount, sorted := s }, some .keyError)
    | _, _, _, _ => (c, some .indexError)

/-! ### Looking up several IDs -/

/-- An index array returned by numpy: values, and whether its dtype is float (`np.array([])` is). Models: collectionsoa.py:364-397. -/
structure Idx where
  vals : List Nat
  isFloat : Bool
deriving DecidableEq, Repr

/-- Python slice `l[lo:hi]`. Models: collectionsoa.py:373, 386-396. -/
def slice {α : Type} (l : List α) (lo hi : Nat) : List α := (l.take hi).drop lo

/-- `_recursive_ID_lookup`. `np.array(index)` is zero-dimensional, so the last concatenation raises
ValueError; `sublist[median]` of an empty sublist raises IndexError.
Models: collectionsoa.py:364-397. `fuel ≥ len(sublist) + 1`. -/
def recLookup (ids : List ℤ) : Nat → Nat → Nat → List ℤ → Except Err Idx
  | 0, _, _, _ => .error .runtimeError
  | fuel + 1, low, high, sub =>
    let median := sub.length / 2
    match sub[median]? with
    | none => .error .indexError
    | some m =>
      let index := bisectLeft (slice ids low high) m
      if sub.length = 1 then
        if index = ids.length ∨ ids.getD index 0 ≠ m then .ok ⟨[], true⟩ else .ok ⟨[index], false⟩
      else if index = ids.length then
        recLookup ids fuel low high (sub.eraseIdx median)
      else if ids.getD index 0 ≠ m then
        match recLookup ids fuel low index (sub.take median) with
        | .error e => .error e
        | .ok l =>
          match recLookup ids fuel index high (sub.drop (median + 1)) with
          | .error e => .error e
          | .ok r => .ok ⟨l.vals ++ r.vals, l.isFloat || r.isFloat⟩
      else
        match recLookup ids fuel low index (sub.take median) with
        | .error e => .error e
        | .ok _ =>
          match recLookup ids fuel (index + 1) high (sub.drop (median + 1)) with
          | .error e => .error e
          | .ok _ => .error .valueError

/-- `np.sort`. Models: collectionsoa.py:357, 666. -/
def npSort (l : List ℤ) : List ℤ := l.insertionSort (· ≤ ·)

/-- Indices used by `get_multi_by_IDs` and `remove_multi_by_IDs` for a non-empty ID list.
Models: collectionsoa.py:352-361, 663-670. -/
def indicesOfIDs {V : Type} (c : Coll V) (q : List ℤ) : Except Err Idx :=
  if c.sorted then recLookup c.ids (q.length + 1) 0 c.ids.length (npSort q)
  else .ok ⟨(List.range c.ids.length).filter fun i => c.ids.getD i 0 ∈ q, false⟩

/-- `get_multi_by_IDs`: the indices iterated over. A non-empty float index array raises (an
AssertionError, given here as TypeError). Models: collectionsoa.py:333-361, 974-981. -/
def getMulti {V : Type} (c : Coll V) (q : List ℤ) : Except Err (List Nat) :=
  if q = [] then .ok []
  else
    match indicesOfIDs c q with
    | .error e => .error e
    | .ok r => if r.vals ≠ [] ∧ r.isFloat then .error .typeError else .ok r.vals

/-- `remove_multi_by_IDs`. A float index array raises: IndexError if empty, else AssertionError (given
here as IndexError). Models: collectionsoa.py:649-671. -/
def removeByIDs {V : Type} (c : Coll V) (q : List ℤ) : Except Err (Coll V) :=
  if q = [] then .ok c
  else
    match indicesOfIDs c q with
    | .error e => .error e
    | .ok r =>
      if r.isFloat then .error .indexError else removeMulti c (r.vals.map fun (i : Nat) => (i : ℤ))

/-! ### MPI -/

/-- `l[pu == rank]`. Models: collectionsoa.py:119-125. -/
def select {α : Type} (pu : List ℤ) (rank : ℤ) (l : List α) : List α :=
  ((l.zip pu).filter fun p => p.2 = rank).map (·.1)

/-- IDs (and any other per-particle array `l`) that rank `rank` of `size` ranks gets when constructing
with explicit `partitions`; `allMax` is the result of the all-reduce of the offset.
Models: collectionsoa.py:98-128. -/
def constructRank (lastID : ℤ) (pidOrig pu : List ℤ) (size : Nat) (rank : ℤ) :
    Except Err (List ℤ × ℤ) :=
  let pid := pidOrig.map (· + lastID)
  if pid.length < size ∧ 1 < size then .error .runtimeError
  else if 1 < size then
    if maxOr pu ≥ size then .error .runtimeError
    else if pu.length ≠ pid.length then .error .indexError
    else .ok (select pu rank pid, maxOr pid + 1)
  else .ok (pid, maxOr pid + 1)

/-- Construction of a repeated release on one rank: `partitions=False`, so nothing is selected;
`local` are the remembered `repeatpid` of this rank, `allMax` the largest ID over all ranks.
Models: collectionsoa.py:98-128, baseparticleset.py:450-456. -/
def constructRepeat (lastID : ℤ) (localPid : List ℤ) (size : Nat) (allMax : ℤ) : Except Err (List ℤ × ℤ) :=
  let pid := localPid.map (· + lastID)
  if pid.length < size ∧ 1 < size then .error .runtimeError
  else .ok (pid, allMax + 1)

end Parcels.Collection
