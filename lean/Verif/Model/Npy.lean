import Verif.Model.Output

/-!
Model of the temporary output files and of the export
(parcels/particlefile.py:212-325).

Simplification: IDs are natural numbers here (negative IDs come only from a negative `pid_orig`).
The NetCDF library is not modelled: the result of `read_from_npy` is what is written.
-/

namespace Parcels.Npy

/-- One temporary file: its path, and the records (ID, value of one variable) in it. Models: particlefile.py:212-225. -/
structure NpyFile (V : Type) where
  path : List Char
  recs : List (Nat × V)

/-- `'once' in path`. Models: particlefile.py:273. -/
def hasOnce : List Char → Bool
  | [] => false
  | c :: cs => ['o', 'n', 'c', 'e'].isPrefixOf (c :: cs) || hasOnce cs

/-- Working state of `read_from_npy`: the array (NaN is `none`), `time_index`, `t_ind_used`. Models: particlefile.py:258-260. -/
structure St (V : Type) where
  data : Nat → Nat → Option V
  cnt : Nat → Nat
  used : Nat → Bool

/-- Initial state. Models: particlefile.py:258-260. -/
def init {V : Type} : St V := { data := fun _ _ => none, cnt := fun _ => 0, used := fun _ => false }

/-- One file. `none`: IndexError. `once`: the test on the name of the first file.
Models: particlefile.py:272-276. -/
def readOne {V : Type} (nIds steps : Nat) (once : Bool) (s : St V) (f : NpyFile V) : Option (St V) :=
  let ids := f.recs.map (·.1)
  let tind := fun i => bif once then 0 else s.cnt i
  if (ids.any fun i => decide (nIds ≤ i)) || (ids.any fun i => decide (steps ≤ tind i)) then none
  else some
    { data := f.recs.foldl (fun d r => fun i j => if i = r.1 ∧ j = tind r.1 then some r.2 else d i j) s.data
      cnt := fun i => if i ∈ ids then s.cnt i + 1 else s.cnt i
      used := fun j => s.used j || ids.any fun i => tind i == j }

/-- The loop over all files. Models: particlefile.py:263-276. -/
def readLoop {V : Type} (nIds steps : Nat) (once : Bool) : St V → List (NpyFile V) → Option (St V)
  | s, [] => some s
  | s, f :: fs =>
    match readOne nIds steps once s f with
    | none => none
    | some s' => readLoop nIds steps once s' fs

/-- `'once' in file_list[0]`: the test looks at the first file only. Models: particlefile.py:273. -/
def firstOnce {V : Type} : List (NpyFile V) → Bool
  | [] => false
  | f :: _ => hasOnce f.path

/-- `read_from_npy`: rows with at least one record, columns in use.
Models: particlefile.py:251-280. -/
def readNpy {V : Type} (maxid steps : Nat) (files : List (NpyFile V)) : Option (List (List (Option V))) :=
  match readLoop (maxid + 1) steps (firstOnce files) init files with
  | none => none
  | some s =>
    some (((List.range (maxid + 1)).filter fun i => decide (0 < s.cnt i)).map fun i =>
      ((List.range steps).filter fun j => s.used j).map fun j => s.data i j)

end Parcels.Npy
