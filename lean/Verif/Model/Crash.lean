import Mathlib.Data.List.Basic

/-!
Model of the order in which `ParticleFile.write` changes the file system
(parcels/particlefile.py:212-249).

A file is either incomplete (opened for writing, not yet closed) or holds the content that was dumped. A crash can
happen between any two steps. Simplification: a file is complete as soon as its `with open` block ends; the
buffers of the operating system are not modelled.
-/

namespace Parcels.Crash

/-- Names inside the temporary directory. Models: particlefile.py:212-236. -/
inductive Name where
  | data (k : Nat)
  | once (k : Nat)
  | info
deriving DecidableEq, Repr

/-- Contents: the records of one write (any type `R`), or the index `pset_info`. Models: particlefile.py:212-236. -/
inductive Content (R : Type) where
  | recs (r : R)
  | index (files once : List Name)
deriving DecidableEq

/-- The file system: `none` no such file; `some none` incomplete; `some (some c)` complete. Models: the files of particlefile.py:212-236. -/
abbrev FS (R : Type) := Name → Option (Option (Content R))

/-- The steps that change the file system. Models: particlefile.py:217-224, 235-236. -/
inductive Step (R : Type) where
  | opened (n : Name)
  | closed (n : Name) (c : Content R)
deriving DecidableEq

/-- Effect of a step. Models: particlefile.py:217-224, 235-236. -/
def doStep {R : Type} (fs : FS R) : Step R → FS R
  | .opened n => fun m => if m = n then some none else fs m
  | .closed n c => fun m => if m = n then some (some c) else fs m

/-- Effect of some steps. Models: particlefile.py:217-224, 235-236. -/
def doSteps {R : Type} (fs : FS R) (l : List (Step R)) : FS R := l.foldl doStep fs

/-- One call of `write`: its records, if it has any, and its 'once' records, if it has any. Models: particlefile.py:238-249. -/
structure Call (R : Type) where
  data : Option R
  once : Option R

/-- The lists `file_list` and `file_list_once` in memory. Models: particlefile.py:212-225. -/
structure Mem where
  files : List Name
  once : List Name
deriving DecidableEq

/-- The part of `dump_dict_to_npy` for the records. Models: particlefile.py:215-219. -/
def dataSteps {R : Type} (m : Mem) : Option R → List (Step R) × Mem
  | none => ([], m)
  | some r =>
    let n := Name.data m.files.length
    ([.opened n, .closed n (.recs r)], { m with files := m.files ++ [n] })

/-- The part for the 'once' records; the name uses the length of `file_list` after the first part.
Models: particlefile.py:221-225. -/
def onceSteps {R : Type} (m : Mem) : Option R → List (Step R) × Mem
  | none => ([], m)
  | some r =>
    let n := Name.once m.files.length
    ([.opened n, .closed n (.recs r)], { m with once := m.once ++ [n] })

/-- `write`: the two dumps, then the index. Models: particlefile.py:227-249. -/
def callSteps {R : Type} (m : Mem) (c : Call R) : List (Step R) × Mem :=
  let a := dataSteps m c.data
  let b := onceSteps a.2 c.once
  (a.1 ++ b.1 ++ [.opened .info, .closed .info (.index b.2.files b.2.once)], b.2)

/-- All steps of a sequence of calls. Models: particlefile.py:238-249. -/
def allSteps {R : Type} : Mem → List (Call R) → List (Step R)
  | _, [] => []
  | m, c :: cs => (callSteps m c).1 ++ allSteps (callSteps m c).2 cs

/-- The lists in memory after the calls. Models: particlefile.py:212-249. -/
def memAfter {R : Type} : Mem → List (Call R) → Mem
  | m, [] => m
  | m, c :: cs => memAfter (callSteps m c).2 cs

/-- What `export` or the conversion script gets from the directory: the records of the files named in the index,
in order; `none` if the index or one of the files is missing or incomplete.
Models: parcels/particlefile.py:303-310, 262-265, parcels/scripts/convert_npydir_to_netcdf.py. -/
def loadRecs {R : Type} (fs : FS R) : List Name → Option (List R)
  | [] => some []
  | n :: ns =>
    match fs n, loadRecs fs ns with
    | some (some (.recs r)), some rs => some (r :: rs)
    | _, _ => none

/-- What `export` or the script read after a crash. Models: particlefile.py:291-323, scripts/convert_npydir_to_netcdf.py:9-45. -/
def recover {R : Type} (fs : FS R) : Option (List R × List R) :=
  match fs .info with
  | some (some (.index files once)) =>
    match loadRecs fs files, loadRecs fs once with
    | some a, some b => some (a, b)
    | _, _ => none
  | _ => none

end Parcels.Crash
