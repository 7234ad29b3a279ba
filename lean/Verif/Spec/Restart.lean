import Verif.Model.Restart
import Verif.Proofs.OutputExport

/-!
Vocabulary for C56: the file a run leaves behind, and its records at a time.
-/

namespace Parcels.Restart

open Parcels.Output Parcels.Npy

variable {V : Type}

/-- All records with the particle's own time `T`, in order of ID, records of one particle in order of writing. -/
def recordsAt (maxid : Nat) (outs : List (Out V)) (T : ℚ) : List (P V) :=
  (List.range (maxid + 1)).flatMap fun (i : Nat) =>
    (allData outs).filter fun p => decide (p.id = (i : ℤ)) && decide (p.time = some T)

/-- The calls of `write` in a history, seen as if the 'once' records were the records. -/
def onceOuts (outs : List (Out V)) : List (Out V) := outs.map fun o => { o with data := o.once }

/-- The 'once' record of a particle. -/
def onceRecord (outs : List (Out V)) (i : ℤ) : Option (P V) := (allOnce outs).find? fun p => p.id = i

/-- `f` is the file exported from what the calls in `outs` stored: `get` reads the variables, the temporary
files are called `path k` and `path1 k`, `pvars` are the variables of the particle class. -/
structure FileOf (maxid steps : Nat) (path path1 : Nat → List Char) (outs : List (Out V))
    (get : String → P V → Option ℚ) (pvars : List PVar) (f : NcFile) : Prop where
  traj : readNpy maxid steps (filesOf path (fun p => p.id) outs) = some f.traj
  time : (readNpy maxid steps (filesOf path (fun p => p.time) outs)).map
    (fun rows => rows.map fun r => r.map Option.join) = some f.time
  yes : ∀ v ∈ pvars, v.toWrite = .yes → ∃ rows,
    readNpy maxid steps (filesOf path (get v.name) outs) = some rows ∧
    f.vars.lookup (fileName v) = some (.grid (rows.map fun r => r.map Option.join))
  once : ∀ v ∈ pvars, v.toWrite = .once → ∃ rows,
    readNpy maxid 1 (filesOf path1 (get v.name) (onceOuts outs)) = some rows ∧
    f.vars.lookup (fileName v) = some (.line (rows.map fun r => (r.headD none).join))
  no : ∀ v ∈ pvars, v.toWrite = .no → f.vars.lookup (fileName v) = none
  depth : ∀ v ∈ pvars, v.name = "depth" → v.toWrite ≠ .no

/-- The particles a call is about: those active at the time of a regular write, those marked in a deletion. -/
def recorded (e : Event V) : List (P V) :=
  match e.req with
  | .regular => e.ps.filter fun p => toWrite p e.time
  | .mask m => byMask e.ps m
  | _ => []

end Parcels.Restart
