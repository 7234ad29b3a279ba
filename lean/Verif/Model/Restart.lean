import Verif.Model.Collection
import Verif.Model.Npy

/-!
Model of `ParticleSet.from_particlefile` (parcels/particlesets/particlesetsoa.py:331-397) and of the part of
the constructor it relies on (particlesetsoa.py:78-136, collectionsoa.py:77-128).

Simplifications: the netCDF file is the set of its arrays (fill values are `none`); times are numbers of seconds
(dates become such numbers by the decoding of xarray and by `reltime`, C37); `id` and `time` are variables written
at every output, as in every particle class of the library; the initial values of variables that are not in the
file, `repeatdt` and MPI are left out.
-/

namespace Parcels.Restart

open Parcels.Collection (Coll construct arange)

/-- The `to_write` attribute of a Variable: False, True or 'once'. Models: parcels/particle.py:22-30. -/
inductive ToWrite where
  | no
  | yes
  | once
deriving DecidableEq, Repr

/-- A Variable of the particle class, other than `id` and `time`. Models: particlesets/particlesetsoa.py:361-367. -/
structure PVar where
  name : String
  toWrite : ToWrite
deriving DecidableEq, Repr

/-- An array of the file: dimensions (traj, obs) or (traj). Models: parcels/particlefile.py:171-182. -/
inductive Arr where
  | grid (rows : List (List (Option ℚ)))
  | line (l : List (Option ℚ))
deriving DecidableEq, Repr

/-- The file: `trajectory`, `time` and the other variables. Models: particlesets/particlesetsoa.py:356-369. -/
structure NcFile where
  traj : List (List (Option ℤ))
  time : List (List (Option ℚ))
  vars : List (String × Arr)

/-- The argument `restarttime`: None, a value, or a function of the array of times. Models: particlesets/particlesetsoa.py:374-379. -/
inductive RestartTime where
  | last
  | at (t : ℚ)
  | fn (f : List (List (Option ℚ)) → Option ℚ)

/-- Exceptions. Models: particlesets/particlesetsoa.py:366, 381-386; particlesets/collectionsoa.py:171-173. -/
inductive Err where
  | missingVariable (name : String)
  | keyError
  | valueError
  | indexError
  | sizes
deriving DecidableEq, Repr

/-- `np.nanmax` of an array with at least one element; NaN (`none`) if all elements are NaN. Models: particlesets/particlesetsoa.py:375. -/
def nanmax (rows : List (List (Option ℚ))) : Option ℚ :=
  match rows.flatten.filterMap id with
  | [] => none
  | a :: l => some (l.foldl max a)

/-- The restart time. Models: particlesetsoa.py:374-379. -/
def restartAt (time : List (List (Option ℚ))) : RestartTime → Except Err (Option ℚ)
  | .last => if time.flatten.isEmpty then .error .valueError else .ok (nanmax time)
  | .at t => .ok (some t)
  | .fn f => .ok (f time)

/-- `np.where(time == restarttime)`: all pairs (row, column), row by row. NaN equals nothing.
Models: particlesetsoa.py:381. -/
def whereEq (time : List (List (Option ℚ))) (t : Option ℚ) : List (Nat × Nat) :=
  time.zipIdx.flatMap fun r => r.1.zipIdx.filterMap fun c =>
    if c.1.isSome ∧ c.1 = t then some (r.2, c.2) else none

/-- The variables that can be absent from the file. Models: particlesetsoa.py:364-365. -/
def optional : List String :=
  ["xi", "yi", "zi", "ti", "dt", "_next_dt", "depth", "id", "fileid", "state"]

/-- Name in the file: the depth is called `z`. Models: particlesetsoa.py:368-369. -/
def fileName (v : PVar) : String := if v.name = "depth" then "z" else v.name

/-- The arrays of the variables of the class. Models: particlesetsoa.py:361-369. -/
def readVars (f : NcFile) : List PVar → Except Err (List (PVar × Arr))
  | [] => .ok []
  | v :: vs =>
    match f.vars.lookup (fileName v) with
    | some a => (readVars f vs).map fun l => (v, a) :: l
    | none =>
      if v.name = "depth" then .error .keyError
      else if v.name ∉ optional ∧ v.toWrite ≠ .no then .error (.missingVariable v.name)
      else readVars f vs

/-- `vars[v][inds]`, `vars[v][inds[0]]` or the whole array, flattened as the constructor does.
Models: particlesetsoa.py:382-388 and `_convert_to_array`. -/
def pick (inds : List (Nat × Nat)) : ToWrite → Arr → Option (List (Option ℚ))
  | .yes, .grid rows => inds.mapM fun ij => rows[ij.1]?.bind fun r => r[ij.2]?
  | .yes, .line _ => none
  | .once, .line l => inds.mapM fun ij => l[ij.1]?
  | .once, .grid rows => (inds.mapM fun ij => rows[ij.1]?).map List.flatten
  | .no, .grid rows => some rows.flatten
  | .no, .line l => some l

/-- All columns of the new set that come from the file. Models: particlesets/particlesetsoa.py:382-388. -/
def pickAll (inds : List (Nat × Nat)) : List (PVar × Arr) → Option (List (String × List (Option ℚ)))
  | [] => some []
  | (v, a) :: l =>
    match pick inds v.toWrite a, pickAll inds l with
    | some x, some r => some ((v.name, x) :: r)
    | _, _ => none

/-- `pid_orig`: the IDs in the file, or `np.arange` when `restart` is False (`vars['id'] = None`).
`none`: a particle without ID. Models: particlesetsoa.py:369, 390-393, 91-92. -/
def pidOrig (f : NcFile) (inds : List (Nat × Nat)) (restart : Bool) : Option (List ℤ) :=
  bif restart then inds.mapM fun ij => (f.traj[ij.1]?.bind fun r => r[ij.2]?).bind id
  else some (arange inds.length)

/-- `from_particlefile`: the new collection and the new ID counter. `lastID` is the counter before.
Models: particlesetsoa.py:331-397, 91-125 (lengths), collectionsoa.py:78-174. -/
def fromParticleFile (lastID : ℤ) (pvars : List PVar) (f : NcFile) (restart : Bool) (rt : RestartTime) :
    Except Err (Coll (Option ℚ) × ℤ) :=
  match readVars f pvars with
  | .error e => .error e
  | .ok vars =>
    match restartAt f.time rt with
    | .error e => .error e
    | .ok t =>
      let inds := whereEq f.time t
      match pickAll inds vars, pidOrig f inds restart, pick inds .yes (.grid f.time) with
      | some cols, some pid, some time =>
        if cols.all fun c => c.2.length = inds.length then
          .ok (construct (bif restart then 0 else lastID) pid (("time", time) :: cols))
        else .error .sizes
      | _, _, _ => .error .indexError

end Parcels.Restart
