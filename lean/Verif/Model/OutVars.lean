import Mathlib.Data.List.Basic

/-!
Model of the variables in the output file: their write status (parcels/particlesets/collectionsoa.py:887-900, parcels/particle.py:15-30), which of them a
`ParticleFile` writes (parcels/particlefile.py:73-79), and how the export makes and fills the variables of the NetCDF file
(particlefile.py:105-185, 191-199, 282-335).

Simplifications: no MPI; the arrays read from the temporary files are arguments (Model/Npy); making a NetCDF variable with a name that exists is an
error; so is any use of an attribute of the `ParticleFile` that has been replaced by a NetCDF variable (with few of them, `var_names`, `var_names_once` and `time_written`, the
program can go on in some cases). `none` is an exception.
-/

namespace Parcels.OutVars

/-- `to_write`. Any other value counts as false. Models: particle.py:22-30; particlefile.py:75-79. -/
inductive Status where
  | yes
  | no
  | once
deriving DecidableEq

/-- An object of class `Variable`. Models: particle.py:26-30. -/
structure VarObj where
  name : String
  status : Status

/-- The objects, by address. Models: particle.py:68-80 (classes share the objects of their bases). -/
abbrev Heap := Nat → VarObj

/-- `set_variable_write_status`: `vars` are the addresses in `ptype.variables` of the set. `none`: SyntaxError. Models: collectionsoa.py:888-900. -/
def setStatus (h : Heap) (vars : List Nat) (name : String) (st : Status) : Option Heap :=
  if vars.any fun a => decide ((h a).name = name) then
    some fun a => if a ∈ vars ∧ (h a).name = name then { h a with status := st } else h a
  else none

/-- `var_names` of a new file. Models: particlefile.py:75-79. -/
def varNames (h : Heap) (vars : List Nat) : List String := (vars.filter fun a => decide ((h a).status = .yes)).map fun a => (h a).name

/-- `var_names_once`. Models: particlefile.py:75-77. -/
def varNamesOnce (h : Heap) (vars : List Nat) : List String := (vars.filter fun a => decide ((h a).status = .once)).map fun a => (h a).name

/-- `toDictionary` as far as the names matter: it needs the IDs if any particle is written (KeyError). Models: collectionsoa.py:847-850. -/
def writes (names : List String) (any : Bool) : Option Unit := if any && !(decide ("id" ∈ names)) then none else some ()

/-- Types of NetCDF variables. Models: particlefile.py:130-182. -/
inductive NcType where
  | f4
  | f8
  | i8
deriving DecidableEq

/-- A NetCDF variable; `perObs`: dimensions `traj` and `obs`, otherwise `traj` only. Values are absent until assigned (fill values).
Models: particlefile.py:130, 135, 151, 158, 165, 173, 179. -/
structure NcVar (V : Type) where
  perObs : Bool
  type : NcType
  vals : Option (List (List V))

/-- The value of an attribute of the `ParticleFile`: its own, or the NetCDF variable with this name. Models: particlefile.py:130-182, 319, 323 (`setattr`, `getattr`). -/
inductive Att where
  | own
  | nc (name : String)
deriving DecidableEq

/-- The `ParticleFile` during the export. `opened`: `self.dataset` is not None. Models: particlefile.py:54-86, 119. -/
structure PFile (V : Type) where
  names : List String
  once : List String
  atts : String → Att
  opened : Bool
  file : String → Option (NcVar V)

variable {V : Type}

/-- `self.attr = self.dataset.createVariable(name, type, ...)`. Models: particlefile.py:130, 135, 151, 158, 165, 173, 179. -/
def PFile.create (f : PFile V) (attr name : String) (perObs : Bool) (type : NcType) : Option (PFile V) :=
  if f.atts "dataset" = .own ∧ f.opened = true ∧ f.file name = none then
    some { f with
      atts := fun a => if a = attr then .nc name else f.atts a
      file := fun n => if n = name then some ⟨perObs, type, none⟩ else f.file n }
  else none

/-- The loop over the other variables. Models: particlefile.py:171-176. -/
def createObs : PFile V → List String → Option (PFile V)
  | f, [] => some f
  | f, v :: vs => if v ∈ ["time", "lat", "lon", "depth", "id"] then createObs f vs else (f.create v v true .f4).bind fun f => createObs f vs

/-- The loop over the variables written once. Models: particlefile.py:178-182. -/
def createOnce : PFile V → List String → Option (PFile V)
  | f, [] => some f
  | f, v :: vs => (f.create v v false .f4).bind fun f => createOnce f vs

/-- Models: particlefile.py:150-169. -/
def createIf (c : Prop) [Decidable c] (f : PFile V) (attr : String) (prec : NcType) : Option (PFile V) :=
  if c then f.create attr attr true prec else some f

/-- `open_netcdf_file`; `prec` is the type of the coordinates. Reading `var_names_once` and `metadata` needs the attributes to be in place.
Models: particlefile.py:105-185. -/
def openFile (prec : NcType) (f : PFile V) : Option (PFile V) :=
  let f : PFile V := { f with atts := fun a => if a = "dataset" then .own else f.atts a, opened := true, file := fun _ => none }
  (f.create "id" "trajectory" true .i8).bind fun f =>
  (f.create "time" "time" true .f8).bind fun f =>
  (createIf ("lat" ∈ f.names) f "lat" prec).bind fun f =>
  (createIf ("lon" ∈ f.names) f "lon" prec).bind fun f =>
  (createIf ("depth" ∈ f.names ∨ "z" ∈ f.names) f "z" prec).bind fun f =>
  (createObs f f.names).bind fun f =>
  if f.atts "var_names_once" ≠ .own then none else
  (createOnce f f.once).bind fun f =>
  if f.atts "metadata" ≠ .own then none else some f

/-- Storing values in a NetCDF variable; `r32` rounds to single precision. Models: particlefile.py:319, 323. -/
def store (r32 : V → V) (t : NcType) (d : List (List V)) : List (List V) := if t = .f4 then d.map (·.map r32) else d

/-- `getattr(self, attr)[:] = data`. Models: particlefile.py:319, 323. -/
def PFile.assign (r32 : V → V) (f : PFile V) (attr : String) (d : List (List V)) : Option (PFile V) :=
  match f.atts attr with
  | .own => none
  | .nc n =>
    (f.file n).map fun x => { f with file := fun m => if m = n then some { x with vals := some (store r32 x.type d) } else f.file m }

/-- `self.read_from_npy(..., var)`; `data` has the arrays. Models: particlefile.py:251-280, 315. -/
def readVar (f : PFile V) (data : String → List (List V)) (var : String) : Option (List (List V)) :=
  if f.atts "read_from_npy" = .own ∧ f.atts "maxid_written" = .own ∧ f.atts "time_written" = .own then some (data var) else none

/-- The same for variables written once: the number of times is 1. Models: particlefile.py:251-280, 323. -/
def readOnce (f : PFile V) (data : String → List (List V)) (var : String) : Option (List (List V)) :=
  if f.atts "read_from_npy" = .own ∧ f.atts "maxid_written" = .own then some (data var) else none

/-- One turn of the loop over `var_names`. Models: particlefile.py:314-319. -/
def exportOne (prec : NcType) (r32 : V → V) (data : String → List (List V)) (f : PFile V) (var : String) : Option (PFile V) :=
  (readVar f data var).bind fun d =>
  if f.atts "var_names" ≠ .own then none else
  (if f.names.head? = some var then openFile prec f else some f).bind fun f =>
  f.assign r32 (if var = "depth" then "z" else var) d

/-- The loop over the variables. Models: particlefile.py:314-319. -/
def exportLoop (prec : NcType) (r32 : V → V) (data : String → List (List V)) : PFile V → List String → Option (PFile V)
  | f, [] => some f
  | f, v :: vs => (exportOne prec r32 data f v).bind fun f => exportLoop prec r32 data f vs

/-- The loop over `var_names_once`. Models: particlefile.py:321-323. -/
def onceLoop (r32 : V → V) (data : String → List (List V)) : PFile V → List String → Option (PFile V)
  | f, [] => some f
  | f, v :: vs => ((readOnce f data v).bind fun d => f.assign r32 v d).bind fun f => onceLoop r32 data f vs

/-- `close`: the export, `self.dataset.close()` and the removal of the temporary directory. `data` and `once` are the arrays read from the temporary files for each
variable. Models: particlefile.py:191-199, 282-335. -/
def close (prec : NcType) (r32 : V → V) (data once : String → List (List V)) (names onces : List String) : Option (String → Option (NcVar V)) :=
  let f : PFile V := { names := names, once := onces, atts := fun _ => .own, opened := false, file := fun _ => none }
  (exportLoop prec r32 data f f.names).bind fun f =>
  if f.atts "var_names_once" ≠ .own then none else
  (onceLoop r32 once f f.once).bind fun f =>
  if f.atts "dataset" ≠ .own ∨ f.opened = false then none else
  if f.atts "delete_tempwritedir" ≠ .own ∨ f.atts "tempwritedir_base" ≠ .own then none else
  some f.file

end Parcels.OutVars
