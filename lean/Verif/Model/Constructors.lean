import Verif.Model.FromNetcdf
import Verif.Model.Scaling

/-!
Model of the constructors of FieldSets for the output of particular ocean models (`FieldSet.from_c_grid_dataset`, `from_nemo`,
`from_mitgcm`, `from_b_grid_dataset`, `from_pop`, `from_mom5`; parcels/fieldset.py:418-831), of how wildcards in `filenames` are resolved
(fieldset.py:272-283, 359-367), and of the names of files, variables and dimensions that `FieldSet.write` uses and `FieldSet.from_parcels`
asks for (fieldset.py:833-878, 973-988, field.py:1268-1305).

`FieldSet.from_netcdf` itself is in Model/FromNetcdf. Simplifications: a field has one datum (`raw`, `none` is NaN) instead of an array;
no `vmin`, `vmax` (Model/Scaling); errors are `none`; `creation_log`, `chunksize` and warnings are left out; two entries of `filenames`
that are the same dictionary object are two dictionaries (resolving wildcards twice changes nothing).
-/

namespace Parcels.Constructors
open Parcels.FromNetcdf Parcels.Scaling

variable {C : Type}

/-! ### Constructors -/

/-- The arguments of the constructors: those of `from_netcdf`, `tracer_interp_method`, and two keywords that go through `**kwargs`
(`interp_method`, `gridindexingtype`). Models: fieldset.py:419-421, 495-497, 521-523, 603-606, 687-690, 753-756. -/
structure Args where
  base : Call
  tracer : String
  kwInterp : Option Interp
  kwIndexing : Option String

/-- A FieldSet: what `from_netcdf` made, `gridindexingtype` of its fields, and scaling factor and data of each field. Models: field.py:92-206, 540-554. -/
structure FS (C : Type) where
  res : Result C
  indexing : String
  states : Dict FState

/-- `grid.defer_load` of a field. Models: field.py:438, 553. -/
def gridDefers (r : Result C) (f : Fld) : Bool := ((r.grids[f.grid]?).map (·.defer)).getD false

/-- `_scaling_factor` and data after the constructor of `Field`. Models: field.py:161-176. -/
def initState (raw : String → Option ℚ) (f : Fld) : FState :=
  { factor := none, data := if f.deferred then [] else [construct none none (raw f.name)] }

/-- `FieldSet.from_netcdf` with `interp_method` and `gridindexingtype`. Models: fieldset.py:286-416. -/
def netcdfFS (W : World C) (raw : String → Option ℚ) (c : Call) (vars : List (String × String)) (im : Interp) (gi : String) : Option (FS C) :=
  (fromNetcdf W { c with interp := im } vars).map fun r => ⟨r, gi, r.fields.map fun f => (f.name, initState raw f)⟩

/-- `v in dimensions` and its entry. Models: fieldset.py:582-587. -/
def entry (a : DimArg) (v : String) : Option Dims :=
  match a with
  | .all _ => none
  | .each m => m.lookup v

/-- `'U' in dimensions and 'V' in dimensions and dimensions['U'] != dimensions['V']`, the same for W. Models: fieldset.py:582-587, 811-816. -/
def dimsDiffer (a : DimArg) (v w : String) : Bool :=
  match entry a v, entry a w with
  | some x, some y => decide (x ≠ y)
  | _, _ => false

/-- `interp_method[v]` on a C-grid. Models: fieldset.py:589-594. -/
def cMethods (tracer : String) (vars : List (String × String)) : Dict String :=
  vars.map fun v => (v.1, if v.1 = "U" ∨ v.1 = "V" ∨ v.1 = "W" then "cgrid_velocity" else tracer)

/-- `interp_method[v]` on a B-grid. Models: fieldset.py:818-825. -/
def bMethods (tracer : String) (vars : List (String × String)) : Dict String :=
  vars.map fun v => (v.1, if v.1 = "U" ∨ v.1 = "V" then "bgrid_velocity" else if v.1 = "W" then "bgrid_w_velocity" else tracer)

/-- `FieldSet.from_c_grid_dataset`; `interp_method` among the keywords is a TypeError (given twice). Models: fieldset.py:521-600. -/
def fromCGrid (W : World C) (raw : String → Option ℚ) (a : Args) (vars : List (String × String)) : Option (FS C) :=
  if dimsDiffer a.base.dims "U" "V" then none
  else if dimsDiffer a.base.dims "U" "W" then none
  else if a.kwInterp.isSome then none
  else netcdfFS W raw a.base vars (.each (cMethods a.tracer vars)) (a.kwIndexing.getD "nemo")

/-- `FieldSet.from_b_grid_dataset`. Models: fieldset.py:753-831, field.py:94. -/
def fromBGrid (W : World C) (raw : String → Option ℚ) (a : Args) (vars : List (String × String)) : Option (FS C) :=
  if dimsDiffer a.base.dims "U" "V" then none
  else if dimsDiffer a.base.dims "U" "W" then none
  else if a.kwInterp.isSome then none
  else netcdfFS W raw a.base vars (.each (bMethods a.tracer vars)) (a.kwIndexing.getD "nemo")

/-- `fieldset.var.set_scaling_factor(q)` if there is such a field. Models: fieldset.py:490-491, 672-683, 748-749, field.py:540-554. -/
def scaleVar (fs : FS C) (var : String) (q : ℚ) : Option (FS C) :=
  match fs.res.fields.find? (fun f => decide (f.name = var)), fs.states.lookup var with
  | some f, some s => (setScaling (gridDefers fs.res f) s q).map fun s' =>
      { fs with states := fs.states.map fun p => if p.1 = var then (var, s') else p }
  | _, _ => some fs

/-- `hasattr(fieldset, var)`. Models: fieldset.py:490, 672-676. -/
def hasField (fs : FS C) (var : String) : Bool := fs.res.fields.any fun f => decide (f.name = var)

/-- `FieldSet.from_nemo`. Models: fieldset.py:483-492. -/
def fromNemo (W : World C) (raw : String → Option ℚ) (a : Args) (vars : List (String × String)) : Option (FS C) :=
  if a.kwIndexing.getD "nemo" ≠ "nemo" then none
  else (fromCGrid W raw { a with kwIndexing := some "nemo" } vars).bind fun fs => scaleVar fs "W" (-1)

/-- `FieldSet.from_mitgcm`. Models: fieldset.py:511-518. -/
def fromMitgcm (W : World C) (raw : String → Option ℚ) (a : Args) (vars : List (String × String)) : Option (FS C) :=
  if a.kwIndexing.getD "mitgcm" ≠ "mitgcm" then none
  else fromCGrid W raw { a with kwIndexing := some "mitgcm" } vars

/-- `FieldSet.from_pop`; `gridindexingtype` among the keywords is a TypeError. Models: fieldset.py:666-684. -/
def fromPop (W : World C) (raw : String → Option ℚ) (a : Args) (units : String) (vars : List (String × String)) : Option (FS C) :=
  if a.kwIndexing.isSome then none
  else (fromBGrid W raw { a with kwIndexing := some "pop" } vars).bind fun fs =>
    (scaleVar fs "U" (1 / 100)).bind fun fs =>
    (scaleVar fs "V" (1 / 100)).bind fun fs =>
    if hasField fs "W" then
      if units = "m" then scaleVar fs "W" (-1 / 100)
      else if units = "cm" then scaleVar fs "W" (-1)
      else none
    else some fs

/-- `FieldSet.from_mom5`. Models: fieldset.py:743-750. -/
def fromMom5 (W : World C) (raw : String → Option ℚ) (a : Args) (vars : List (String × String)) : Option (FS C) :=
  if a.kwIndexing.isSome then none
  else (fromBGrid W raw { a with kwIndexing := some "mom5" } vars).bind fun fs => scaleVar fs "W" (-1)

/-- The datum that sampling reads: with deferred loading it is read from the file when it is needed, otherwise it is there already. Models: fieldset.py:1064-1065, 1098-1099, field.py:1307-1315. -/
def memory (raw : String → Option ℚ) (fs : FS C) (var : String) : Option ℚ :=
  (fs.res.fields.find? fun f => decide (f.name = var)).bind fun f => (fs.states.lookup var).bind fun s =>
    if gridDefers fs.res f then (load none none { s with data := [] } (raw var)).data.head? else s.data.head?

/-! ### Wildcards -/

/-- The files on disk: those that match a pattern (sorted), and whether a file exists. Models: fieldset.py:276-282 (`glob`, `path.exists`). -/
structure Disk where
  glob : String → List String
  there : String → Bool

/-- A pattern, or a list of files. Models: fieldset.py:275-276. -/
inductive Pat where
  | one (s : String)
  | many (l : List String)
deriving DecidableEq

/-- `parse_wildcards`. Models: fieldset.py:274-283. -/
def parse (D : Disk) (p : Pat) : Option (List String) :=
  let l := match p with
    | .one s => D.glob s
    | .many l => l
  if l = [] then none else if l.all D.there then some l else none

/-- What is given for a variable: a pattern or list, or a dictionary of those for each dimension. Models: fieldset.py:361-366. -/
inductive VPaths where
  | pats (p : Pat)
  | byDim (d : Dict Pat)
deriving DecidableEq

/-- `filenames`: for all variables, or for each. Models: fieldset.py:361. -/
inductive FArg where
  | all (p : VPaths)
  | each (d : Dict VPaths)
deriving DecidableEq

/-- `for dim, p in paths.items(): paths[dim] = parse_wildcards(p)`. Models: fieldset.py:365-366. -/
def parseDims (D : Disk) : Dict Pat → Option (Dict (List String))
  | [] => some []
  | (d, p) :: r => (parse D p).bind fun l => (parseDims D r).map fun m => (d, l) :: m

/-- The files of a variable: a list, or a list for each dimension. Models: fieldset.py:361-366. -/
inductive Files where
  | list (l : List String)
  | byDim (d : Dict (List String))
deriving DecidableEq

/-- The files of a variable, and what stands in the caller's dictionary afterwards: `paths[dim] = ...` writes into it. Models: fieldset.py:361-366. -/
def resolve (D : Disk) : VPaths → Option (Files × VPaths)
  | .pats p => (parse D p).map fun l => (.list l, .pats p)
  | .byDim d => (parseDims D d).map fun m => (.byDim m, .byDim (m.map fun e => (e.1, .many e.2)))

/-- One variable: `filenames[var] if ... var in filenames else filenames`. Models: fieldset.py:361-366. -/
def resolveVar (D : Disk) (var : String) : FArg → Option (Files × FArg)
  | .all p => (resolve D p).map fun q => (q.1, .all q.2)
  | .each d => (d.lookup var).bind fun p => (resolve D p).map fun q => (q.1, .each (d.map fun e => if e.1 = var then (var, q.2) else e))

/-- The loop over the variables: the files of each, and `filenames` afterwards. Models: fieldset.py:359-366. -/
def resolveAll (D : Disk) : List String → FArg → Option (Dict Files × FArg)
  | [], a => some ([], a)
  | v :: vs, a => (resolveVar D v a).bind fun q => (resolveAll D vs q.2).map fun r => ((v, q.1) :: r.1, r.2)

/-! ### Writing a FieldSet and reading it back: names -/

/-- Where a field is in a file: file, variable, and the names of the coordinates. Models: field.py:1273-1305, fieldset.py:866-874. -/
structure Slot where
  file : String
  var : String
  lon : String
  lat : String
  depth : String
  time : String
deriving DecidableEq

/-- `Field.write(filename, varname)`. Models: field.py:1268-1305. -/
def fieldWrite (filename name : String) (varname : Option String) : Slot where
  file := filename ++ name ++ ".nc"
  var := varname.getD name
  lon := "nav_lon"
  lat := "nav_lat"
  depth := "depth" ++ name.toLower
  time := "time_counter"

/-- `FieldSet.write`: a field may be written more than once if it is in the list more than once. Models: fieldset.py:973-988. -/
def fsWrite (filename : String) (names : List String) : Dict Slot :=
  (if "U" ∈ names then [("U", fieldWrite filename "U" (some "vozocrtx"))] else []) ++
  (if "V" ∈ names then [("V", fieldWrite filename "V" (some "vomecrty"))] else []) ++
  (names.filter fun n => n ≠ "U" ∧ n ≠ "V").map fun n => (n, fieldWrite filename n none)

/-- `d.update({k: v})` for one key: the entry keeps its place, a new one is last. Models: fieldset.py:869 (`dict.update`). -/
def update {α : Type} (d : Dict α) (k : String) (v : α) : Dict α :=
  if (d.lookup k).isSome then d.map fun e => if e.1 = k then (k, v) else e else d ++ [(k, v)]

/-- `extra_fields` after `extra_fields.update({'U': uvar, 'V': vvar})`; it is the caller's dictionary. Models: fieldset.py:861-862, 869. -/
def extraAfter (extra : Dict String) (uvar vvar : String) : Dict String := update (update extra "U" uvar) "V" vvar

/-- `FieldSet.from_parcels`: where it looks for each field. Models: fieldset.py:866-876. -/
def parcelsAsks (basename : String) (extra : Dict String) (uvar vvar : String) : Dict Slot :=
  (extraAfter extra uvar vvar).map fun e => (e.1,
    { file := basename ++ e.1 ++ ".nc", var := e.2, lon := "nav_lon", lat := "nav_lat", depth := "depth" ++ e.1.toLower, time := "time_counter" })

end Parcels.Constructors
