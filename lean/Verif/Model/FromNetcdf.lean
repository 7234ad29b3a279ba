import Verif.Model.TimeInterp
import Verif.Model.Converters

/-!
Model of how `FieldSet.from_netcdf` hands its arguments to the fields and shares grids between them (parcels/fieldset.py:285-416,
parcels/field.py:208-252, 296-450 and the constructor, field.py:94-190), and of what `FieldSet.from_data` (fieldset.py:104-135) does with
`allow_time_extrapolation`.

What the files contain is a parameter (`World`); reading them is in Model/Load. Simplifications: wildcards are resolved (`filenames` and
its entries are lists of files); no chunks (Model/Chunks); times are absolute, origins are in Model/GridSet; a file has one record per time.
The errors that are raised are `none`.
-/

namespace Parcels.FromNetcdf
open Parcels.TimeInterp Parcels.Converters

/-- A dictionary with strings as keys. Models: the arguments of fieldset.py:285-412. -/
abbrev Dict (α : Type) := List (String × α)

/-! ### Arguments -/

/-- Names of the dimensions of one variable. Models: fieldset.py:368-371, 379-380. -/
structure Dims where
  lon : String
  lat : String
  depth : Option String
  time : Option String
deriving DecidableEq

/-- Indices of one variable. Models: fieldset.py:368-371, 379-380. -/
structure Inds where
  lon : Option (List Nat)
  lat : Option (List Nat)
  depth : Option (List Nat)
deriving DecidableEq

/-- A dictionary `{dim: [files]}`. Models: field.py:208-221. -/
structure DimPaths where
  lon : Option (List String)
  lat : Option (List String)
  depth : Option (List String)
  data : Option (List String)
deriving DecidableEq

/-- The files of one variable. Models: field.py:208-221. -/
inductive Paths where
  | list (l : List String)
  | dims (m : DimPaths)
deriving DecidableEq

/-- `filenames`: `[files]`, `{dim: [files]}`, or a dictionary with an entry for each variable. Models: fieldset.py:359-371. -/
inductive FileArg where
  | list (l : List String)
  | byDim (m : DimPaths)
  | byVar (m : Dict Paths)

/-- `dimensions`: for all variables, or for each. Models: fieldset.py:369. -/
inductive DimArg where
  | all (d : Dims)
  | each (m : Dict Dims)

/-- `indices`: for all variables (or none given), or for each. Models: fieldset.py:371. -/
inductive IndArg where
  | all (i : Inds)
  | each (m : Dict Inds)

/-- `fieldtype`: None, a string, or a dictionary. Models: fieldset.py:372. -/
inductive FT where
  | none
  | str (s : String)
  | dict (m : Dict (Option String))

/-- `interp_method`: a string, or a dictionary. Models: field.py:335-340. -/
inductive Interp where
  | all (s : String)
  | each (m : Dict String)

/-- The arguments of `FieldSet.from_netcdf`, apart from `variables`. Models: fieldset.py:285-288. -/
structure Call where
  files : FileArg
  dims : DimArg
  inds : IndArg
  ftype : FT
  mesh : String
  stamps : Option (List (List ℚ))
  extrap : Option Bool
  periodic : Option ℚ
  deferred : Bool
  interp : Interp

/-- What the files contain: coordinates and depths (for these dimensions and indices), times, the attribute `parcels_mesh`. Models: field.py:255-453 (what is read from files). -/
structure World (C : Type) where
  coords : String → Dims → Inds → Option C
  depth : String → Dims → Inds → Option C
  times : String → Dims → List ℚ
  mesh : String → Option String

variable {C : Type}

/-! ### Grids and fields -/

/-- A grid. `slices`: length of `grid.timeslices`; `appended`: `_add_last_periodic_data_timestep`; `defer`: `defer_load`. Models: grid.py:37-68, field.py:370-387, 437-441. -/
structure Gr (C : Type) where
  coords : C
  depth : Option C
  mesh : String
  time : List ℚ
  tdim : Nat
  slices : Nat
  appended : Bool
  defer : Bool
deriving DecidableEq

/-- A field; `grid` is the index of its grid. `deferred`: its data are loaded later. Models: field.py:92-206, 443-452. -/
structure Fld where
  name : String
  nc : String
  grid : Nat
  dims : Dims
  inds : Inds
  unit : Unit'
  extrap : Bool
  periodic : Option ℚ
  interp : String
  dataFiles : List String
  deferred : Bool

/-- `if not c: raise`. Models: the assertions of fieldset.py:359-412 and field.py:293-330. -/
def check (c : Prop) [Decidable c] : Option Unit := if c then some () else none

/-! ### Field.from_netcdf -/

/-- The files of data, of longitudes and latitudes, and of depths. Models: field.py:309-320. -/
structure Parts where
  data : List String
  lonlat : String
  depth : Option String

/-- The checks on timestamps, `get_dim_filenames`, and the choice of files. Models: field.py:207-220, 293-320. -/
def parts (stamps : Option (List (List ℚ))) (p : Paths) (d : Dims) : Option Parts :=
  match p with
  | .list l =>
    (check (∀ s, stamps = some s → l.length = s.length)).bind fun _ =>
    l.head?.bind fun f => some ⟨l, f, d.depth.map fun _ => f⟩
  | .dims m =>
    m.data.bind fun l =>
    (check (∀ s, stamps = some s → l.length = s.length)).bind fun _ =>
    m.lon.bind fun lo =>
    m.lat.bind fun la =>
    (check (lo.length = 1 ∧ lo = la)).bind fun _ =>
    lo.head?.bind fun f =>
    if d.depth.isSome then
      m.depth.bind fun z => (check (z.length = 1)).bind fun _ => z.head?.bind fun fz => some ⟨l, f, some fz⟩
    else some ⟨l, f, none⟩

/-- Times of one file; without a time dimension there is one time, 0. Models: fieldfilebuffer.py:171-183, field.py:242-243. -/
def fileTimes (W : World C) (d : Dims) (f : String) : List ℚ := if d.time.isNone then [0] else W.times f d

/-- The times of each file. Models: field.py:224-241. -/
def timesOf (W : World C) (stamps : Option (List (List ℚ))) (d : Dims) (fs : List String) : List (List ℚ) :=
  match stamps with
  | some s => s
  | none => fs.map (fileTimes W d)

/-- `collect_timeslices`: the times, and the file of each; the times must increase, and there must be one (`time[0]`).
Models: field.py:222-252. -/
def collect (W : World C) (stamps : Option (List (List ℚ))) (d : Dims) (fs : List String) : Option (List ℚ × List String) :=
  let ts := (timesOf W stamps d fs).flatten
  if ts ≠ [] ∧ (List.range (ts.length - 1)).all (fun i => decide (ts.getD i 0 < ts.getD (i + 1) 0)) then
    some (ts, (fs.zip (timesOf W stamps d fs)).flatMap fun p => List.replicate p.2.length p.1)
  else none

/-- Interpolation method of a field. Models: field.py:335-340. -/
def interpOf (i : Interp) (var : String) : Option String :=
  match i with
  | .all s => some s
  | .each m => m.lookup var

/-- The depths of the grid. Models: field.py:351-363. -/
def depthOf (W : World C) (p : Parts) (d : Dims) (i : Inds) : Option (Option C) :=
  match p.depth with
  | some f => (W.depth f d i).map some
  | none => some none

/-- A new grid. Models: field.py:370-378, grid.py:70-87. -/
def mkGrid (W : World C) (c : Call) (stamps : Option (List (List ℚ))) (p : Parts) (d : Dims) (xy : C) (z : Option C) (ts : List ℚ) : Gr C where
  coords := xy
  depth := z
  mesh := (W.mesh p.lonlat).getD c.mesh
  time := ts
  tdim := ts.length
  slices := if stamps.isSome then ts.length else p.data.length
  appended := false
  defer := false

/-- The unit converter. A dictionary cannot be looked up in `unitconverters_map`: TypeError. Models: field.py:115-121. -/
def unitOf (mesh : String) (ft : FT) (var : String) : Option Unit' :=
  match ft with
  | .none => chooseUnit mesh var
  | .str s => chooseUnit mesh s
  | .dict _ => if mesh = "flat" then some .none else none

/-- The time axis after the constructor. Models: field.py:141-156. -/
def axisOf (periodic : Option ℚ) (ts : List ℚ) : Option (List ℚ × Bool) :=
  match periodic with
  | none => some (ts, false)
  | some P => periodicAxis ts P

/-- The rest of `Field.from_netcdf`, and the constructor, for the grid `gid`: deferred or not; how many records are read; the flag for
extrapolation; the changes of the grid. `recs`: numbers of records of the data files. Models: field.py:392-452, 92-190. -/
def finish (c : Call) (var nc : String) (d : Dims) (i : Inds) (ft : FT) (im : String) (recs : List Nat) (df : List String) (gid : Nat)
    (gs : List (Gr C)) : Option (Fld × List (Gr C)) :=
  gs[gid]?.bind fun g =>
  let later := c.deferred && decide (2 < g.time.length)
  (check (later = true ∨ (recs.take g.slices).sum = g.tdim)).bind fun _ =>
  (check (g.defer = true → later = true)).bind fun _ =>
  (unitOf g.mesh ft var).bind fun u =>
  (axisOf c.periodic g.time).bind fun ax =>
  let app := g.appended || ax.2
  some (⟨var, nc, gid, d, i, u, if c.periodic.isSome then false else c.extrap.getD d.time.isNone, c.periodic, im,
      if app then df ++ df.take 1 else df, later⟩,
    gs.set gid { g with time := ax.1, appended := app, defer := g.defer || later })

/-- `Field.from_netcdf`: `grid`, `dF` are the grid and the list of data files of another field, if they are shared.
Models: field.py:293-452. -/
def fieldFromNetcdf (W : World C) (c : Call) (stamps : Option (List (List ℚ))) (var nc : String) (paths : Paths) (d : Dims) (i : Inds)
    (ft : FT) (grid : Option Nat) (dF : Option (List String)) (gs : List (Gr C)) : Option (Fld × List (Gr C)) :=
  (parts stamps paths d).bind fun p =>
  (interpOf c.interp var).bind fun im =>
  (W.coords p.lonlat d i).bind fun xy =>
  (depthOf W p d i).bind fun z =>
  (check (p.data.length ≤ 1 ∨ d.time.isSome = true ∨ stamps.isSome = true)).bind fun _ =>
  let recs := (timesOf W stamps d p.data).map List.length
  match grid, dF with
  | none, _ => (collect W stamps d p.data).bind fun t =>
      finish c var nc d i ft im recs t.2 gs.length (gs ++ [mkGrid W c stamps p d xy z t.1])
  | some gid, some df => finish c var nc d i ft im recs df gid gs
  | some gid, none => (collect W stamps d p.data).bind fun t => finish c var nc d i ft im recs t.2 gid gs

/-! ### FieldSet.from_netcdf -/

/-- `filenames[var] if ... var in filenames else filenames`. A dictionary with an entry for each variable but not for this one is an
error. Models: fieldset.py:360-366. -/
def pathsOf (a : FileArg) (var : String) : Option Paths :=
  match a with
  | .list l => some (.list l)
  | .byDim m => some (.dims m)
  | .byVar m => m.lookup var

/-- `dimensions[var] if var in dimensions else dimensions`, and the check of the keys. Models: fieldset.py:368-370. -/
def dimsOf (a : DimArg) (var : String) : Option Dims :=
  match a with
  | .all d => if var = "lon" ∨ var = "lat" ∨ (var = "depth" ∧ d.depth.isSome) ∨ (var = "time" ∧ d.time.isSome) then none else some d
  | .each m => m.lookup var

/-- `indices[var] if (indices and var in indices) else indices`. Models: fieldset.py:371. -/
def indsOf (a : IndArg) (var : String) : Option Inds :=
  match a with
  | .all i => if (var = "lon" ∧ i.lon.isSome) ∨ (var = "lat" ∧ i.lat.isSome) ∨ (var = "depth" ∧ i.depth.isSome) then none else some i
  | .each m => m.lookup var

/-- `a in b` for strings. Models: fieldset.py:372 (`var in fieldtype`). -/
def occurs (a b : List Char) : Bool := b.tails.any fun t => a.isPrefixOf t

/-- `fieldtype = fieldtype[var] if (fieldtype and var in fieldtype) else fieldtype`: the loop overwrites its own argument. If it is a
string already, `in` searches in the string, and the index is a TypeError. Models: fieldset.py:372. -/
def nextType (ft : FT) (var : String) : Option FT :=
  match ft with
  | .none => some .none
  | .str s => if s ≠ "" ∧ occurs var.toList s.toList then none else some (.str s)
  | .dict m => match m.lookup var with
    | some (some s) => some (.str s)
    | some none => some .none
    | none => some (.dict m)

/-- `dim in dimensions`. Models: fieldset.py:402. -/
def dimInArg (a : DimArg) (dim : String) : Bool :=
  match a with
  | .all d => dim = "lon" || dim = "lat" || (dim = "depth" && d.depth.isSome) || (dim = "time" && d.time.isSome)
  | .each m => (m.lookup dim).isSome

/-- `filenames[procvar][dim] == filenames[var][dim]`, if `dim in dimensions`. Models: fieldset.py:402-403. -/
def sameDim (a : DimArg) (dim : String) (x y : Option (List String)) : Option Bool :=
  if dimInArg a dim then x.bind fun u => y.bind fun v => some (decide (u = v)) else some true

/-- `processedGrid`: can variable `var` use the grid of variable `p`? Models: fieldset.py:396-403. -/
def processed (c : Call) (p var : String) : Option Bool :=
  match c.files with
  | .list _ => some true
  | .byDim _ => none
  | .byVar m =>
    (m.lookup p).bind fun a => (m.lookup var).bind fun b =>
    if a = b then some true else
      match a, b with
      | .list _, _ => some false
      | .dims x, .dims y =>
        (sameDim c.dims "lon" x.lon y.lon).bind fun s1 =>
        (sameDim c.dims "lat" x.lat y.lat).bind fun s2 =>
        (sameDim c.dims "depth" x.depth y.depth).bind fun s3 => some (s1 && s2 && s3)
      | .dims _, .list _ =>
        if dimInArg c.dims "lon" || dimInArg c.dims "lat" || dimInArg c.dims "depth" then none else some true

/-- `procpaths == nowpaths`. Models: fieldset.py:381, 383, 406. -/
def samePaths (c : Call) (p var : String) : Bool :=
  match c.files with
  | .byVar m => decide (m.lookup p = m.lookup var)
  | _ => true

/-- The search for a field with the same grid. Models: fieldset.py:375-408. -/
def scan (c : Call) (var : String) (d : Dims) (i : Inds) : List Fld → Option Nat → Option (Option Nat × Option (List String))
  | [], g => some (g, none)
  | f :: rest, g =>
    (dimsOf c.dims f.name).bind fun pd => (indsOf c.inds f.name).bind fun pi =>
    if pd = d ∧ pi = i then
      if d.depth = some "not_yet_set" then some (g, none)
      else (processed c f.name var).bind fun ok =>
        if ok then
          if samePaths c f.name var then some (some f.grid, some f.dataFiles) else scan c var d i rest (some f.grid)
        else scan c var d i rest g
    else scan c var d i rest g

/-- The fields made so far, and their grids. Models: fieldset.py:375-412. -/
structure Result (C : Type) where
  fields : List Fld
  grids : List (Gr C)

/-- `timestamps`, unless `'time' in dimensions`. Models: fieldset.py:351-354. -/
def stampsOf (c : Call) : Option (List (List ℚ)) := if dimInArg c.dims "time" then none else c.stamps

/-- One variable. Models: fieldset.py:359-412. -/
def oneVar (W : World C) (c : Call) (var nc : String) (ft : FT) (r : Result C) : Option (Result C) :=
  (pathsOf c.files var).bind fun p =>
  (dimsOf c.dims var).bind fun d =>
  (indsOf c.inds var).bind fun i =>
  (scan c var d i r.fields none).bind fun s =>
  (fieldFromNetcdf W c (stampsOf c) var nc p d i ft s.1 s.2 r.grids).bind fun q => some ⟨r.fields ++ [q.1], q.2⟩

/-- The loop over the variables. Models: fieldset.py:359-412. -/
def loopVars (W : World C) (c : Call) : List (String × String) → FT → Result C → Option (Result C)
  | [], _, r => some r
  | (var, nc) :: rest, ft, r =>
    (nextType ft var).bind fun ft => (oneVar W c var nc ft r).bind fun r => loopVars W c rest ft r

/-- `FieldSet.from_netcdf`. Models: fieldset.py:285-416. -/
def fromNetcdf (W : World C) (c : Call) (vars : List (String × String)) : Option (Result C) := loopVars W c vars c.ftype ⟨[], []⟩

/-! ### FieldSet.from_data -/

/-- `allow_time_extrapolation` of the fields made by `from_data`; `vars`: names, and whether there is a time dimension. The argument is
overwritten by the first variable. Models: fieldset.py:101-125. -/
def dataFlags : Option Bool → List (String × Bool) → List (String × Bool)
  | _, [] => []
  | e, (v, hasTime) :: rest =>
    let e := e.getD (!hasTime)
    (v, e) :: dataFlags (some e) rest

end Parcels.FromNetcdf
