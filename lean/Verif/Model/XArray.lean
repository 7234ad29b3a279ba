import Verif.Model.FromNetcdf
import Verif.Model.Load

/-!
Model of `FieldSet.from_xarray_dataset` (parcels/fieldset.py:881-924), `Field.from_xarray` (parcels/field.py:455-488), the part of the
constructor of fields they use (field.py:92-190) and `convert_xarray_time_units` (tools/converters.py:223-237).

Simplifications: coordinates are vectors or, for latitude and longitude, matrices; depths are vectors; exact arithmetic (the casts to float32
are in Model/Precision); missing values, `vmin`, `vmax` and unknown keyword arguments are left out; how xarray decodes numbers into dates is
an arbitrary function.
-/

namespace Parcels.XArray
open Parcels.Load Parcels.Converters Parcels.FromNetcdf

/-- A coordinate of the dataset: the names of its dimensions, its values (numbers, or ticks of dates), the kind of values, and its attributes:
is there `units`; is there `Unit` (with what it means: the date for a number). Models: what field.py:479-482 and fieldset.py:911-914 read. -/
structure Coord where
  dims : List String
  vals : ND ℚ
  cal : Calendar
  units : Bool
  unit : Option (ℚ → ℚ)

/-- A data variable: the names of its dimensions, and the array. Models: what field.py:476-482 reads. -/
structure DArray where
  dims : List String
  data : ND ℚ

/-- A dataset. Models: the argument of fieldset.py:881. -/
structure DS where
  coords : String → Option Coord
  vars : String → Option DArray

/-- A value in the dictionary `dimensions`: a name, or the dictionary of a variable. Models: fieldset.py:889-893. -/
inductive DimVal where
  | one (n : String)
  | dict (d : List (String × String))

/-- The argument `dimensions`. Models: fieldset.py:889-893. -/
abbrev DimArg := List (String × DimVal)

/-- The other arguments, and those keyword arguments that are passed on to the constructor. Models: fieldset.py:881-882, field.py:92-94. -/
structure Kw where
  mesh : String
  extrap : Option Bool
  periodic : Option ℚ
  ftype : FT
  interp : Interp
  transpose : Bool
  pop : Bool

/-- A field: `grid.time` counts seconds from `origin`. Models: field.py:92-206. -/
structure XField where
  name : String
  grid : Grid
  cal : Calendar
  origin : ℚ
  data : ND ℚ
  unit : Unit'
  extrap : Bool
  periodic : Option ℚ
  interp : String

/-- `da[name]`: a coordinate of the data variable; a dimension without coordinate has 0, 1, 2, ... Otherwise KeyError.
Models: field.py:479-482 (xarray). -/
def coordOf (ds : DS) (da : DArray) (n : String) : Option Coord :=
  match ds.coords n with
  | some c => if c.dims.all (fun k => da.dims.contains k) then some c else none
  | none => if da.dims.contains n then
      some ⟨[n], ⟨[da.data.shape.getD (da.dims.idxOf n) 0], fun i => (i.headD 0 : Nat)⟩, .number, false, none⟩
    else none

/-- The values of a vector. Models: field.py:479-480, grid.py:55-60, 263-267 (`assert`). -/
def vec (a : ND ℚ) : Option (List ℚ) :=
  if a.shape.length = 1 then some ((List.range (a.shape.headD 0)).map fun i => a.get [i]) else none

/-- `time`. Models: field.py:479. -/
def timeOf (ds : DS) (da : DArray) (d : List (String × String)) : Option (Calendar × List ℚ) :=
  match d.lookup "time" with
  | none => some (.number, [0])
  | some n => (coordOf ds da n).bind fun c => (vec c.vals).map fun l => (c.cal, l)

/-- `depth`. Models: field.py:480. -/
def depthOf (ds : DS) (da : DArray) (d : List (String × String)) : Option (List ℚ) :=
  match d.lookup "depth" with
  | none => some [0]
  | some n => (coordOf ds da n).bind fun c => vec c.vals

/-- `lon`, `lat`. Models: field.py:481-482. -/
def axisOf (ds : DS) (da : DArray) (d : List (String × String)) (k : String) : Option (ND ℚ) :=
  (d.lookup k).bind fun n => (coordOf ds da n).map fun c => c.vals

/-- `Field.from_xarray` and the constructor: `da.data` is used as it is, whatever the dimensions of `da` are called; `time_periodic` is not
passed on. Models: field.py:455-488, 92-190; grid.py:70-87. -/
def fieldOf (ds : DS) (da : DArray) (var : String) (d : List (String × String)) (k : Kw) : Option XField :=
  (timeOf ds da d).bind fun t =>
  (depthOf ds da d).bind fun z =>
  (axisOf ds da d "lon").bind fun x =>
  (axisOf ds da d "lat").bind fun y =>
  t.2.head?.bind fun o =>
  (check ((x.shape.length = 1 ∧ y.shape.length = 1) ∨ (x.shape.length = 2 ∧ y.shape.length = 2))).bind fun _ =>
  (unitOf k.mesh k.ftype var).bind fun u =>
  (interpOf k.interp var).bind fun im =>
  (fieldReshape (createGrid x y z (t.2.map (reltime t.1 o))) t.2.length k.pop k.transpose da.data).bind fun a =>
  some ⟨var, createGrid x y z (t.2.map (reltime t.1 o)), t.1, o, a, u, k.extrap.getD (decide (t.2.length = 1)), none, im⟩

/-- `checkvaliddimensionsdict`. Models: fieldset.py:50-54. -/
def validKeys (l : List String) : Bool := l.all fun k => ["lon", "lat", "depth", "time"].contains k

/-- The dictionary as names only. Models: field.py:479-482 (`da[...]` with a dictionary is no coordinate). -/
def names : DimArg → Option (List (String × String))
  | [] => some []
  | (k, .one n) :: rest => (names rest).map fun l => (k, n) :: l
  | (_, .dict _) :: _ => none

/-- The dimensions of a variable. Models: fieldset.py:917-918. -/
def dimsFor (a : DimArg) (var : String) : Option (List (String × String)) :=
  match a.lookup var with
  | some (.dict d) => if validKeys (d.map Prod.fst) then some d else none
  | some (.one _) => none
  | none => if validKeys (a.map Prod.fst) then names a else none

/-- `convert_xarray_time_units`: the numbers are decoded, and the coordinate of the dataset is replaced. Models: tools/converters.py:223-237. -/
def convert (ds : DS) (n : String) (c : Coord) (dec : ℚ → ℚ) : DS :=
  { ds with coords := fun m => if m = n then some { c with vals := ⟨c.vals.shape, fun i => dec (c.vals.get i)⟩, cal := .np } else ds.coords m }

/-- The coordinate `time` whose attribute is called `Unit`. Models: fieldset.py:911-914. -/
def fixUnit (ds : DS) (a : DimArg) : DS :=
  match a.lookup "time" with
  | some (.one n) =>
    match ds.coords n with
    | some c => match c.unit with
      | some dec => if c.units then ds else convert ds n c dec
      | none => ds
    | none => ds
  | _ => ds

/-- The loop over the variables. Models: fieldset.py:916-921. -/
def loop (ds : DS) (a : DimArg) (k : Kw) : List (String × String) → Option (List XField)
  | [] => some []
  | (var, name) :: rest =>
    (dimsFor a var).bind fun d =>
    (ds.vars name).bind fun da =>
    (fieldOf ds da var d k).bind fun f =>
    (loop ds a k rest).map fun fs => f :: fs

/-- `FieldSet.from_xarray_dataset`: the dataset after the call, and the fields. Models: fieldset.py:881-924. -/
def fromDataset (ds : DS) (vars : List (String × String)) (a : DimArg) (k : Kw) : Option (DS × List XField) :=
  (loop (fixUnit ds a) a k vars).map fun fs => (fixUnit ds a, fs)

end Parcels.XArray
