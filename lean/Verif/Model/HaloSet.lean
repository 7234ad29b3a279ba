import Verif.Model.Halo

/-!
Model of `FieldSet.add_periodic_halo` (parcels/fieldset.py:957-971), `RectilinearGrid.add_periodic_halo` (grid.py:279-304),
`Field.add_periodic_halo` (field.py:1224-1266), and of the halo that `Field.reshape` gives to data loaded later (field.py:519-538).

A record of data is the list of its rows (one time, one level: the others are extended in the same way). Simplifications: rectilinear grids;
exact arithmetic; the errors are `none`.
-/

namespace Parcels.HaloSet
open Parcels.Halo

/-- A record of data: its rows, from south to north. Models: the last two axes of `Field.data`, field.py:1242-1266. -/
abbrev Rows := List (List ℚ)

/-- A grid with the sizes of its halos. Models: grid.py:263-277 (lon, lat, xdim, ydim), 295, 303. -/
structure HGrid where
  lon : List ℚ
  lat : List ℚ
  zonal : Nat
  meridional : Nat
deriving DecidableEq

/-- `RectilinearGrid.add_periodic_halo`; axes with one node are an IndexError (`lon[1]`). Models: grid.py:279-304. -/
def gridHalo (z m : Bool) (h : Nat) (g : HGrid) : Option HGrid :=
  (if z then if 2 ≤ g.lon.length then some { g with lon := extendAxis h g.lon, zonal := h } else none else some g).bind fun g =>
  if m then if 2 ≤ g.lat.length then some { g with lat := extendAxis h g.lat, meridional := h } else none else some g

/-- `Field.add_periodic_halo` on given data, with its assertions. Models: field.py:1242-1266. -/
def dataHalo (z m : Bool) (h : Nat) (g : HGrid) (d : Rows) : Option Rows :=
  (if z then
    let d' := d.map (extend h)
    if d'.all (fun r => decide (r.length = g.lon.length)) then some d' else none
   else some d).bind fun d =>
  if m then
    let d' := extend h d
    if d'.length = g.lat.length then some d' else none
  else some d

/-- A field: the index of its grid, whether its data are loaded later, and the data. Models: field.py:92-205 (grid, data), 1237-1240. -/
structure HField where
  grid : Nat
  deferred : Bool
  data : Rows
deriving DecidableEq

/-- An attribute of the FieldSet: a field, or a summed or nested field; fields are given by their index. Models: fieldset.py:969-971. -/
inductive Attr where
  | field (i : Nat)
  | list (l : List Nat)

/-- A FieldSet: its attributes, the field objects and the grids. Models: fieldset.py:967-971. -/
structure FSet where
  attrs : List Attr
  fields : List HField
  grids : List HGrid

/-- One attribute: fields are extended unless they are loaded later; summed and nested fields are not instances of Field.
Models: fieldset.py:969-971, field.py:1237-1239. -/
def oneAttr (z m : Bool) (h : Nat) (grids : List HGrid) (fields : List HField) (a : Attr) : Option (List HField) :=
  match a with
  | .list _ => some fields
  | .field i =>
    fields[i]?.bind fun f =>
    if f.deferred then some fields
    else grids[f.grid]?.bind fun g => (dataHalo z m h g f.data).bind fun d => some (fields.set i { f with data := d })

/-- All attributes. Models: fieldset.py:969-971. -/
def allAttrs (z m : Bool) (h : Nat) (grids : List HGrid) : List Attr → List HField → Option (List HField)
  | [], fields => some fields
  | a :: rest, fields => (oneAttr z m h grids fields a).bind (allAttrs z m h grids rest)

/-- `FieldSet.add_periodic_halo`. Models: fieldset.py:957-971. -/
def addHalo (z m : Bool) (h : Nat) (s : FSet) : Option FSet :=
  (s.grids.mapM (gridHalo z m h)).bind fun grids =>
  (allAttrs z m h grids s.attrs s.fields).bind fun fields => some { s with fields := fields, grids := grids }

/-- A sequence of calls: zonal, meridional, size. Models: fieldset.py:957-971, called several times. -/
def addHalos : List (Bool × Bool × Nat) → FSet → Option FSet
  | [], s => some s
  | (z, m, h) :: rest, s => (addHalo z m h s).bind (addHalos rest)

/-- The halo of data that are loaded later; the data come from the file. Models: field.py:536-538, fieldset.py:1052-1069. -/
def loadedHalo (g : HGrid) (d : Rows) : Option Rows :=
  if d.length + 2 * g.meridional = g.lat.length ∧ d.all (fun r => decide (r.length + 2 * g.zonal = g.lon.length)) then
    if 0 < g.meridional ∨ 0 < g.zonal then dataHalo (decide (0 < g.zonal)) (decide (0 < g.meridional)) (max g.meridional g.zonal) g d
    else some d
  else none

/-- The data of field `i` that a user sees: those in memory, or those loaded from the file `d`. Models: field.py:1237-1266; field.py:536-538. -/
def dataOf (s : FSet) (i : Nat) : Option Rows :=
  s.fields[i]?.bind fun f => if f.deferred then s.grids[f.grid]?.bind fun g => loadedHalo g f.data else some f.data

end Parcels.HaloSet
