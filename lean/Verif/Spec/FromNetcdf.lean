import Verif.Model.FromNetcdf

/-!
Vocabulary for C71: what a user sees of a field in a FieldSet.
-/

namespace Parcels.FromNetcdf

variable {C : Type}

/-- What a user sees of a field: its name, the variable in the file, coordinates, depths, mesh, times, dimensions, indices, unit
converter, whether it extrapolates in time, its period, interpolation method, and the file each time is read from. -/
structure View (C : Type) where
  name : String
  nc : String
  coords : C
  depth : Option C
  mesh : String
  times : List ℚ
  dims : Dims
  inds : Inds
  unit : Converters.Unit'
  extrap : Bool
  periodic : Option ℚ
  interp : String
  source : List String
deriving DecidableEq

/-- The view of the field `var` of a FieldSet. -/
def Result.view (r : Result C) (var : String) : Option (View C) :=
  (r.fields.find? fun f => decide (f.name = var)).bind fun f => r.grids[f.grid]?.map fun g =>
    { name := f.name, nc := f.nc, coords := g.coords, depth := g.depth, mesh := g.mesh, times := g.time, dims := f.dims, inds := f.inds,
      unit := f.unit, extrap := f.extrap, periodic := f.periodic, interp := f.interp, source := f.dataFiles.take g.time.length }

/-- Are the data of the field `var` loaded later? -/
def Result.later (r : Result C) (var : String) : Option Bool :=
  (r.fields.find? fun f => decide (f.name = var)).map (·.deferred)

/-- The files are given as a list, or as a list for each variable. -/
def Call.ListsOfFiles (c : Call) : Prop :=
  (∃ l, c.files = .list l) ∨ ∃ m, c.files = .byVar m ∧ ∀ v p, m.lookup v = some p → ∃ l, p = .list l

/-- The files are given for each variable and each dimension, the names of the dimensions once for all variables, and variables with the
same files of coordinates have data files with the same times. -/
def Call.FilesPerDim (c : Call) (W : World C) : Prop :=
  ∃ m d, c.files = .byVar m ∧ c.dims = .all d ∧ (∀ v p, m.lookup v = some p → ∃ x, p = .dims x) ∧
    ∀ v w x y l k, m.lookup v = some (.dims x) → m.lookup w = some (.dims y) → x.data = some l → y.data = some k →
      x.lon = y.lon → x.lat = y.lat → (d.depth.isSome = true → x.depth = y.depth) →
      l.map (fun f => W.times f d) = k.map (fun f => W.times f d)

end Parcels.FromNetcdf
