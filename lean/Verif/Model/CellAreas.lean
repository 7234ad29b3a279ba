import Mathlib.Algebra.Field.Basic
import Mathlib.Data.List.Basic
import Verif.Model.Halo

/-!
Model of the areas of grid cells (`Field.calc_cell_edge_sizes`, `Field.cell_areas`, parcels/field.py:573-599) and of the scaling by them in
`ParticleSet.density` (parcels/particlesets/particlesetsoa.py:532-533), for rectilinear grids.

Simplification: exact arithmetic in any field; the float32 of the edge sizes is left out. On other grids the program exits.
-/

namespace Parcels.CellAreas

variable {K : Type} [Field K]

/-- `cell_edge_sizes`: two arrays with `ny` rows and `nx` columns. Models: field.py:576-587. -/
structure Edges (K : Type) where
  ny : Nat
  nx : Nat
  x : Nat → Nat → K
  y : Nat → Nat → K

/-- The grid; `sphere` is the cosine of a latitude in degrees on a spherical mesh, none on a flat one. Models: field.py:573-592 (what is used of `self.grid`). -/
structure AGrid (K : Type) where
  lon : List K
  lat : List K
  sphere : Option (K → K)
  edges : Option (Edges K)

/-- `np.gradient` with unit spacing; `none`: ValueError (fewer than two elements). Models: the calls in field.py:583-584. -/
def gradient (l : List K) : Option (Nat → K) :=
  if l.length < 2 then none
  else some fun i =>
    if i = 0 then l.getD 1 0 - l.getD 0 0
    else if i = l.length - 1 then l.getD i 0 - l.getD (i - 1) 0
    else (l.getD (i + 1) 0 - l.getD (i - 1) 0) / 2

/-- `GeographicPolar().to_source(dx, lon, lat, depth)` or the value itself. Models: field.py:581, converters.py:160-177. -/
def convX (s : Option (K → K)) (dx lat : K) : K :=
  match s with
  | none => dx
  | some cosd => dx * 1000 * (1852 / 1000) * 60 * cosd lat

/-- `Geographic().to_source(dy, ...)`. Models: field.py:582, converters.py:142-157. -/
def convY (s : Option (K → K)) (dy : K) : K :=
  match s with
  | none => dy
  | some _ => dy * 1000 * (1852 / 1000) * 60

/-- `calc_cell_edge_sizes`: the edge sizes are kept in the grid. Models: field.py:573-592. -/
def calcEdges (g : AGrid K) : Option (Edges K × AGrid K) :=
  match g.edges with
  | some e => some (e, g)
  | none =>
    match gradient g.lon, gradient g.lat with
    | some dx, some dy =>
      let e : Edges K := { ny := g.lat.length, nx := g.lon.length, x := fun j i => convX g.sphere (dx i) (g.lat.getD j 0),
                           y := fun j _ => convY g.sphere (dy j) }
      some (e, { g with edges := some e })
    | _, _ => none

/-- `cell_areas`. Models: field.py:594-599. -/
def cellAreas (g : AGrid K) : Option (Nat → Nat → K) := (calcEdges g).map fun r => fun j i => r.1.x j i * r.1.y j i

/-- `density /= field.cell_areas()` for an array of counts with the shape of the grid; `none`: ValueError (also if the shapes do not match: an
axis of length one would do, but the arrays have at least two rows and columns). Models: particlesetsoa.py:532-533. -/
def scaled (g : AGrid K) (counts : Nat → Nat → K) : Option (Nat → Nat → K) :=
  match calcEdges g with
  | none => none
  | some (e, _) =>
    if e.ny = g.lat.length ∧ e.nx = g.lon.length then some fun j i => counts j i / (e.x j i * e.y j i) else none

/-- `grid.add_periodic_halo(zonal, meridional, halosize)`: the axes are extended, the edge sizes stay. Models: grid.py:279-306. -/
def addHalo (zonal meridional : Bool) (h : Nat) (g : AGrid K) : AGrid K :=
  let g := bif zonal then { g with lon := Halo.extendAxis h g.lon } else g
  bif meridional then { g with lat := Halo.extendAxis h g.lat } else g

end Parcels.CellAreas
