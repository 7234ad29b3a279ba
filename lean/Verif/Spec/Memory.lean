import Verif.Model.Memory
import Verif.Spec.Chunks

/-!
Vocabulary for C83: grids, fields and indices as the compiled code finds them.
-/

namespace Parcels.Memory
open Parcels.Chunks (at? Copes InMemory Data)

variable {C α : Type}

/-- A grid with its arrays complete. A rectilinear grid has axes that end at the largest coordinate (as increasing ones do), and on a flat mesh no zonal halo. A curvilinear grid has a flat
mesh and at least two rows and two columns. Grids with depths at each node have at least two rows and two columns. -/
structure Complete (g : Grid C) : Prop where
  time : g.time ≠ []
  zdim : 1 ≤ g.zdim
  lonMax : g.curv = none → g.lon.getLast? = some g.lonMax
  latMax : g.curv = none → g.lat.getLast? = some g.latMax
  noHalo : g.curv = none → g.zonalPeriodic = true → g.spherical = true
  nodes : ∀ v, g.curv = some v → g.spherical = false ∧ 2 ≤ g.lon.length ∧ 2 ≤ g.lat.length ∧ v.1.length = g.lat.length * g.lon.length ∧
    v.2.length = g.lat.length * g.lon.length
  depthZ : g.s = false → g.depth.length = g.zdim
  depthS : g.s = true → 2 ≤ g.lon.length ∧ 2 ≤ g.lat.length ∧
    g.depth.length = (if g.z4d then g.time.length else 1) * g.zdim * g.lat.length * g.lon.length

/-- A field on the grid: its chunks are those of data with the dimensions of the grid, in a layout the C code copes with (C47), and present where the load state says so. -/
structure On (g : Grid C) (f : Fld α) (d : Data α) : Prop where
  copes : Copes f.axes
  memory : InMemory f.axes d f.load f.chunks
  dims : f.axes.map List.sum = if g.zdim = 1 then [g.lat.length, g.lon.length] else [g.zdim, g.lat.length, g.lon.length]
  times : d.tdim = g.time.length

/-- The indices of a particle are in range, so that each axis with more than one node has a next node. New particles have the indices 0, 0, 0 and -1. -/
structure InRange (g : Grid C) (ix : Idx) : Prop where
  x : 1 < g.lon.length → 0 ≤ ix.xi ∧ ix.xi + 1 < g.lon.length
  y : 1 < g.lat.length → 0 ≤ ix.yi ∧ ix.yi + 1 < g.lat.length
  z : 1 < g.zdim → 0 ≤ ix.zi ∧ ix.zi + 1 < g.zdim
  t : ix.ti < g.time.length

/-- One sample: a field, or the velocities of a C-grid in two dimensions, or in three where the levels follow the terrain. -/
inductive Req (C α : Type) where
  | field (f : Fld α) (d : Data α) (bgrid : Bool) (x y z t : C)
  | velocity (u v : Fld α) (du dv : Data α) (shared : Bool) (x y z t : C)
  | velocity3 (u v w : Fld α) (du dv dw : Data α) (shared : Bool) (x y z t : C)

/-- The fields of the sample are on the grid. `shared`: the components are on one grid object, with the same chunks. -/
def Req.On (g : Grid C) : Req C α → Prop
  | .field f d _ _ _ _ _ => Memory.On g f d
  | .velocity u v du dv shared _ _ _ _ => Memory.On g u du ∧ Memory.On g v dv ∧ (shared = true → u.axes = v.axes ∧ u.load = v.load)
  | .velocity3 u v w du dv dw shared _ _ _ _ => Memory.On g u du ∧ Memory.On g v dv ∧ Memory.On g w dw ∧
    (shared = true → u.axes = v.axes ∧ u.load = v.load ∧ u.axes = w.axes ∧ u.load = w.load)

/-- The depth at which the sample is taken. -/
def Req.depth : Req C α → C
  | .field _ _ _ _ _ z _ => z
  | .velocity _ _ _ _ _ _ _ z _ => z
  | .velocity3 _ _ _ _ _ _ _ _ _ z _ => z

/-- Where the code is meant to take such a sample: two-dimensional C-grid velocities with NEMO indexing on at least two rows and two columns, three-dimensional ones on several
terrain-following levels. -/
def Req.Meant (g : Grid C) (ixg : Indexing) : Req C α → Prop
  | .field .. => ixg = .pop → g.zdim ≠ 2
  | .velocity .. => ixg = .nemo ∧ 2 ≤ g.lon.length ∧ 2 ≤ g.lat.length
  | .velocity3 .. => ixg ≠ .mom5 ∧ g.s = true ∧ 2 ≤ g.zdim

/-- The effect of a sample on the particle's indices, whether it succeeds or ends with an error. `none`: a read outside an array. -/
def Req.run (o : Ops C) (g : Grid C) (ixg : Indexing) (depth : Nat) (ix : Idx) : Req C α → Option Idx
  | .field f _ bgrid x y z t => (sample o g f ixg bgrid depth x y z t ix).map (·.1)
  | .velocity u v _ _ shared x y z t => (sampleUV o g u v shared ixg depth x y z t ix).map (·.1)
  | .velocity3 u v w _ _ _ shared x y z t => (sampleUVW o g u v w shared ixg depth x y z t ix).map (·.1)

/-- Any number of samples, one after the other. -/
def runAll (o : Ops C) (g : Grid C) (ixg : Indexing) (depth : Nat) : List (Req C α) → Idx → Option Idx
  | [], ix => some ix
  | r :: rs, ix => (r.run o g ixg depth ix).bind fun ix => runAll o g ixg depth rs ix

end Parcels.Memory
