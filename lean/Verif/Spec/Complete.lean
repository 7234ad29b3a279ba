import Verif.Model.Complete

/-!
Which velocity fields belong together (C82).
-/

namespace Parcels.Complete

/-- Kind and components of a velocity field; a single field has itself as its component. -/
def Vel.Is : Vel → Kind → List VF → Prop
  | .single f, .single, l => l = [f]
  | .summed fs, .summed, l => l = fs
  | .nested fs, .nested, l => l = fs
  | _, _, _ => False

/-- U and V can be used together: both or none have C-grid velocities, and then they are on one grid with at least two nodes in each direction; none is interpolated with the method for
tracers over land; both have the same known indexing, and MITgcm indexing only on rectilinear grids. -/
structure Pair (u v : VF) : Prop where
  cgrid : u.method = .cgrid ↔ v.method = .cgrid
  dims : u.method = .cgrid → u.xdim ≠ 1 ∧ u.ydim ≠ 1 ∧ v.xdim ≠ 1 ∧ v.ydim ≠ 1 ∧ u.grid = v.grid
  land : u.method ≠ .invdist ∧ v.method ≠ .invdist
  known : u.indexing ≠ .unknown
  same : u.indexing = v.indexing
  mitgcm : u.indexing = .mitgcm → u.gtype = .rectZ ∨ u.gtype = .rectS

/-- W goes with U: the same indexing, and with C-grid velocities the same method and grid. -/
structure Vertical (u w : VF) : Prop where
  same : u.indexing = w.indexing
  cgrid : u.method = .cgrid → w.method = .cgrid ∧ u.grid = w.grid

end Parcels.Complete
