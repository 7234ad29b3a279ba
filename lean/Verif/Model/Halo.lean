import Verif.Model.Interp
import Mathlib.Algebra.Group.Pi.Basic

/-!
Model of periodic halos: `add_periodic_halo` of the grids (parcels/grid.py:168-186, 273-306, 402-438) and of fields
(parcels/field.py:1224-1266).

An array is the list of its slices along the axis that is extended; `α` is a number (the axes of a rectilinear grid), or a
row or column of numbers (curvilinear grids, depths of s-levels, data). Simplifications: exact arithmetic; zonal and
meridional extension are two applications of the same function, to columns and to rows.
-/

namespace Parcels.Halo
open Parcels.Interp

variable {α : Type}

/-- `l[-h:]`; note that `l[-0:]` is the whole list. Models: the slices of field.py:1244-1260 and grid.py:291-301. -/
def pyLast (h : Nat) (l : List α) : List α := if h = 0 then l else l.drop (l.length - h)

/-- Data, latitudes in zonal direction, depths: `concatenate((a[-h:], a, a[0:h]))`.
Models: field.py:1242-1261, grid.py:168-186, 417-419, 431-433. -/
def extend (h : Nat) (l : List α) : List α := pyLast h l ++ l ++ l.take h

/-- `lonshift` / `latshift`. Models: grid.py:288, 299, 411, 427. -/
def shift [AddCommGroup α] (l : List α) : α := l.getLastD 0 - (l.headD 0 + l.headD 0) + l.getD 1 0

/-- Coordinates: `concatenate((a[-h:] - shift, a, a[0:h] + shift))`. Models: grid.py:291-292, 300-301, 414-416, 428-430. -/
def extendAxis [AddCommGroup α] (h : Nat) (l : List α) : List α :=
  (pyLast h l).map (· - shift l) ++ l ++ (l.take h).map (· + shift l)

/-- A data array extended in zonal direction. Models: field.py:1242-1250. -/
def extendX (h : Nat) (d : Arr) : Arr :=
  { d with
    nx := d.nx + 2 * h
    v := fun k j i => (extend h ((List.range d.nx).map fun i => d.v k j i)).getD i 0 }

end Parcels.Halo
