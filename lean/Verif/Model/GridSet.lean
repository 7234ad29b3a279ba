import Verif.Model.TimeInterp

/-!
Model of `GridSet` (parcels/gridset.py:12-67) and of the part of `FieldSet.check_complete` that puts all grids on one
time axis (parcels/fieldset.py:228-236).

Simplifications: exact arithmetic; a coordinate array is its shape and its entries; dates are numbers of seconds.
-/

namespace Parcels.GridSet

/-- A coordinate array. Models: grid.py:37-53. -/
structure Coord where
  shape : List Nat
  vals : List ℚ
deriving DecidableEq, Repr

/-- `chunksize` of a grid or field: False/None, 'auto', or the sizes by dimension (in a fixed order). Models: field.py:1120-1146, grid.py:64-66. -/
inductive Chunk where
  | no
  | auto
  | sizes (l : List Nat)
deriving DecidableEq, Repr

/-- What matters of a grid. `ident` is the identity of the Python object. Models: grid.py:37-68. -/
structure Grid where
  ident : Nat
  lon : Coord
  lat : Coord
  depth : Coord
  time : Coord
  origin : ℚ
  spherical : Bool
  chunk : Chunk
deriving DecidableEq, Repr

/-- `np.allclose(a, b)` for arrays of the same shape: |a - b| ≤ 1e-8 + 1e-5 |b| for all entries. Models: gridset.py:29. -/
def allclose (a b : List ℚ) : Bool :=
  (a.zip b).all fun p => decide (|p.1 - p.2| ≤ 1 / 100000000 + 1 / 100000 * |p.2|)

/-- Models: gridset.py:29. -/
def sameCoord (g h : Coord) : Bool := decide (g.shape = h.shape) && allclose g.vals h.vals

/-- Comparison of chunk sizes; `none`: the code fails because the existing grid has no sizes.
Models: gridset.py:33-37. -/
def sameChunks (g grid : Chunk) : Option Bool :=
  if g = grid then some true
  else
    match grid, g with
    | .no, _ => some true
    | .sizes a, .sizes b => some (decide ((a.zip b).all (fun p => decide (p.1 = p.2))))
    | _, _ => none

/-- The loop over existing grids: index of the grid to use, or `none` to append. The outer `none`: the code fails.
Models: gridset.py:17-42. -/
def findGrid (grid : Grid) (fieldChunk : Chunk) : List Grid → Nat → Option (Option Nat)
  | [], _ => some none
  | g :: rest, i =>
    if fieldChunk = .auto then some none
    else if g.ident = grid.ident then some (some i)
    else if grid.origin ≠ g.origin then findGrid grid fieldChunk rest (i + 1)
    else
      match sameChunks g.chunk grid.chunk with
      | none => none
      | some c =>
        if (sameCoord g.lon grid.lon && sameCoord g.lat grid.lat && sameCoord g.depth grid.depth && sameCoord g.time grid.time) && c
        then some (some i)
        else findGrid grid fieldChunk rest (i + 1)

/-- `add_grid`: the grids afterwards, and the index of the field's grid. Models: gridset.py:14-46. -/
def addGrid (grids : List Grid) (grid : Grid) (fieldChunk : Chunk) : Option (List Grid × Nat) :=
  match findGrid grid fieldChunk grids 0 with
  | none => none
  | some (some i) => some (grids, i)
  | some none => some (grids ++ [grid], grids.length)

/-- `dimrange` for an increasing dimension: loop over the axes, then the defaults. `none` is minus or plus infinity.
Models: gridset.py:48-67. -/
def dimLoop : List (List ℚ) → Option ℚ × Option ℚ → Option ℚ × Option ℚ
  | [], acc => acc
  | ax :: rest, (lo, hi) =>
    if ax.length = 1 then dimLoop rest (lo, hi)
    else
      dimLoop rest
        (some (match lo with | none => ax.headD 0 | some l => max l (ax.headD 0)),
         some (match hi with | none => ax.getLastD 0 | some h => min h (ax.getLastD 0)))

/-- The range in one dimension. Models: gridset.py:48-67. -/
def dimrange (axes : List (List ℚ)) : ℚ × ℚ :=
  let r := dimLoop axes (none, none)
  (r.1.getD 0, r.2.getD 0)

/-! ### Time origins -/

/-- The times of a grid: loaded times, all times, origin, and whether loading is deferred. A grid that is not deferred
starts with `timeFull = time`. Models: grid.py:40, 51-52. -/
structure GTime where
  time : List ℚ
  timeFull : List ℚ
  origin : ℚ
  deferred : Bool
deriving DecidableEq, Repr

/-- Models: fieldset.py:228-236 for one grid; `o` is the origin of the field set. -/
def complete (o : ℚ) (g : GTime) : GTime :=
  if g.time.length = 1 then g
  else
    { time := g.time.map (· + (g.origin - o))
      timeFull := if g.deferred then g.timeFull.map (· + (g.origin - o)) else g.timeFull
      origin := o
      deferred := g.deferred }

/-- The axis on which a field of the grid is sampled; `tdim` as in `TAxis`. Models: field.py:1048-1078. -/
def GTime.axis (g : GTime) (tdim : Nat) (periodic extrap : Bool) : TimeInterp.TAxis :=
  { time := g.time, tdim := tdim, fullMin := g.timeFull.headD 0, fullMax := g.timeFull.getLastD 0, periodic := periodic, extrap := extrap }

end Parcels.GridSet
