import Verif.Model.Base

/-!
Model of the search for the grid cell of a position, on rectilinear grids
(parcels/field.py:601-786 and parcels/include/index_search.h:59-268).

Simplifications: exact arithmetic (the float32 casts of coordinates are left out); `0/0` cannot occur on
strictly monotone axes.
-/

namespace Parcels.Search

/-- Exceptions and error codes. `index`: an IndexError in Python. Models: field.py:610-612, 620-622, 704-708; index_search.h:49-52. -/
inductive Err where
  | outOfBounds
  | throughSurface
  | sampling
  | index
deriving DecidableEq, Repr

/-- Python indexing `l[i]`, negative indices count from the end. Models: field.py:628, 717-723, 737-743, 754-760. -/
def pyGet (l : List ℚ) (i : ℤ) : Option ℚ :=
  if i < 0 then (if -i ≤ l.length then l[(l.length + i).toNat]? else none) else l[i.toNat]?

/-- `(x - l[i]) / (l[i+1] - l[i])`. Models: field.py:628, 717, 720, 723, 737, 740, 743, 754, 757, 760. -/
def rel (l : List ℚ) (x : ℚ) (i : ℤ) : Option ℚ :=
  match pyGet l i, pyGet l (i + 1) with
  | some a, some b => some ((x - a) / (b - a))
  | _, _ => none

/-- First guess of the cell. Models: field.py:712-716, 732-736, 748-752. -/
def guess (l : List ℚ) (x : ℚ) : ℤ :=
  if l.all fun v => decide (v < x) then (l.length : ℤ) - 2
  else if l.any fun v => decide (v < x) then ((l.findIdx fun v => !decide (v < x) : Nat) : ℤ) - 1
  else 0

/-- Search along one axis, with the correction by one cell. `none`: IndexError.
Models: field.py:712-723, 732-743, 748-760. -/
def axisSearch (l : List ℚ) (x : ℚ) : Option (ℤ × ℚ) :=
  match rel l x (guess l x) with
  | none => none
  | some r =>
    if r < 0 then (rel l x (guess l x - 1)).map fun r' => (guess l x - 1, r')
    else if 1 < r then (rel l x (guess l x + 1)).map fun r' => (guess l x + 1, r')
    else some (guess l x, r)

/-- `lon_fixed` before the shift that depends on x. Models: field.py:725-728. -/
def unwrap (l : List ℚ) : List ℚ :=
  if l.all fun v => decide (l.headD 0 ≤ v) then l
  else
    let k := l.findIdx fun v => !decide (l.headD 0 ≤ v)
    l.take k ++ (l.drop k).map (· + 360)

/-- `lon_fixed`. Models: field.py:725-730. -/
def lonFixed (l : List ℚ) (x : ℚ) : List ℚ :=
  if x < (unwrap l).headD 0 then (unwrap l).map (· - 360) else unwrap l

/-- `search_indices_vertical_z`. Models: field.py:601-629. -/
def searchZ (d : List ℚ) (mom5 : Bool) (z : ℚ) : Except Err (ℤ × ℚ) :=
  let first := d.headD 0
  let last := d.getLastD 0
  let finish := fun (zi : ℤ) => match rel d z zi with
    | some r => Except.ok (zi, r)
    | none => .error .index
  if first < last then
    if z < first then
      if mom5 && decide (2 * first - d.getD 1 0 < z) then .ok (-1, z / first) else .error .throughSurface
    else if last < z then .error .outOfBounds
    else finish (if last ≤ z then (d.length : ℤ) - 2
      else if first ≤ z then ((d.findIdx fun v => !decide (v ≤ z) : Nat) : ℤ) - 1 else 0)
  else
    if first < z then .error .throughSurface
    else if z < last then .error .outOfBounds
    else finish (if z ≤ last then (d.length : ℤ) - 2
      else if z ≤ first then ((d.findIdx fun v => !decide (z ≤ v) : Nat) : ℤ) - 1 else 0)

/-- The column of depths at a position: bilinear in the four corner columns. `c k j i` is `depth[k, yi+j, xi+i]`.
Models: field.py:633-635, 653-656; index_search.h:88-91, 115-120. -/
def column (zdim : Nat) (c : Nat → Nat → Nat → ℚ) (bgrid : Bool) (xsi eta : ℚ) : List ℚ :=
  let xsi := if bgrid then 1 else xsi
  let eta := if bgrid then 1 else eta
  (List.range zdim).map fun k =>
    (1 - xsi) * (1 - eta) * c k 0 0 + xsi * (1 - eta) * c k 0 1 + xsi * eta * c k 1 1 + (1 - xsi) * eta * c k 1 0

/-- `search_indices_vertical_s` after the column is computed. Models: field.py:657-680. -/
def searchS (d : List ℚ) (z : ℚ) : Except Err (ℤ × ℚ) :=
  let first := d.headD 0
  let last := d.getLastD 0
  let finish := fun (zi : ℤ) => match rel d z zi with
    | some r => Except.ok (zi, r)
    | none => .error .index
  if first < last then
    let zi : ℤ := if last ≤ z then (d.length : ℤ) - 2
      else if first ≤ z then ((d.findIdx fun v => !decide (v ≤ z) : Nat) : ℤ) - 1 else 0
    match pyGet d zi, pyGet d (zi + 1) with
    | some a, some b =>
      if z < a then .error .throughSurface else if b < z then .error .outOfBounds else finish zi
    | _, _ => .error .index
  else
    let zi : ℤ := if z ≤ last then (d.length : ℤ) - 2
      else if z ≤ first then ((d.findIdx fun v => !decide (z ≤ v) : Nat) : ℤ) - 1 else 0
    match pyGet d zi, pyGet d (zi + 1) with
    | some a, some b =>
      if a < z then .error .throughSurface else if z < b then .error .outOfBounds else finish zi
    | _, _ => .error .index

/-- A rectilinear grid with z levels. Models: grid.py:37-68, 263-277, 326-337; index_search.h:35-46. -/
structure RGrid where
  lon : List ℚ
  lat : List ℚ
  depth : List ℚ
  spherical : Bool
  zonalPeriodic : Bool
  mom5 : Bool

/-- Smallest / largest value of a list. Models: grid.py:62 (`lonlat_minmax`). -/
def minL (l : List ℚ) : ℚ := l.foldl min (l.headD 0)
/-- Largest element. Models: grid.py:62. -/
def maxL (l : List ℚ) : ℚ := l.foldl max (l.headD 0)

/-- Result of a search. Models: field.py:786 (`xsi, eta, zeta, xi, yi, zi`). -/
structure Pos where
  xsi : ℚ
  eta : ℚ
  zeta : ℚ
  xi : ℤ
  yi : ℤ
  zi : ℤ
deriving DecidableEq, Repr

/-- x part. Models: field.py:710-745. -/
def searchX (g : RGrid) (x : ℚ) : Option (ℤ × ℚ) :=
  if 1 < g.lon.length then
    bif g.spherical then axisSearch (lonFixed g.lon x) x else axisSearch g.lon x
  else some (-1, 0)

/-- y part. Models: field.py:747-762. -/
def searchY (g : RGrid) (y : ℚ) : Option (ℤ × ℚ) :=
  if 1 < g.lat.length then axisSearch g.lat y else some (-1, 0)

/-- z part. Models: field.py:764-776 (z levels). -/
def searchDepth (g : RGrid) (z : ℚ) : Except Err (ℤ × ℚ) :=
  if 1 < g.depth.length then searchZ g.depth g.mom5 z else .ok (-1, 0)

/-- The final check. Models: field.py:778-779. -/
def inUnit (r : ℚ) : Bool := decide (0 ≤ r) && decide (r ≤ 1)

/-- `search_indices_rectilinear` on a grid with z levels. Models: field.py:701-786. -/
def searchRect (g : RGrid) (x y z : ℚ) : Except Err Pos :=
  if 1 < g.lon.length ∧ g.zonalPeriodic = false ∧ (x < minL g.lon ∨ maxL g.lon < x) then .error .outOfBounds
  else if 1 < g.lat.length ∧ (y < minL g.lat ∨ maxL g.lat < y) then .error .outOfBounds
  else
    match searchX g x with
    | none => .error .index
    | some (xi, xsi) =>
      match searchY g y with
      | none => .error .index
      | some (yi, eta) =>
        match searchDepth g z with
        | .error e => .error e
        | .ok (zi, zeta) =>
          if inUnit xsi && inUnit eta && inUnit zeta then
            .ok { xsi := xsi, eta := eta, zeta := zeta, xi := xi, yi := yi, zi := zi }
          else .error .sampling

/-! ### The C search -/

/-- `while (i < n-1 && lt(v[i+1], x)) ++i`; the fuel is at least the number of steps. Models: index_search.h:69, 75, 126, 132, 197, 239. -/
def cUp (lt : ℚ → ℚ → Bool) (l : List ℚ) (x : ℚ) : Nat → Nat → Nat
  | 0, i => i
  | f + 1, i =>
    if i < l.length - 1 then
      bif lt (l.getD (i + 1) 0) x then cUp lt l x f (i + 1) else i
    else i

/-- `while (i > 0 && lt(x, v[i])) --i`. Models: index_search.h:70, 76, 127, 133, 198, 240. -/
def cDown (lt : ℚ → ℚ → Bool) (l : List ℚ) (x : ℚ) : Nat → Nat
  | 0 => 0
  | i + 1 => bif lt x (l.getD (i + 1) 0) then cDown lt l x i else i + 1

/-- Both loops. Models: index_search.h:69-70, 75-76, 126-127, 132-133, 197-198, 239-240. -/
def cWalk (lt : ℚ → ℚ → Bool) (l : List ℚ) (x : ℚ) (start : Nat) : Nat :=
  cDown lt l x (cUp lt l x l.length start)

/-- `a < b`. Models: the comparisons of index_search.h:69-76, 126-133. -/
def ltB (a b : ℚ) : Bool := decide (a < b)
/-- `a > b`. Models: the comparisons of index_search.h:69-76, 126-133. -/
def gtB (a b : ℚ) : Bool := decide (b < a)

/-- `(x - v[i]) / (v[i+1] - v[i])` in C. Simplification: reading beyond the end gives 0. Models: index_search.h:80, 137, 199, 241. -/
def cRel (l : List ℚ) (x : ℚ) (i : Nat) : ℚ := (x - l.getD i 0) / (l.getD (i + 1) 0 - l.getD i 0)

/-- x (flat mesh) or y search in C: cell and relative coordinate.
Models: index_search.h:192-200, 234-242. -/
def cAxis (l : List ℚ) (x : ℚ) (start : Nat) : Nat × ℚ :=
  if l.length = 1 then (0, 0) else (cWalk ltB l x start, cRel l x (cWalk ltB l x start))

/-- `search_indices_vertical_z` in C. Models: index_search.h:59-82. -/
def cSearchZ (d : List ℚ) (mom5 : Bool) (z : ℚ) (start : Nat) : Except Err (ℤ × ℚ) :=
  let first := d.headD 0
  let last := d.getLastD 0
  let finish := fun (zi : Nat) =>
    let zi := if zi = d.length - 1 then zi - 1 else zi
    Except.ok ((zi : ℤ), cRel d z zi)
  if first < last then
    if z < first && mom5 && decide (2 * first - d.getD 1 0 < z) then .ok (-1, z / first)
    else if z < first then .error .throughSurface
    else if last < z then .error .outOfBounds
    else finish (cWalk ltB d z start)
  else
    if first < z then .error .throughSurface
    else if z < last then .error .outOfBounds
    else finish (cWalk gtB d z start)

/-- Node of the cell, moved by 360 degrees towards x. Models: index_search.h:203-206, 219-221. -/
def near225 (v x : ℚ) : ℚ :=
  let v1 := if v < x - 225 then v + 360 else v
  if x + 225 < v1 then v1 - 360 else v1

/-- Next node, moved by 360 degrees towards the first. Models: index_search.h:207-209, 222-224. -/
def near180 (v1 v0 : ℚ) : ℚ :=
  let w := if v1 < v0 - 180 then v1 + 360 else v1
  if v0 + 180 < w then w - 360 else w

/-- `reconnect_bnd_indices` with onlyX = 1, sphere_mesh = 1. Models: index_search.h:141-154. -/
def wrapX (xi xdim : ℤ) : ℤ :=
  let a := if xi < 0 then xdim - 2 else xi
  if xdim - 2 < a then 0 else a

/-- The search on a spherical mesh in C; the fuel is `itMax`. Result: cell and the two node longitudes used.
Models: index_search.h:203-231. -/
def cSphere (l : List ℚ) (x : ℚ) : Nat → ℤ → Except Err (ℤ × ℚ × ℚ)
  | fuel, xi =>
    let a := near225 (l.getD xi.toNat 0) x
    let b := near180 (l.getD (xi.toNat + 1) 0) a
    if x < a ∨ b < x then
      match fuel with
      | 0 => .error .outOfBounds
      | f + 1 => cSphere l x f (wrapX (if b < x then xi + 1 else xi - 1) l.length)
    else .ok (xi, a, b)

/-- x part in C. Models: index_search.h:192-232. -/
def cSearchX (g : RGrid) (x : ℚ) (start : Nat) : Except Err (ℤ × ℚ) :=
  if g.lon.length = 1 then .ok (0, 0)
  else bif g.spherical then
    match cSphere g.lon x 10000 start with
    | .error e => .error e
    | .ok (xi, a, b) => .ok (xi, (x - a) / (b - a))
  else .ok (((cAxis g.lon x start).1 : Nat), (cAxis g.lon x start).2)

/-- `search_indices_rectilinear` in C on a grid with z levels; `xi`, `yi`, `zi` are the particle's previous cell.
Models: index_search.h:168-268. -/
def cSearchRect (g : RGrid) (x y z : ℚ) (xi yi zi : Nat) : Except Err Pos :=
  if g.zonalPeriodic = false ∧ 1 < g.lon.length ∧ (x < minL g.lon ∨ maxL g.lon < x) then .error .outOfBounds
  else if 1 < g.lat.length ∧ (y < minL g.lat ∨ maxL g.lat < y) then .error .outOfBounds
  else
    match cSearchX g x xi with
    | .error e => .error e
    | .ok (xi', xsi) =>
      match (if 1 < g.depth.length then cSearchZ g.depth g.mom5 z zi else .ok ((zi : ℤ), 0)) with
      | .error e => .error e
      | .ok (zi', zeta) =>
        if inUnit xsi && inUnit (cAxis g.lat y yi).2 && inUnit zeta then
          .ok { xsi := xsi, eta := (cAxis g.lat y yi).2, zeta := zeta, xi := xi',
                yi := ((cAxis g.lat y yi).1 : Nat), zi := zi' }
        else .error .sampling

end Parcels.Search
