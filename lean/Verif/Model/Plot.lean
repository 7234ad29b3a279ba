import Verif.Model.PeriodRun

/-!
Model of what `Field.show` and `ParticleSet.show(field=...)` display (parcels/plotting.py:102-264, 310-322): the nodes, the values at the nodes, and the time.

Simplifications: exact arithmetic; fields loaded at once, on rectilinear grids with z levels and at least two longitudes and latitudes (`squeeze` would drop an axis with one node); `depth_level` is not negative; the
comparison of the longitudes of both components (`allclose`) is exact; colours, arrows, maps and titles are left out, except for the time in the title.
-/

namespace Parcels.Plot

open Search Interp TimeInterp
open GridRun (Fld)

/-- Exceptions: the time is outside the field, the domain is outside the grid, an index is outside an array, or the components have different longitudes.
Models: plotting.py:145-146, 155-156, 315-316. -/
inductive PErr where
  | time
  | domain
  | index
  | aGrid
deriving DecidableEq, Repr

/-- What is displayed of one field: longitudes, latitudes, the value at row `j` and column `i`, and the time in the title. Models: plotting.py:148-166, 239. -/
structure Img where
  x : List ℚ
  y : List ℚ
  v : Nat → Nat → ℚ
  time : ℚ

/-- A domain. Models: plotting.py:313-314. -/
structure Domain where
  N : ℚ
  S : ℚ
  E : ℚ
  W : ℚ

/-- The index of the time, and the time moved into the time axis of the field. Models: plotting.py:143-146. -/
def shownAt (per : Bool) (f : Fld) (t : ℚ) : Except PErr (ℤ × ℚ) :=
  match timeIndex (TAxis.full f.time per f.extrap) t with
  | .error _ => .error .time
  | .ok (ti, periods) =>
    let t' := t - periods * (f.time.getLastD 0 - f.time.headD 0)
    if f.time.getLastD 0 < t' ∨ t' < f.time.headD 0 then .error .time else .ok (ti, t')

/-- `temporal_interpolate_fullfield`. Models: field.py:1014-1031. -/
def fullfield (f : Fld) (ti : ℤ) (t : ℚ) : Except PErr (Nat → Nat → Nat → ℚ) :=
  let n := f.time.length
  let t0 := f.time.getD (wrapIdx n ti) 0
  if t = t0 then .ok (f.data (wrapIdx n ti)).v
  else if (n : ℤ) ≤ ti + 1 then .error .time
  else
    let t1 := f.time.getD (wrapIdx n (ti + 1)) 0
    let f0 := (f.data (wrapIdx n ti)).v
    let f1 := (f.data (wrapIdx n (ti + 1))).v
    .ok fun k j i => f0 k j i + (f1 k j i - f0 k j i) * ((t - t0) / (t1 - t0))

/-- The data of all levels at the time. Models: plotting.py:157-166. -/
def levels (f : Fld) (ti : ℤ) (t : ℚ) : Except PErr (Nat → Nat → Nat → ℚ) :=
  if 1 < f.time.length then fullfield f ti t else .ok (f.data 0).v

/-- `parsedomain` on a rectilinear grid with z levels: `latN, latS, lonE, lonW`. Models: plotting.py:310-322. -/
def parsedomain (dom : Option Domain) (g : RGrid) : Except PErr (ℤ × ℤ × ℤ × ℤ) :=
  match dom with
  | none => .ok (g.lat.length, 0, g.lon.length, 0)
  | some d =>
    match searchRect { g with depth := [] } d.W d.S 0, searchRect { g with depth := [] } d.E d.N 0 with
    | .ok p, .ok q => .ok (q.yi + 1, p.yi, q.xi + 1, p.xi)
    | _, _ => .error .domain

/-- `l[a:b]`. Models: plotting.py:153-154. -/
def slice (l : List ℚ) (a b : Nat) : List ℚ := (l.drop a).take (b - a)

/-- One field. Models: plotting.py:139-166. -/
def plotOne (per : Bool) (f : Fld) (dom : Option Domain) (level : Nat) (t : ℚ) : Except PErr Img :=
  match shownAt per f t with
  | .error e => .error e
  | .ok (ti, t') =>
    match parsedomain dom f.grid with
    | .error e => .error e
    | .ok (latN, latS, lonE, lonW) =>
      match levels f ti t' with
      | .error e => .error e
      | .ok g =>
        if 1 < f.grid.depth.length ∧ f.grid.depth.length ≤ level then .error .index
        else
          .ok { x := slice f.grid.lon lonW.toNat lonE.toNat
                y := slice f.grid.lat latS.toNat latN.toNat
                v := fun j i => g (if 1 < f.grid.depth.length then level else 0) (latS.toNat + j) (lonW.toNat + i)
                time := t' }

/-- A vector field: the second component is read at the time that the first one left. Models: plotting.py:117-120, 139-166. -/
def plotVector (perU perV : Bool) (fU fV : Fld) (dom : Option Domain) (level : Nat) (t : ℚ) : Except PErr (Img × Img) :=
  match plotOne perU fU dom level t with
  | .error e => .error e
  | .ok u =>
    match plotOne perV fV dom level u.time with
    | .error e => .error e
    | .ok v => if v.x = u.x then .ok (u, v) else .error .aGrid

/-- The colour of cell `(j, i)` between four nodes of a field that is not on a C-grid. Models: plotting.py:215-220. -/
def cell (m : Img) (j i : Nat) : ℚ :=
  let d := (m.v j i + m.v (j + 1) i + m.v j (i + 1) + m.v (j + 1) (i + 1)) / 4
  let d := if m.v j i = 0 then 0 else d
  let d := if m.v (j + 1) i = 0 then 0 else d
  let d := if m.v (j + 1) (i + 1) = 0 then 0 else d
  if m.v j (i + 1) = 0 then 0 else d

/-- The colour of cell `(j, i)` of a tracer on a C-grid. Models: plotting.py:204-205. -/
def tracerCell (m : Img) (j i : Nat) : ℚ := m.v (j + 1) (i + 1)

/-- The arrows of a velocity on a C-grid. The second component is made from the first. Models: plotting.py:168-178. -/
def cgridArrows (u _v : Img) : (Nat → Nat → ℚ) × (Nat → Nat → ℚ) :=
  let d0 := fun j i => if j + 1 < u.y.length then (u.v j i + u.v (j + 1) i) / 2 else u.v j i
  let d1 := fun j i => if i + 1 < u.x.length then (d0 j i + d0 j (i + 1)) / 2 else d0 j i
  (d0, d1)

/-- The kinds of grids. Models: grid.py:20-24. -/
inductive Kind where
  | rectZ
  | rectS
  | curvZ
  | curvS
deriving DecidableEq, Repr

/-- The number of rows and columns that are displayed without a domain, of data with `ny` rows and `nx` columns. `lon` has one axis on rectilinear grids, two (`ny`, `nx`) on others; a slice beyond the end stops there.
Models: plotting.py:148-166, 318-322. -/
def defaultShape (k : Kind) (ny nx : Nat) : Except PErr (Nat × Nat) :=
  match k with
  | .rectZ => .ok (min ny ny, min nx nx)
  | .rectS => .error .index
  | .curvZ => .ok (min ny ny, min ny nx)
  | .curvS => .ok (min ny ny, min nx nx)

/-- Sampling a tracer on a C-grid in Scipy mode. Models: field.py:926-927, 1033-1046, 1080-1099. -/
def tracerEval (per : Bool) (f : Fld) (t z y x : ℚ) : Except SErr ℚ :=
  evalTime (TAxis.full f.time per f.extrap) (fun i => match sample f.grid .nemo .cgridTracer (f.data i) x y z with
    | .ok (some v) => .ok v
    | .ok none => .error .index
    | .error e => .error e) t

end Parcels.Plot
