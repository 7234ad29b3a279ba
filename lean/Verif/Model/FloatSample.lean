import Verif.Model.Interp
import Verif.Model.TimeInterp
import Verif.Model.FloatAdvect

/-!
Sampling a field with linear interpolation again (Model/Search, Model/Interp and Model/TimeInterp in exact arithmetic), with a rounding after every
operation: the search for the cell on rectilinear grids with z levels, the interpolation in space and the interpolation in time, in both modes.

Comparisons of numbers are exact, also between single and double precision (before version 2, numpy casts a double-precision number to single precision
to compare it with an array of these; the first guess of the cell can then be the cell before). Which precision an operation has depends on the mode and on the types of
the particle's coordinates; the model has one rounding for each kind of operation.

Simplifications: no overflow, underflow or NaN; interpolation method `linear` with the indexing of NEMO or MITgcm; fields that are not periodic in time
(the computation of periods is left in exact arithmetic); a spherical mesh is modelled in Scipy mode only.
-/

namespace Parcels.FloatSample
open Parcels.Search Parcels.Interp Parcels.TimeInterp

/-- The roundings: of operations with the coordinates of the position (`fl`), of differences of neighbouring nodes (`nd`: nodes are `float32`), of the
interpolation in space (`ar`), of assignments to `float` variables and casts to `float` (`st`), of times (`tm`), of the difference of two samples (`df`)
and of the interpolation in time (`bl`).
Models: grid.py:41-46, 335-337 (`np.float32` nodes), index_search.h:13-17 (`type_coord`), 168-181 (`float *xvals`); parcels.h:67, 134-137 (`double xsi`, `float data`, `float f0`). -/
structure Arith where
  fl : ℚ → ℚ
  nd : ℚ → ℚ
  ar : ℚ → ℚ
  st : ℚ → ℚ
  tm : ℚ → ℚ
  df : ℚ → ℚ
  bl : ℚ → ℚ

/-- JIT mode, coordinates of particles in single precision (the default, except on C grids). Models: index_search.h:13-17, 168-181; parcels.h:67-74, 133-148, 585-587. -/
def jit32 : Arith :=
  ⟨FloatAdvect.f32, FloatAdvect.f32, FloatTime.f64, FloatAdvect.f32, FloatTime.f64, FloatAdvect.f32, FloatAdvect.f32⟩

/-- JIT mode, coordinates in double precision: nodes are still `float`, and so are their differences. Models: index_search.h:13-17, 168-181, 199, 241; parcels.h:67-74, 133-148, 585-587. -/
def jit64 : Arith := { jit32 with fl := FloatTime.f64 }

/-- Scipy mode, coordinates in single precision. Models: field.py:717, 895-898, 1094 with numpy's rules for `float32` and `float64`. -/
def scipy32 : Arith :=
  ⟨FloatAdvect.f32, FloatAdvect.f32, FloatAdvect.f32, id, FloatTime.f64, FloatAdvect.f32, FloatTime.f64⟩

/-- Scipy mode, coordinates in double precision; differences of nodes are in single precision. Models: field.py:717, 895-898, 1094 with numpy's rules for `float32` and `float64`. -/
def scipy64 : Arith :=
  ⟨FloatTime.f64, FloatAdvect.f32, FloatTime.f64, id, FloatTime.f64, FloatTime.f64, FloatTime.f64⟩

/-! ### The search in Scipy mode -/

/-- `(x - l[i]) / (l[i+1] - l[i])`. Models: field.py:628, 717, 720, 723, 737, 740, 743, 754, 757, 760. -/
def rel (r : Arith) (l : List ℚ) (x : ℚ) (i : ℤ) : Option ℚ :=
  match pyGet l i, pyGet l (i + 1) with
  | some a, some b => some (r.fl (r.fl (x - a) / r.nd (b - a)))
  | _, _ => none

/-- Search along one axis. `none`: IndexError. Models: field.py:712-723, 732-743, 748-760. -/
def axisSearch (r : Arith) (l : List ℚ) (x : ℚ) : Option (ℤ × ℚ) :=
  match rel r l x (guess l x) with
  | none => none
  | some q =>
    if q < 0 then (rel r l x (guess l x - 1)).map fun q' => (guess l x - 1, q')
    else if 1 < q then (rel r l x (guess l x + 1)).map fun q' => (guess l x + 1, q')
    else some (guess l x, q)

/-- `lon_fixed` before the shift that depends on x, in `float32`. Models: field.py:725-728. -/
def unwrap (r : Arith) (l : List ℚ) : List ℚ :=
  if l.all fun v => decide (l.headD 0 ≤ v) then l
  else
    let k := l.findIdx fun v => !decide (l.headD 0 ≤ v)
    l.take k ++ (l.drop k).map fun v => r.nd (v + 360)

/-- `lon_fixed`. Models: field.py:725-730. -/
def lonFixed (r : Arith) (l : List ℚ) (x : ℚ) : List ℚ :=
  if x < (unwrap r l).headD 0 then (unwrap r l).map fun v => r.nd (v - 360) else unwrap r l

/-- `search_indices_vertical_z`; the depth is cast to `float32` first. Models: field.py:601-629. -/
def searchZ (r : Arith) (d : List ℚ) (mom5 : Bool) (z : ℚ) : Except Err (ℤ × ℚ) :=
  let z := r.nd z
  let first := d.headD 0
  let last := d.getLastD 0
  let finish := fun (zi : ℤ) => match rel { r with fl := r.nd } d z zi with
    | some q => Except.ok (zi, q)
    | none => .error .index
  if first < last then
    if z < first then
      if mom5 && decide (r.nd (r.nd (2 * first) - d.getD 1 0) < z) then .ok (-1, r.nd (z / first)) else .error .throughSurface
    else if last < z then .error .outOfBounds
    else finish (if last ≤ z then (d.length : ℤ) - 2
      else if first ≤ z then ((d.findIdx fun v => !decide (v ≤ z) : Nat) : ℤ) - 1 else 0)
  else
    if first < z then .error .throughSurface
    else if z < last then .error .outOfBounds
    else finish (if z ≤ last then (d.length : ℤ) - 2
      else if z ≤ first then ((d.findIdx fun v => !decide (z ≤ v) : Nat) : ℤ) - 1 else 0)

/-- x part. Models: field.py:710-745. -/
def searchX (r : Arith) (g : RGrid) (x : ℚ) : Option (ℤ × ℚ) :=
  if 1 < g.lon.length then
    bif g.spherical then axisSearch r (lonFixed r g.lon x) x else axisSearch r g.lon x
  else some (-1, 0)

/-- y part. Models: field.py:747-762. -/
def searchY (r : Arith) (g : RGrid) (y : ℚ) : Option (ℤ × ℚ) :=
  if 1 < g.lat.length then axisSearch r g.lat y else some (-1, 0)

/-- z part. Models: field.py:764-776 (z levels). -/
def searchDepth (r : Arith) (g : RGrid) (z : ℚ) : Except Err (ℤ × ℚ) :=
  if 1 < g.depth.length then searchZ r g.depth g.mom5 z else .ok (-1, 0)

/-- `search_indices_rectilinear` on a grid with z levels. Models: field.py:701-786. -/
def searchRect (r : Arith) (g : RGrid) (x y z : ℚ) : Except Err Pos :=
  if 1 < g.lon.length ∧ g.zonalPeriodic = false ∧ (x < minL g.lon ∨ maxL g.lon < x) then .error .outOfBounds
  else if 1 < g.lat.length ∧ (y < minL g.lat ∨ maxL g.lat < y) then .error .outOfBounds
  else
    match searchX r g x with
    | none => .error .index
    | some (xi, xsi) =>
      match searchY r g y with
      | none => .error .index
      | some (yi, eta) =>
        match searchDepth r g z with
        | .error e => .error e
        | .ok (zi, zeta) =>
          if inUnit xsi && inUnit eta && inUnit zeta then
            .ok { xsi := xsi, eta := eta, zeta := zeta, xi := xi, yi := yi, zi := zi }
          else .error .sampling

/-! ### The C search -/

/-- `(x - v[i]) / (v[i+1] - v[i])` in C. Models: index_search.h:80, 199, 241. -/
def cRel (r : Arith) (l : List ℚ) (x : ℚ) (i : Nat) : ℚ := r.fl (r.fl (x - l.getD i 0) / r.nd (l.getD (i + 1) 0 - l.getD i 0))

/-- x (flat mesh) or y search in C. Models: index_search.h:192-200, 234-242. -/
def cAxis (r : Arith) (l : List ℚ) (x : ℚ) (start : Nat) : Nat × ℚ :=
  if l.length = 1 then (0, 0) else (cWalk ltB l x start, cRel r l x (cWalk ltB l x start))

/-- `search_indices_vertical_z` in C. Models: index_search.h:59-82. -/
def cSearchZ (r : Arith) (d : List ℚ) (mom5 : Bool) (z : ℚ) (start : Nat) : Except Err (ℤ × ℚ) :=
  let first := d.headD 0
  let last := d.getLastD 0
  let finish := fun (zi : Nat) =>
    let zi := if zi = d.length - 1 then zi - 1 else zi
    Except.ok ((zi : ℤ), cRel r d z zi)
  if first < last then
    if z < first && mom5 && decide (r.nd (r.nd (2 * first) - d.getD 1 0) < z) then .ok (-1, r.fl (z / first))
    else if z < first then .error .throughSurface
    else if last < z then .error .outOfBounds
    else finish (cWalk ltB d z start)
  else
    if first < z then .error .throughSurface
    else if z < last then .error .outOfBounds
    else finish (cWalk gtB d z start)

/-- `search_indices_rectilinear` in C on a grid with z levels and a flat mesh; `xi`, `yi`, `zi` are the particle's previous cell.
Models: index_search.h:168-200, 234-268. -/
def cSearchRect (r : Arith) (g : RGrid) (x y z : ℚ) (xi yi zi : Nat) : Except Err Pos :=
  if g.zonalPeriodic = false ∧ 1 < g.lon.length ∧ (x < minL g.lon ∨ maxL g.lon < x) then .error .outOfBounds
  else if 1 < g.lat.length ∧ (y < minL g.lat ∨ maxL g.lat < y) then .error .outOfBounds
  else
    match (if 1 < g.depth.length then cSearchZ r g.depth g.mom5 z zi else .ok ((zi : ℤ), 0)) with
    | .error e => .error e
    | .ok (zi', zeta) =>
      if inUnit (cAxis r g.lon x xi).2 && inUnit (cAxis r g.lat y yi).2 && inUnit zeta then
        .ok { xsi := (cAxis r g.lon x xi).2, eta := (cAxis r g.lat y yi).2, zeta := zeta,
              xi := ((cAxis r g.lon x xi).1 : Nat), yi := ((cAxis r g.lat y yi).1 : Nat), zi := zi' }
      else .error .sampling

/-! ### Interpolation -/

/-- Bilinear interpolation, with the store to a `float` in C. Models: field.py:895-898, 992-995, 1000-1003; parcels.h:66-74, 138-145. -/
def bilin (r : Arith) (xsi eta : ℚ) (c : Cell2) : ℚ :=
  let nx := r.ar (1 - xsi)
  let ny := r.ar (1 - eta)
  r.st (r.ar (r.ar (r.ar (r.ar (r.ar (nx * ny) * c 0 0) + r.ar (r.ar (xsi * ny) * c 0 1)) + r.ar (r.ar (xsi * eta) * c 1 1))
    + r.ar (r.ar (nx * eta) * c 1 0)))

/-- Trilinear interpolation. Models: field.py:992-995, 1000-1003, 1008; parcels.h:133-148. -/
def trilin (r : Arith) (xsi eta zeta : ℚ) (c : Cell3) : ℚ :=
  r.st (r.ar (r.ar (r.ar (1 - zeta) * bilin r xsi eta (c 0)) + r.ar (zeta * bilin r xsi eta (c 1))))

/-- Sampling a field at one snapshot, Scipy. Models: field.py:1033-1046 with 888-898, 982-1008. -/
def sample (r : Arith) (g : RGrid) (d : Arr) (x y z : ℚ) : Except Err ℚ :=
  match searchRect r g x y z with
  | .error e => .error e
  | .ok p =>
    if g.depth.length ≤ 1 then .ok (bilin r p.xsi p.eta (pyCell2 d p))
    else .ok (trilin r p.xsi p.eta p.zeta (pyCell3 d p))

/-- Sampling a field at one snapshot, JIT, from the previous cell `(xi, yi, zi)` of the particle. Models: parcels.h:508-570 for `LINEAR`. -/
def cSample (r : Arith) (g : RGrid) (d : Arr) (x y z : ℚ) (xi yi zi : Nat) : Except Err ℚ :=
  match cSearchRect r g x y z xi yi zi with
  | .error e => .error e
  | .ok p =>
    if g.depth.length ≤ 1 then .ok (bilin r p.xsi p.eta (cCell2 d p.xi.toNat p.yi.toNat))
    else .ok (trilin r p.xsi p.eta p.zeta (cCell3 d p.xi.toNat p.yi.toNat p.zi))

/-- `f0 + (f1 - f0) * ((t - t0) / (t1 - t0))`; in C the fraction is cast to `float`. Models: field.py:1094; parcels.h:585-587. -/
def blend (r : Arith) (f0 f1 t t0 t1 : ℚ) : ℚ :=
  r.bl (f0 + r.bl (r.df (f1 - f0) * r.st (r.tm (r.tm (t - t0) / r.tm (t1 - t0)))))

/-- `eval` without unit conversion. Models: field.py:1080-1099. -/
def evalTime (r : Arith) (a : TAxis) (snap : Nat → Except Err ℚ) (t : ℚ) : Except SErr ℚ :=
  match timeIndex a t with
  | .error e => .error e
  | .ok (ti, periods) =>
    let n := a.time.length
    let t' := r.tm (t - r.tm (periods * r.tm (a.fullMax - a.fullMin)))
    let t0 := a.time.getD (wrapIdx n ti) 0
    if ti < (a.tdim : ℤ) - 1 ∧ t0 < t' then
      match snap (wrapIdx n ti) with
      | .error e => .error (.space e)
      | .ok f0 =>
        match snap (wrapIdx n (ti + 1)) with
        | .error e => .error (.space e)
        | .ok f1 => .ok (blend r f0 f1 t' t0 (a.time.getD (wrapIdx n (ti + 1)) 0))
    else
      match snap (wrapIdx n ti) with
      | .error e => .error (.space e)
      | .ok f0 => .ok f0

/-- Sampling in JIT mode from the stored index `ti`. Models: parcels.h:486-511, 585-589. -/
def cEvalTime (r : Arith) (a : TAxis) (snap : Nat → Except Err ℚ) (fuel : Nat) (t : ℚ) (ti : ℤ) : Option (Except SErr ℚ) :=
  if a.periodic = false ∧ a.extrap = false ∧ (t < a.time.headD 0 ∨ a.time.getD (a.tdim - 1) 0 < t) then some (.error .time)
  else
    match cSearchTime (a.time.take a.tdim) a.periodic a.fullMin a.fullMax fuel t ti 0 with
    | none => none
    | some (t', i, _) =>
      let t0 := a.time.getD i 0
      let two := decide (i < a.tdim - 1) && decide (t0 < t')
      match snap i with
      | .error e => some (.error (.space e))
      | .ok f0 =>
        bif two then
          match snap (i + 1) with
          | .error e => some (.error (.space e))
          | .ok f1 => some (.ok (blend r f0 f1 t' t0 (a.time.getD (i + 1) 0)))
        else some (.ok (blend r f0 0 t0 t0 (r.tm (t0 + 1))))

end Parcels.FloatSample
