import Verif.Model.Interp
import Verif.Model.TimeInterp

/-!
Model of sampling a field on a rectilinear grid with terrain-following levels (s-levels): the depths of the levels differ from column to
column, and may differ from snapshot to snapshot (parcels/field.py:630-680, 701-786, 933-1012, 1036-1099; parcels/include/index_search.h:84-139,
168-268; parcels/include/parcels.h:476-585).

Simplifications: exact arithmetic; at least two levels; values are not NaN; unit conversion is in Model/Converters; the depths are the ones the
grid holds when the field is sampled (fieldset.py:265-275, 1157-1163 copy them from a field if the user asked for that).
-/

namespace Parcels.SLevels
open Parcels.Search Parcels.TimeInterp Parcels.Interp

/-- Exceptions and error codes. `assertion`: AssertionError, `index`: IndexError, `runtime`: the method does not exist in 3D.
Models: field.py:650, 665-668, 675-678, 704-708; index_search.h:49-52. -/
inductive Fail where
  | time
  | space (e : Err)
  | assertion
  | index
  | runtime
deriving DecidableEq, Repr

/-- A rectilinear grid with s-levels. `hor.depth` is not used. `ndep` is `len(depth)` of four-dimensional depths, `dep n` are the depths
of snapshot `n` (of all snapshots for `n = 0` if `z4d` is false). Models: grid.py:363-383 (RectilinearSGrid); index_search.h:35-46. -/
structure SGrid where
  hor : RGrid
  zdim : Nat
  z4d : Bool
  ndep : Nat
  dep : Nat → Arr

/-- The methods for which the depths are those of the north-eastern corner. Models: field.py:633-635, index_search.h:88-91. -/
def cornerColumn (m : Method) : Bool :=
  match m with
  | .bgridVelocity => true
  | .bgridW => true
  | .bgridTracer => true
  | _ => false

/-- `depth_vector` at snapshot `n`. Models: field.py:640-643, 645-648, 653-656. -/
def pyCol (g : SGrid) (m : Method) (xi yi : ℤ) (xsi eta : ℚ) (n : Nat) : List ℚ :=
  column g.zdim (fun k j i => (g.dep n).py k (yi + j) (xi + i)) (cornerColumn m) xsi eta

/-- `depth_vector` in `search_indices_vertical_s`; `T` is `grid.time`. Simplification: for a negative index into the snapshots the slice
has fewer than two elements, so that every outcome is an exception; it is `index` here. Models: field.py:633-656. -/
def pyColumn (g : SGrid) (T : List ℚ) (m : Method) (ti : ℤ) (time : ℚ) (xi yi : ℤ) (xsi eta : ℚ) : Except Fail (List ℚ) :=
  let ti := if time < T.getD (wrapIdx T.length ti) 0 then ti - 1 else ti
  if g.z4d then
    if ti = (T.length : ℤ) - 1 then .ok (pyCol g m xi yi xsi eta (g.ndep - 1))
    else if 0 ≤ ti ∧ ti + 1 < g.ndep then
      let tt := (time - T.getD ti.toNat 0) / (T.getD (ti.toNat + 1) 0 - T.getD ti.toNat 0)
      if 0 ≤ tt ∧ tt ≤ 1 then
        .ok (List.zipWith (fun a b => a * (1 - tt) + b * tt) (pyCol g m xi yi xsi eta ti.toNat)
          (pyCol g m xi yi xsi eta (ti.toNat + 1)))
      else .error .assertion
    else .error .index
  else .ok (pyCol g m xi yi xsi eta 0)

/-- `search_indices_rectilinear` on a grid with s-levels. Models: field.py:701-786 with 630-680. -/
def searchRectS (g : SGrid) (T : List ℚ) (m : Method) (x y z : ℚ) (ti : ℤ) (time : ℚ) : Except Fail Pos :=
  if 1 < g.hor.lon.length ∧ g.hor.zonalPeriodic = false ∧ (x < minL g.hor.lon ∨ maxL g.hor.lon < x) then .error (.space .outOfBounds)
  else if 1 < g.hor.lat.length ∧ (y < minL g.hor.lat ∨ maxL g.hor.lat < y) then .error (.space .outOfBounds)
  else
    match searchX g.hor x with
    | none => .error .index
    | some (xi, xsi) =>
      match searchY g.hor y with
      | none => .error .index
      | some (yi, eta) =>
        match pyColumn g T m ti time xi yi xsi eta with
        | .error e => .error e
        | .ok col =>
          match searchS col z with
          | .error e => .error (.space e)
          | .ok (zi, zeta) =>
            if inUnit xsi && inUnit eta && inUnit zeta then
              .ok { xsi := xsi, eta := eta, zeta := zeta, xi := xi, yi := yi, zi := zi }
            else .error (.space .sampling)

/-- `spatial_interpolation` of snapshot `ti` (`data` is the snapshot) with the levels at `time`. Models: field.py:1036-1046, 933-1012. -/
def sampleS (g : SGrid) (T : List ℚ) (ix : Indexing) (m : Method) (data : Arr) (x y z : ℚ) (ti : ℤ) (time : ℚ) : Except Fail ℚ :=
  match searchRectS g T m x y z ti time with
  | .error e => .error e
  | .ok p =>
    match interp3D m ix p.zi g.zdim p.xsi p.eta p.zeta (pyCell3 data p) with
    | none => .error .runtime
    | some v => .ok v

/-- `Field.eval` without unit conversion. Models: field.py:1080-1099. -/
def evalS (g : SGrid) (a : TAxis) (ix : Indexing) (m : Method) (data : Nat → Arr) (t x y z : ℚ) : Except Fail ℚ :=
  match timeIndex a t with
  | .error _ => .error .time
  | .ok (ti, periods) =>
    let n := a.time.length
    let t' := t - periods * (a.fullMax - a.fullMin)
    let t0 := a.time.getD (wrapIdx n ti) 0
    if ti < (a.tdim : ℤ) - 1 ∧ t0 < t' then
      match sampleS g a.time ix m (data (wrapIdx n ti)) x y z ti t' with
      | .error e => .error e
      | .ok f0 =>
        match sampleS g a.time ix m (data (wrapIdx n (ti + 1))) x y z (ti + 1) t' with
        | .error e => .error e
        | .ok f1 =>
          let t1 := a.time.getD (wrapIdx n (ti + 1)) 0
          .ok (f0 + (f1 - f0) * ((t' - t0) / (t1 - t0)))
    else sampleS g a.time ix m (data (wrapIdx n ti)) x y z ti t0

/-! ### JIT -/

/-- `zt0`, `zt1`: the column at snapshot `n`. Models: index_search.h:88-91, 100-107, 114-118. -/
def cCol (g : SGrid) (m : Method) (xi yi : Nat) (xsi eta : ℚ) (n : Nat) : List ℚ :=
  column g.zdim (fun k j i => (g.dep n).v k (yi + j) (xi + i)) (cornerColumn m) xsi eta

/-- `zcol`. Models: index_search.h:84-121. -/
def cColumn (g : SGrid) (tdim : Nat) (m : Method) (ti : Nat) (time t0 t1 : ℚ) (xi yi : Nat) (xsi eta : ℚ) : List ℚ :=
  if g.z4d then
    let ti1 := if ti < tdim - 1 then ti + 1 else ti
    List.zipWith (fun a b => a + (b - a) * ((time - t0) / (t1 - t0))) (cCol g m xi yi xsi eta ti) (cCol g m xi yi xsi eta ti1)
  else cCol g m xi yi xsi eta 0

/-- `search_indices_vertical_s` in C after the column is computed. Models: index_search.h:123-138. -/
def cSearchS (d : List ℚ) (z : ℚ) (start : Nat) : Except Err (ℤ × ℚ) :=
  let first := d.headD 0
  let last := d.getLastD 0
  let finish := fun (zi : Nat) =>
    let zi := if zi = d.length - 1 then zi - 1 else zi
    Except.ok ((zi : ℤ), cRel d z zi)
  if first < last then
    if z < first then .error .throughSurface
    else if last < z then .error .outOfBounds
    else finish (cWalk ltB d z start)
  else
    if first < z then .error .throughSurface
    else if z < last then .error .outOfBounds
    else finish (cWalk gtB d z start)

/-- `search_indices_rectilinear` in C on a grid with s-levels, from the previous cell of the particle. Models: index_search.h:168-268. -/
def cSearchRectS (g : SGrid) (tdim : Nat) (m : Method) (x y z : ℚ) (xi yi zi : Nat) (ti : Nat) (time t0 t1 : ℚ) : Except Fail Pos :=
  if g.hor.zonalPeriodic = false ∧ 1 < g.hor.lon.length ∧ (x < minL g.hor.lon ∨ maxL g.hor.lon < x) then .error (.space .outOfBounds)
  else if 1 < g.hor.lat.length ∧ (y < minL g.hor.lat ∨ maxL g.hor.lat < y) then .error (.space .outOfBounds)
  else
    match cSearchX g.hor x xi with
    | .error e => .error (.space e)
    | .ok (xi', xsi) =>
      let yi' := (cAxis g.hor.lat y yi).1
      let eta := (cAxis g.hor.lat y yi).2
      match cSearchS (cColumn g tdim m ti time t0 t1 xi'.toNat yi' xsi eta) z zi with
      | .error e => .error (.space e)
      | .ok (zi', zeta) =>
        if inUnit xsi && inUnit eta && inUnit zeta then
          .ok { xsi := xsi, eta := eta, zeta := zeta, xi := xi', yi := (yi' : Nat), zi := zi' }
        else .error (.space .sampling)

/-- `temporal_interpolation_structured_grid`; `none`: the search for the time does not end within the fuel. Models: parcels.h:476-591. -/
def cEvalS (g : SGrid) (a : TAxis) (ix : Indexing) (m : Method) (data : Nat → Arr) (fuel : Nat) (t x y z : ℚ) (xi yi zi : Nat) (ti : ℤ) :
    Option (Except Fail ℚ) :=
  if a.periodic = false ∧ a.extrap = false ∧ (t < a.time.headD 0 ∨ a.time.getD (a.tdim - 1) 0 < t) then some (.error .time)
  else
    match cSearchTime (a.time.take a.tdim) a.periodic a.fullMin a.fullMax fuel t ti 0 with
    | none => none
    | some (t', i, _) =>
      let t0 := a.time.getD i 0
      let two := decide (i < a.tdim - 1) && decide (t0 < t')
      let t1 := bif two then a.time.getD (i + 1) 0 else t0 + 1
      let tsrch := bif two then t' else t0
      match cSearchRectS g a.tdim m x y z xi yi zi i tsrch t0 t1 with
      | .error e => some (.error e)
      | .ok p =>
        let top := decide (ix = .mom5) && decide (p.zi = -1)
        let bottom := decide (ix = .pop) && decide (p.zi = (g.zdim : ℤ) - 2)
        let k := if top then 0 else if bottom then p.zi - 1 else p.zi
        let val := fun n => cInterp3D m ix top bottom p.xsi p.eta p.zeta (cCell3 (data n) p.xi.toNat p.yi.toNat k)
        let v1 := bif two then val (i + 1) else 0
        some (.ok (val i + (v1 - val i) * ((tsrch - t0) / (t1 - t0))))

end Parcels.SLevels
