import Verif.Model.CurviField
import Verif.Model.SLevels

/-!
Model of sampling a scalar field on a curvilinear grid with terrain-following levels (s-levels): the horizontal search of Model/Curvilinear with
the levels of Model/SLevels.

Simplifications: those of the two models.
-/

namespace Parcels.CurviS
open Parcels.Search Parcels.Interp Parcels.TimeInterp Parcels.SLevels

/-- A field on a curvilinear grid with s-levels. Of `levels` the horizontal axes are not used. Models: grid.py:471-512 (CurvilinearSGrid); field.py:1080-1104. -/
structure CSField where
  grid : Curvilinear.CGrid ℚ
  levels : SGrid
  axis : TAxis
  method : Method
  indexing : Indexing
  data : Nat → Arr

/-- `search_indices_curvilinear` in Python, from cell (xi, yi). Models: field.py:788-880 (s levels), 631-680. -/
def searchAll (sqrt : ℚ → ℚ) (maxIter : Nat) (f : CSField) (x y z : ℚ) (ti : ℤ) (time : ℚ) (xi yi : ℤ) : Except Fail Pos :=
  match Curvilinear.search sqrt false maxIter f.grid x y xi yi with
  | .error e => .error (.space e)
  | .ok r =>
    match pyColumn f.levels f.axis.time f.method ti time r.xi r.yi r.xsi r.eta with
    | .error e => .error e
    | .ok col =>
      match searchS col z with
      | .error e => .error (.space e)
      | .ok (zi, zeta) =>
        if inUnit r.xsi && inUnit r.eta && inUnit zeta then
          .ok { xsi := r.xsi, eta := r.eta, zeta := zeta, xi := r.xi, yi := r.yi, zi := zi }
        else .error (.space .sampling)

/-- `spatial_interpolation` of snapshot `n` with the levels at `time`. Models: field.py:1033-1046, 933-1012. -/
def sample (sqrt : ℚ → ℚ) (maxIter : Nat) (f : CSField) (n : Nat) (x y z : ℚ) (ti : ℤ) (time : ℚ) (xi yi : ℤ) : Except Fail ℚ :=
  match searchAll sqrt maxIter f x y z ti time xi yi with
  | .error e => .error e
  | .ok p =>
    match interp3D f.method f.indexing p.zi f.levels.zdim p.xsi p.eta p.zeta (pyCell3 (f.data n) p) with
    | none => .error .runtime
    | some v => .ok v

/-- `Field.eval` without unit conversion; `start n` is the cell where the search for snapshot `n` begins. Models: field.py:1080-1099. -/
def eval (sqrt : ℚ → ℚ) (maxIter : Nat) (f : CSField) (t x y z : ℚ) (start : Nat → ℤ × ℤ) : Except Fail ℚ :=
  match timeIndex f.axis t with
  | .error _ => .error .time
  | .ok (ti, periods) =>
    let n := f.axis.time.length
    let t' := t - periods * (f.axis.fullMax - f.axis.fullMin)
    let i := wrapIdx n ti
    let t0 := f.axis.time.getD i 0
    if ti < (f.axis.tdim : ℤ) - 1 ∧ t0 < t' then
      let i' := wrapIdx n (ti + 1)
      match sample sqrt maxIter f i x y z ti t' (start i).1 (start i).2 with
      | .error e => .error e
      | .ok f0 =>
        match sample sqrt maxIter f i' x y z (ti + 1) t' (start i').1 (start i').2 with
        | .error e => .error e
        | .ok f1 =>
          let t1 := f.axis.time.getD i' 0
          .ok (f0 + (f1 - f0) * ((t' - t0) / (t1 - t0)))
    else sample sqrt maxIter f i x y z ti t0 (start i).1 (start i).2

/-- `search_indices_curvilinear` in C. Models: index_search.h:271-404 (s levels), 84-139. -/
def cSearchAll (sqrt : ℚ → ℚ) (maxIter : Nat) (f : CSField) (x y z : ℚ) (xi yi : ℤ) (zi : Nat) (ti : Nat) (time t0 t1 : ℚ) : Except Fail Pos :=
  match Curvilinear.search sqrt true maxIter f.grid x y xi yi with
  | .error e => .error (.space e)
  | .ok r =>
    match cSearchS (cColumn f.levels f.axis.tdim f.method ti time t0 t1 r.xi.toNat r.yi.toNat r.xsi r.eta) z zi with
    | .error e => .error (.space e)
    | .ok (zi', zeta) =>
      if inUnit r.xsi && inUnit r.eta && inUnit zeta then
        .ok { xsi := r.xsi, eta := r.eta, zeta := zeta, xi := r.xi, yi := r.yi, zi := zi' }
      else .error (.space .sampling)

/-- The value of snapshot `n` at a place, in C. Models: parcels.h:513-583 for `zdim > 1`. -/
def cValue (f : CSField) (p : Pos) (n : Nat) : ℚ :=
  let top := decide (f.indexing = .mom5) && decide (p.zi = -1)
  let bottom := decide (f.indexing = .pop) && decide (p.zi = (f.levels.zdim : ℤ) - 2)
  let k := if top then 0 else if bottom then p.zi - 1 else p.zi
  cInterp3D f.method f.indexing top bottom p.xsi p.eta p.zeta (cCell3 (f.data n) p.xi.toNat p.yi.toNat k)

/-- Sampling in JIT mode, from the cell, level and snapshot where the particle was; `none`: the search for the time does not end within
the fuel. Models: parcels.h:476-591. -/
def cEval (sqrt : ℚ → ℚ) (maxIter : Nat) (f : CSField) (fuel : Nat) (t x y z : ℚ) (xi yi : ℤ) (zi : Nat) (ti : ℤ) : Option (Except Fail ℚ) :=
  if f.axis.periodic = false ∧ f.axis.extrap = false ∧ (t < f.axis.time.headD 0 ∨ f.axis.time.getD (f.axis.tdim - 1) 0 < t) then
    some (.error .time)
  else
    match cSearchTime (f.axis.time.take f.axis.tdim) f.axis.periodic f.axis.fullMin f.axis.fullMax fuel t ti 0 with
    | none => none
    | some (t', i, _) =>
      let t0 := f.axis.time.getD i 0
      let two := decide (i < f.axis.tdim - 1) && decide (t0 < t')
      let t1 := bif two then f.axis.time.getD (i + 1) 0 else t0 + 1
      let tsrch := bif two then t' else t0
      match cSearchAll sqrt maxIter f x y z xi yi zi i tsrch t0 t1 with
      | .error e => some (.error e)
      | .ok p =>
        let v1 := bif two then cValue f p (i + 1) else 0
        some (.ok (cValue f p i + (v1 - cValue f p i) * ((tsrch - t0) / (t1 - t0))))

end Parcels.CurviS
