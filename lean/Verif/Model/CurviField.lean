import Verif.Model.Curvilinear
import Verif.Model.Interp
import Verif.Model.TimeInterp

/-!
Model of sampling a scalar field on a curvilinear grid with z levels, with all interpolation methods and in
time: the horizontal search of Model/Curvilinear, the vertical search of Model/Search, the interpolation of
Model/Interp and Model/TimeInterp.

Simplification: exact rational arithmetic; the square root is an argument and may be any function.
-/

namespace Parcels.CurviField
open Parcels.Search Parcels.Interp Parcels.TimeInterp

/-- What sampling uses of a field on a curvilinear grid with z levels. Models: field.py:1080-1104 (what `eval` uses), grid.py:386-469. -/
structure CField where
  grid : Curvilinear.CGrid ℚ
  depth : List ℚ
  mom5 : Bool
  axis : TAxis
  method : Method
  indexing : Indexing
  data : Nat → Arr

/-- `search_indices_curvilinear` in Python, from cell (xi, yi). Models: field.py:788-880 (z levels). -/
def searchAll (sqrt : ℚ → ℚ) (maxIter : Nat) (f : CField) (x y z : ℚ) (xi yi : ℤ) : Except Err Pos :=
  match Curvilinear.search sqrt false maxIter f.grid x y xi yi with
  | .error e => .error e
  | .ok r =>
    match (if 1 < f.depth.length then searchZ f.depth f.mom5 z else .ok (-1, 0)) with
    | .error e => .error e
    | .ok (zi, zeta) =>
      if inUnit r.xsi && inUnit r.eta && inUnit zeta then
        .ok { xsi := r.xsi, eta := r.eta, zeta := zeta, xi := r.xi, yi := r.yi, zi := zi }
      else .error .sampling

/-- `search_indices_curvilinear` in C, from cell (xi, yi) and level zi. Models: index_search.h:271-404 (z levels). -/
def cSearchAll (sqrt : ℚ → ℚ) (maxIter : Nat) (f : CField) (x y z : ℚ) (xi yi : ℤ) (zi : Nat) : Except Err Pos :=
  match Curvilinear.search sqrt true maxIter f.grid x y xi yi with
  | .error e => .error e
  | .ok r =>
    match (if 1 < f.depth.length then cSearchZ f.depth f.mom5 z zi else .ok ((zi : ℤ), 0)) with
    | .error e => .error e
    | .ok (zi', zeta) =>
      if inUnit r.xsi && inUnit r.eta && inUnit zeta then
        .ok { xsi := r.xsi, eta := r.eta, zeta := zeta, xi := r.xi, yi := r.yi, zi := zi' }
      else .error .sampling

/-- Sampling at snapshot `i`, Scipy; RuntimeError and NameError are reported as IndexError.
Models: field.py:888-1012, 1033-1046. -/
def sample (sqrt : ℚ → ℚ) (maxIter : Nat) (f : CField) (i : Nat) (x y z : ℚ) (xi yi : ℤ) : Except Err ℚ :=
  match searchAll sqrt maxIter f x y z xi yi with
  | .error e => .error e
  | .ok p =>
    let r := if f.depth.length ≤ 1 then interp2D f.method p.xsi p.eta (pyCell2 (f.data i) p)
      else interp3D f.method f.indexing p.zi f.depth.length p.xsi p.eta p.zeta (pyCell3 (f.data i) p)
    match r with
    | none => .error .index
    | some v => .ok v

/-- Sampling at snapshot `i`, JIT. Models: parcels.h:508-583 without the interpolation in time. -/
def cSample (sqrt : ℚ → ℚ) (maxIter : Nat) (f : CField) (i : Nat) (x y z : ℚ) (xi yi : ℤ) (zi : Nat) : Except Err ℚ :=
  match cSearchAll sqrt maxIter f x y z xi yi zi with
  | .error e => .error e
  | .ok p =>
    if f.depth.length ≤ 1 then .ok (cInterp2D f.method f.indexing p.xsi p.eta (cCell2 (f.data i) p.xi.toNat p.yi.toNat))
    else
      let top := decide (f.indexing = .mom5) && decide (p.zi = -1)
      let bottom := decide (f.indexing = .pop) && decide (p.zi = (f.depth.length : ℤ) - 2)
      let k := if top then 0 else if bottom then p.zi - 1 else p.zi
      .ok (cInterp3D f.method f.indexing top bottom p.xsi p.eta p.zeta (cCell3 (f.data i) p.xi.toNat p.yi.toNat k))

/-- `Field.eval` without unit conversion. `start i` is the cell in which the search for snapshot `i` begins: the
previous cell of the particle for the first snapshot, the cell found for the second, or the middle of the grid if
there is no particle. Models: field.py:1080-1104, 789-794, 875-878. -/
def eval (sqrt : ℚ → ℚ) (maxIter : Nat) (f : CField) (t z y x : ℚ) (start : Nat → ℤ × ℤ) : Except SErr ℚ :=
  evalTime f.axis (fun i => sample sqrt maxIter f i x y z (start i).1 (start i).2) t

/-- Sampling in JIT mode, from the cell, level and snapshot where the particle was. Models: parcels.h:476-588. -/
def cEval (sqrt : ℚ → ℚ) (maxIter : Nat) (f : CField) (fuel : Nat) (t z y x : ℚ) (xi yi : ℤ) (zi : Nat) (ti : ℤ) :
    Option (Except SErr ℚ) :=
  cEvalTime f.axis (fun i => cSample sqrt maxIter f i x y z xi yi zi) fuel t ti

end Parcels.CurviField
