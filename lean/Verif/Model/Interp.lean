import Verif.Model.Search

/-!
Model of spatial interpolation of a scalar field, in Scipy mode (parcels/field.py:888-1012) and in JIT mode
(parcels/include/parcels.h:66-283, 500-580).

Simplifications: exact arithmetic; one snapshot (the interpolation in time is in Model/TimeInterp); C data are read
directly (chunks are in Model/Chunks).
-/

namespace Parcels.Interp
open Parcels.Search

/-- `interp_method`. Models: field.py:890-931, 935-1012; index_search.h:19-22. -/
inductive Method where
  | linear
  | nearest
  | invdist
  | bgridVelocity
  | bgridW
  | bgridTracer
  | cgridTracer
  | cgridVelocity
deriving DecidableEq, Repr

/-- `gridindexingtype`. Models: field.py:942-1006; index_search.h:24-27. -/
inductive Indexing where
  | nemo
  | mitgcm
  | mom5
  | pop
deriving DecidableEq, Repr

/-- The values at the corners of a cell: first index north, second index east. Models: `data[2][2]` of parcels.h:67-74; field.py:895-898. -/
abbrev Cell2 := Nat → Nat → ℚ
/-- First index down (next depth level), then north, then east. Models: `data[2][2][2]` of parcels.h:134-148; field.py:991-1003. -/
abbrev Cell3 := Nat → Nat → Nat → ℚ

/-- Data of one snapshot; `nz = 1` for a 2D field. Models: `self.data[ti]` of field.py:888-1012. -/
structure Arr where
  nz : Nat
  ny : Nat
  nx : Nat
  v : Nat → Nat → Nat → ℚ

/-- A Python index; negative ones count from the end. Simplification: an index beyond the end (IndexError) does not
occur, since the search returns cells of the grid (C24, C25) and data have the shape of the grid. Models: the indices of field.py:893-898, 939-948, 991-1003. -/
def wrap (n : Nat) (i : ℤ) : Nat := if i < 0 then (i + n).toNat else i.toNat

/-- `data[k, j, i]` in Python. Models: field.py:893-898, 939-948, 991-1003. -/
def Arr.py (d : Arr) (k j i : ℤ) : ℚ := d.v (wrap d.nz k) (wrap d.ny j) (wrap d.nx i)

/-- The cell read by `interpolator2D`. Models: field.py:895-898, 901, 915-917. -/
def pyCell2 (d : Arr) (p : Pos) : Cell2 := fun j i => d.py 0 (p.yi + j) (p.xi + i)

/-- The cell read by `interpolator3D`. Models: field.py:950, 965-967, 991-1003. -/
def pyCell3 (d : Arr) (p : Pos) : Cell3 := fun k j i => d.py (p.zi + k) (p.yi + j) (p.xi + i)

/-- Bilinear interpolation. Models: field.py:895-898, parcels.h:66-74. -/
def bilin (xsi eta : ℚ) (c : Cell2) : ℚ :=
  (1 - xsi) * (1 - eta) * c 0 0 + xsi * (1 - eta) * c 0 1 + xsi * eta * c 1 1 + (1 - xsi) * eta * c 1 0

/-- Trilinear interpolation. Models: field.py:971-981, 991-1008, parcels.h:133-148. -/
def trilin (xsi eta zeta : ℚ) (c : Cell3) : ℚ :=
  (1 - zeta) * bilin xsi eta (c 0) + zeta * bilin xsi eta (c 1)

/-- The loop over the nodes of a cell with inverse distance weights: `hit n` is returned at a node, `skip n` says which
nodes are left out. Models: field.py:906-919, 955-969; parcels.h:109-129, 211-233. -/
def invLoop {N : Type} (onNode : ℚ → Bool) (land skip : N → Bool) (dist hit v : N → ℚ) : List N → ℚ → ℚ → ℚ
  | [], val, w => val / w
  | n :: ns, val, w =>
    bif onNode (dist n) then (bif land n then 0 else hit n)
    else bif skip n then invLoop onNode land skip dist hit v ns val w
    else invLoop onNode land skip dist hit v ns (val + v n / dist n) (w + 1 / dist n)

/-- The nodes in the order of the loops. Models: field.py:908-909; parcels.h:110-111. -/
def nodes2 : List (Nat × Nat) := [(0, 0), (0, 1), (1, 0), (1, 1)]
/-- The nodes in the order of the loops in space. Models: field.py:957-959; parcels.h:212-214. -/
def nodes3 : List (Nat × Nat × Nat) :=
  [(0, 0, 0), (0, 0, 1), (0, 1, 0), (0, 1, 1), (1, 0, 0), (1, 0, 1), (1, 1, 0), (1, 1, 1)]

/-- `np.isclose(x, 0.)`. Models: field.py:901, 911, 950, 961. -/
def closeZero (x : ℚ) : Bool := isclose x 0

/-- `pow(eta - j, 2) + pow(xsi - i, 2)`. Models: field.py:910; parcels.h:112. -/
def dist2 (xsi eta : ℚ) (n : Nat × Nat) : ℚ := (eta - n.1) ^ 2 + (xsi - n.2) ^ 2
/-- The same in space. Models: field.py:960; parcels.h:215. -/
def dist3 (xsi eta zeta : ℚ) (n : Nat × Nat × Nat) : ℚ := (zeta - n.1) ^ 2 + (eta - n.2.1) ^ 2 + (xsi - n.2.2) ^ 2

/-- `linear_invdist_land_tracer` in 2D, Scipy. The test `land[i][j] == 0` in the loop is transposed.
Models: field.py:900-925. -/
def pyInv2 (xsi eta : ℚ) (c : Cell2) : ℚ :=
  let land : Nat × Nat → Bool := fun n => closeZero (c n.1 n.2)
  let nb := (nodes2.filter land).length
  if nb = 4 then 0
  else if 0 < nb then
    invLoop closeZero land (fun n => land (n.2, n.1)) (dist2 xsi eta) (fun n => c n.1 n.2) (fun n => c n.1 n.2)
      nodes2 0 0
  else bilin xsi eta c

/-- The same in 3D. The value returned on a node is `data[zi+i, yi+j, xi+k]`, transposed.
Models: field.py:949-981. -/
def pyInv3 (xsi eta zeta : ℚ) (c : Cell3) : ℚ :=
  let land : Nat × Nat × Nat → Bool := fun n => closeZero (c n.1 n.2.1 n.2.2)
  let nb := (nodes3.filter land).length
  if nb = 8 then 0
  else if 0 < nb then
    invLoop closeZero land land (dist3 xsi eta zeta) (fun n => c n.2.2 n.2.1 n.1) (fun n => c n.1 n.2.1 n.2.2)
      nodes3 0 0
  else trilin xsi eta zeta c

/-- `is_zero_flt`. Models: parcels.h:62-64. -/
def cZero (x : ℚ) : Bool := decide (x = 0)

/-- The last node that is not land, in loop order. Models: parcels.h:88-93, 188-194. -/
def lastOcean {N : Type} (land : N → Bool) (v : N → ℚ) (ns : List N) : ℚ :=
  (((ns.filter fun n => !land n).getLast?).map v).getD 0

/-- Models: parcels.h:76-131. -/
def cInv2 (xsi eta : ℚ) (c : Cell2) : ℚ :=
  let land : Nat × Nat → Bool := fun n => cZero (c n.1 n.2)
  let nb := (nodes2.filter land).length
  if nb = 0 then bilin xsi eta c
  else if nb = 3 then lastOcean land (fun n => c n.1 n.2) nodes2
  else if nb = 4 then 0
  else invLoop cZero land land (dist2 xsi eta) (fun n => c n.1 n.2) (fun n => c n.1 n.2) nodes2 0 0

/-- Models: parcels.h:175-235. -/
def cInv3 (xsi eta zeta : ℚ) (c : Cell3) : ℚ :=
  let land : Nat × Nat × Nat → Bool := fun n => cZero (c n.1 n.2.1 n.2.2)
  let nb := (nodes3.filter land).length
  if nb = 0 then trilin xsi eta zeta c
  else if nb = 7 then lastOcean land (fun n => c n.1 n.2.1 n.2.2) nodes3
  else if nb = 8 then 0
  else invLoop cZero land land (dist3 xsi eta zeta) (fun n => c n.1 n.2.1 n.2.2) (fun n => c n.1 n.2.1 n.2.2)
    nodes3 0 0

/-- `interpolator2D` after the search; `none`: RuntimeError. Models: field.py:888-931. -/
def interp2D (m : Method) (xsi eta : ℚ) (c : Cell2) : Option ℚ :=
  match m with
  | .nearest => some (c (if eta ≤ 1 / 2 then 0 else 1) (if xsi ≤ 1 / 2 then 0 else 1))
  | .linear => some (bilin xsi eta c)
  | .bgridVelocity => some (bilin xsi eta c)
  | .invdist => some (pyInv2 xsi eta c)
  | .cgridTracer => some (c 1 1)
  | .bgridTracer => some (c 1 1)
  | .cgridVelocity => none
  | .bgridW => none

/-- The linear branch of `interpolator3D`: `zi` is the layer, `zdim` the number of levels.
Models: field.py:982-1008. -/
def linear3D (m : Method) (ix : Indexing) (zi : ℤ) (zdim : Nat) (xsi eta zeta : ℚ) (c : Cell3) : ℚ :=
  let zeta := if m = .bgridVelocity then (if ix = .mom5 then 1 else 0) else zeta
  let eta := if m = .bgridW then 1 else eta
  let xsi := if m = .bgridW then 1 else xsi
  if ix = .pop ∧ (zdim : ℤ) - 2 ≤ zi then (1 - zeta) * bilin xsi eta (c 0)
  else if m = .bgridW ∧ ix = .mom5 ∧ zi = -1 then zeta * bilin xsi eta (c 1)
  else (1 - zeta) * bilin xsi eta (c 0) + zeta * bilin xsi eta (c 1)

/-- `interpolator3D` after the search. For `cgrid_velocity` with an indexing other than NEMO or MITgcm the values are
unbound (NameError). Models: field.py:933-1012. -/
def interp3D (m : Method) (ix : Indexing) (zi : ℤ) (zdim : Nat) (xsi eta zeta : ℚ) (c : Cell3) : Option ℚ :=
  match m with
  | .nearest => some (c (if zeta ≤ 1 / 2 then 0 else 1) (if eta ≤ 1 / 2 then 0 else 1) (if xsi ≤ 1 / 2 then 0 else 1))
  | .cgridVelocity =>
    match ix with
    | .nemo => some ((1 - zeta) * c 0 1 1 + zeta * c 1 1 1)
    | .mitgcm => some ((1 - zeta) * c 0 0 0 + zeta * c 1 0 0)
    | _ => none
  | .invdist => some (pyInv3 xsi eta zeta c)
  | .linear => some (linear3D m ix zi zdim xsi eta zeta c)
  | .bgridVelocity => some (linear3D m ix zi zdim xsi eta zeta c)
  | .bgridW => some (linear3D m ix zi zdim xsi eta zeta c)
  | .cgridTracer => some (c 0 1 1)
  | .bgridTracer => some (c 0 1 1)

/-- Sampling a field at one snapshot, Scipy. Models: field.py:1036-1046 (`spatial_interpolation`) with 888-1012. -/
def sample (g : RGrid) (ix : Indexing) (m : Method) (d : Arr) (x y z : ℚ) : Except Err (Option ℚ) :=
  match searchRect g x y z with
  | .error e => .error e
  | .ok p =>
    if g.depth.length ≤ 1 then .ok (interp2D m p.xsi p.eta (pyCell2 d p))
    else .ok (interp3D m ix p.zi g.depth.length p.xsi p.eta p.zeta (pyCell3 d p))

/-! ### JIT -/

/-- The cell read by `getCell2D` (one chunk). Models: parcels.h:313-374. -/
def cCell2 (d : Arr) (xi yi : Nat) : Cell2 := fun j i =>
  d.v 0 (yi + (if d.ny = 1 then 0 else j)) (xi + (if d.nx = 1 then 0 else i))

/-- The cell read by `getCell3D` at depth index `zi` (one chunk). Simplification: a negative index (POP with two
levels) reads before the array; here it reads level 0. Models: parcels.h:406-473. -/
def cCell3 (d : Arr) (xi yi : Nat) (zi : ℤ) : Cell3 := fun k j i =>
  d.v (zi.toNat + (if d.nz = 1 then 0 else k)) (yi + (if d.ny = 1 then 0 else j)) (xi + (if d.nx = 1 then 0 else i))

/-- Models: parcels.h:529-583 for `zdim == 1`. -/
def cInterp2D (m : Method) (ix : Indexing) (xsi eta : ℚ) (c : Cell2) : ℚ :=
  match m with
  | .linear => bilin xsi eta c
  | .bgridVelocity => bilin xsi eta c
  | .cgridVelocity => if ix = .mitgcm then bilin 0 0 c else bilin 1 1 c
  | .bgridW => if ix = .mitgcm then bilin 0 0 c else bilin 1 1 c
  | .nearest => c (if eta < 1 / 2 then 0 else 1) (if xsi < 1 / 2 then 0 else 1)
  | .cgridTracer => c 1 1
  | .bgridTracer => c 1 1
  | .invdist => cInv2 xsi eta c

/-- The linear branch in 3D; `top`: MOM5 and layer -1; `bottom`: POP and the last layer.
Models: parcels.h:544-570. -/
def cLinear3D (m : Method) (ix : Indexing) (top bottom : Bool) (xsi eta zeta : ℚ) (c : Cell3) : ℚ :=
  let corner := m = .cgridVelocity ∨ m = .bgridW
  let xsi := if corner then (if ix = .mitgcm then 0 else 1) else xsi
  let eta := if corner then (if ix = .mitgcm then 0 else 1) else eta
  let zeta := if m = .bgridVelocity then (if ix = .mom5 then 1 else 0) else zeta
  if top then zeta * bilin xsi eta (c 0)
  else if bottom then (1 - zeta) * bilin xsi eta (c 1)
  else trilin xsi eta zeta c

/-- Models: parcels.h:529-583 for `zdim > 1`. -/
def cInterp3D (m : Method) (ix : Indexing) (top bottom : Bool) (xsi eta zeta : ℚ) (c : Cell3) : ℚ :=
  match m with
  | .nearest => c (if zeta < 1 / 2 then 0 else 1) (if eta < 1 / 2 then 0 else 1) (if xsi < 1 / 2 then 0 else 1)
  | .cgridTracer => if bottom then c 1 1 1 else c 0 1 1
  | .bgridTracer => if bottom then c 1 1 1 else c 0 1 1
  | .invdist => cInv3 xsi eta zeta c
  | .linear => cLinear3D m ix top bottom xsi eta zeta c
  | .bgridVelocity => cLinear3D m ix top bottom xsi eta zeta c
  | .bgridW => cLinear3D m ix top bottom xsi eta zeta c
  | .cgridVelocity => cLinear3D m ix top bottom xsi eta zeta c

/-- Sampling a field at one snapshot, JIT, from the previous cell `(xi, yi, zi)` of the particle.
Models: parcels.h:508-583 without the interpolation in time. -/
def cSample (g : RGrid) (ix : Indexing) (m : Method) (d : Arr) (x y z : ℚ) (xi yi zi : Nat) : Except Err ℚ :=
  match cSearchRect g x y z xi yi zi with
  | .error e => .error e
  | .ok p =>
    if g.depth.length ≤ 1 then .ok (cInterp2D m ix p.xsi p.eta (cCell2 d p.xi.toNat p.yi.toNat))
    else
      let top := decide (ix = .mom5) && decide (p.zi = -1)
      let bottom := decide (ix = .pop) && decide (p.zi = (g.depth.length : ℤ) - 2)
      let k := if top then 0 else if bottom then p.zi - 1 else p.zi
      .ok (cInterp3D m ix top bottom p.xsi p.eta p.zeta (cCell3 d p.xi.toNat p.yi.toNat k))

end Parcels.Interp
