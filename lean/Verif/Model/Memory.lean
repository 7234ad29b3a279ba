import Verif.Model.Chunks
import Verif.Model.Curvilinear

/-!
Model of the memory that compiled sampling reads: the search for the indices and the access to the data on rectilinear and curvilinear grids (parcels/include/index_search.h:59-458,
parcels/include/parcels.h:464-515, 604-634, 681-766, 768-834, 902-955), with every read of an array checked: `none` is a read outside the array (or of data that were never set, or a call of
`exit`). The indices of the particle are integers, and are kept when an error is returned, as in C.

What is computed from the values does not matter here: numbers have any type, with any comparison and any arithmetic (`Ops`), so that this covers rounding, NaN and infinities.
-/

namespace Parcels.Memory
open Parcels.Chunks (at? chunkInfo getCell Out)

/-- Comparison and arithmetic of coordinates and times. Models: type_coord, float and double of index_search.h:13-17, 35-46. -/
structure Ops (C : Type) where
  lt : C → C → Bool
  zero : C
  one : C
  rel : C → C → C → C        -- (x - a) / (b - a)
  near225 : C → C → C        -- index_search.h:205-206
  near180 : C → C → C        -- index_search.h:208-209
  above : C → C → C          -- 2 * v[0] - v[1]
  ratio : C → C → C          -- z / v[0]
  mix : C → C → C → C → C → C → C   -- bilinear, from xsi, eta and four corners
  tmix : C → C → C → C → C → C      -- linear in time
  before : C → C             -- a time before the first snapshot, moved by periods
  after : C → C              -- a time after the last snapshot, moved by periods
  start : C                  -- -1, index_search.h:305
  lo : C                     -- -tol
  hi : C                     -- 1 + tol
  solve : Bool → C → C → List C → List C → C → C → C × C   -- xsi and eta from the corners of a cell and the old xsi and eta, index_search.h:310-344
  isNan : C → Bool           -- index_search.h:368

/-- Error codes. `hang`: `search_time_index` does not come back. Models: index_search.h:49-52, 433-458. -/
inductive Err where
  | outOfBounds
  | throughSurface
  | interpolation
  | timeExtrapolation
  | error
  | hang
deriving DecidableEq, Repr

/-- A grid in C. With `curv` it is curvilinear: `curv` are the longitudes and latitudes of all nodes, row after row, and `lon` and `lat` only count the columns and the rows. `depth` is the memory of the depths: one number per level, or with `s` one per node, and with `z4d` also per snapshot.
Models: index_search.h:35-46, 54-57. -/
structure Grid (C : Type) where
  lon : List C
  lat : List C
  depth : List C
  zdim : Nat
  time : List C
  spherical : Bool
  zonalPeriodic : Bool
  s : Bool
  z4d : Bool
  lonMin : C
  lonMax : C
  latMin : C
  latMax : C
  curv : Option (List C × List C) := none

/-- The particle's indices on the grid. Models: `xi`, `yi`, `zi`, `ti` of parcels.h:477-489. -/
structure Idx where
  xi : ℤ
  yi : ℤ
  zi : ℤ
  ti : ℤ
deriving DecidableEq, Repr

/-- `gridindexingtype`. Models: index_search.h:24-27. -/
inductive Indexing where
  | nemo
  | mitgcm
  | mom5
  | pop
deriving DecidableEq, Repr

variable {C α : Type}

/-! ### Search -/

/-- `while (i < n-1 && lt(v[i+1], x)) ++i`; the number is that of possible rounds. Models: index_search.h:69, 75, 126, 132, 197, 239, 455. -/
def up (lt : C → C → Bool) (v : List C) (x : C) : Nat → ℤ → Option ℤ
  | 0, i => some i
  | f + 1, i => if i < (v.length : ℤ) - 1 then (at? v (i + 1)).bind fun a => if lt a x then up lt v x f (i + 1) else some i else some i

/-- `while (i > 0 && lt(x, v[i])) --i`. Models: index_search.h:70, 76, 127, 133, 198, 240, 456. -/
def down (lt : C → C → Bool) (v : List C) (x : C) : Nat → ℤ → Option ℤ
  | 0, i => some i
  | f + 1, i => if 0 < i then (at? v i).bind fun a => if lt x a then down lt v x f (i - 1) else some i else some i

/-- Both loops. Models: index_search.h:69-70, 75-76, 126-127, 132-133, 197-198, 239-240, 455-456. -/
def walk (lt : C → C → Bool) (v : List C) (x : C) (i : ℤ) : Option ℤ :=
  (up lt v x (v.length - i).toNat i).bind fun j => down lt v x j.toNat j

/-- `(x - v[i]) / (v[i+1] - v[i])`. Models: index_search.h:80, 137, 199, 241. -/
def relAt (o : Ops C) (v : List C) (x : C) (i : ℤ) : Option C := (at? v i).bind fun a => (at? v (i + 1)).map fun b => o.rel x a b

/-- Search for x on a flat mesh, or for y. Models: index_search.h:192-200, 234-242. -/
def axis (o : Ops C) (v : List C) (x : C) (i : ℤ) : Option (ℤ × C) :=
  if v.length = 1 then some (0, o.zero) else (walk o.lt v x i).bind fun j => (relAt o v x j).map fun r => (j, r)

/-- `reconnect_bnd_indices` with onlyX = 1, sphere_mesh = 1. Models: index_search.h:141-154. -/
def wrapX (xi xdim : ℤ) : ℤ :=
  let a := if xi < 0 then xdim - 2 else xi
  if xdim - 2 < a then 0 else a

/-- The two longitudes of the cell. Models: index_search.h:203-209, 219-224. -/
def nodesX (o : Ops C) (v : List C) (x : C) (i : ℤ) : Option (C × C) :=
  (at? v i).bind fun a => (at? v (i + 1)).map fun b => (o.near225 a x, o.near180 b (o.near225 a x))

/-- The search for x on a spherical mesh; the number is `itMax` less the rounds so far. `none` as second result: ERROR_OUT_OF_BOUNDS.
Models: index_search.h:203-232. -/
def sphere (o : Ops C) (v : List C) (x : C) : Nat → ℤ → Option (ℤ × Option C)
  | fuel, i => (nodesX o v x i).bind fun n =>
    if o.lt x n.1 || o.lt n.2 x then
      let j := wrapX (if o.lt n.2 x then i + 1 else i - 1) v.length
      match fuel with
      | 0 => (nodesX o v x j).map fun _ => (j, none)
      | f + 1 => sphere o v x f j
    else some (i, some (o.rel x n.1 n.2))

/-- The end of the vertical search. Models: index_search.h:78-81, 135-137. -/
def finish (o : Ops C) (v : List C) (z : C) (j : ℤ) : Option (ℤ × Except Err C) :=
  let k := if j = (v.length : ℤ) - 1 then j - 1 else j
  (relAt o v z k).map fun r => (k, .ok r)

/-- `search_indices_vertical_z`; also the part of `search_indices_vertical_s` after the column is computed, which is the same without MOM5.
Models: index_search.h:59-82, 122-137. -/
def vertical (o : Ops C) (v : List C) (mom5 : Bool) (z : C) (i : ℤ) : Option (ℤ × Except Err C) :=
  (at? v ((v.length : ℤ) - 1)).bind fun last => (at? v 0).bind fun first =>
  if o.lt first last then
    if o.lt z first && mom5 then
      (at? v 1).bind fun second => if o.lt (o.above first second) z then some (-1, .ok (o.ratio z first)) else some (i, .error .throughSurface)
    else if o.lt z first then some (i, .error .throughSurface)
    else if o.lt last z then some (i, .error .outOfBounds)
    else (walk o.lt v z i).bind fun j => finish o v z j
  else
    if o.lt first z then some (i, .error .throughSurface)
    else if o.lt z last then some (i, .error .outOfBounds)
    else (walk (fun a b => o.lt b a) v z i).bind fun j => finish o v z j

/-- `zvalstab[t][k][j][i]`, or without `t`. An index beyond a row counts as outside. Models: index_search.h:101-108, 116-119; parcels.h:816-824. -/
def depthAt (g : Grid C) (t k j i : ℤ) : Option C :=
  if 0 ≤ t ∧ t < g.time.length ∧ 0 ≤ k ∧ k < g.zdim ∧ 0 ≤ j ∧ j < g.lat.length ∧ 0 ≤ i ∧ i < g.lon.length then
    at? g.depth ((((if g.z4d then t else 0) * g.zdim + k) * g.lat.length + j) * g.lon.length + i)
  else none

/-- The four corners at one level. Models: index_search.h:102-109, 116-119. -/
def cornersAt (o : Ops C) (g : Grid C) (xi yi t k : ℤ) (xsi eta : C) : Option C :=
  (depthAt g t k yi xi).bind fun a => (depthAt g t k yi (xi + 1)).bind fun b =>
  (depthAt g t k (yi + 1) (xi + 1)).bind fun c => (depthAt g t k (yi + 1) xi).map fun d => o.mix xsi eta a b c d

/-- The column of depths. Models: index_search.h:88-121. -/
def column (o : Ops C) (g : Grid C) (bgrid : Bool) (ix : Idx) (xsi eta time t0 t1 : C) : Option (List C) :=
  let xsi := if bgrid then o.one else xsi
  let eta := if bgrid then o.one else eta
  let ti1 := if ix.ti < (g.time.length : ℤ) - 1 then ix.ti + 1 else ix.ti
  (List.range g.zdim).mapM fun (k : Nat) =>
    if g.z4d then
      (cornersAt o g ix.xi ix.yi ix.ti k xsi eta).bind fun a => (cornersAt o g ix.xi ix.yi ti1 k xsi eta).map fun b => o.tmix a b time t0 t1
    else cornersAt o g ix.xi ix.yi ix.ti k xsi eta

/-- `r < 0 || r > 1`. Models: index_search.h:263-265. -/
def outside (o : Ops C) (r : C) : Bool := o.lt r o.zero || o.lt o.one r

/-- x part. Models: index_search.h:192-232. -/
def searchX (o : Ops C) (g : Grid C) (x : C) (i : ℤ) : Option (ℤ × Option C) :=
  if g.lon.length = 1 then some (0, some o.zero)
  else if g.spherical then sphere o g.lon x 10000 i
  else (axis o g.lon x i).map fun p => (p.1, some p.2)

/-- z part. Models: index_search.h:244-262. -/
def searchZ (o : Ops C) (g : Grid C) (ixg : Indexing) (bgrid : Bool) (z : C) (ix : Idx) (xsi eta time t0 t1 : C) : Option (ℤ × Except Err C) :=
  if 1 < g.zdim then
    if g.s then (column o g bgrid ix xsi eta time t0 t1).bind fun v => vertical o v false z ix.zi
    else vertical o g.depth (decide (ixg = .mom5)) z ix.zi
  else some (ix.zi, .ok o.zero)

/-- `search_indices_rectilinear`. Models: index_search.h:168-268. -/
def searchRect (o : Ops C) (g : Grid C) (ixg : Indexing) (bgrid : Bool) (x y z time t0 t1 : C) (ix : Idx) : Option (Idx × Except Err (C × C × C)) :=
  if g.zonalPeriodic = false ∧ 1 < g.lon.length ∧ (o.lt x g.lonMin || o.lt g.lonMax x) = true then some (ix, .error .outOfBounds)
  else if 1 < g.lat.length ∧ (o.lt y g.latMin || o.lt g.latMax y) = true then some (ix, .error .outOfBounds)
  else
    (searchX o g x ix.xi).bind fun rx =>
    let ix := { ix with xi := rx.1 }
    match rx.2 with
    | none => some (ix, .error .outOfBounds)
    | some xsi =>
      (axis o g.lat y ix.yi).bind fun ry =>
      let ix := { ix with yi := ry.1 }
      (searchZ o g ixg bgrid z ix xsi ry.2 time t0 t1).bind fun rz =>
      let ix := { ix with zi := rz.1 }
      match rz.2 with
      | .error e => some (ix, .error e)
      | .ok zeta => if outside o xsi || outside o ry.2 || outside o zeta then some (ix, .error .interpolation) else some (ix, .ok (xsi, ry.2, zeta))

/-- `xgrid[j][i]` or `ygrid[j][i]`: the entry of the array in memory, which may be in another row. Models: index_search.h:290-292, 309, 319. -/
def node2 (g : Grid C) (v : List C) (j i : ℤ) : Option C := at? v (j * g.lon.length + i)

/-- The four corners. Models: index_search.h:309, 319; parcels.h:624-629. -/
def corners2 (g : Grid C) (v : List C) (xi yi : ℤ) : Option (List C) :=
  [node2 g v yi xi, node2 g v yi (xi + 1), node2 g v (yi + 1) (xi + 1), node2 g v (yi + 1) xi].mapM id

/-- Is x outside the range of the longitudes, so that the search is not made? Models: index_search.h:294-299. -/
def rangeX (o : Ops C) (g : Grid C) (lons : List C) (x : C) : Option Bool :=
  if g.zonalPeriodic = false ∧ (o.lt x g.lonMin || o.lt g.lonMax x) = true then
    (node2 g lons 0 0).bind fun a => (node2 g lons 0 ((g.lon.length : ℤ) - 1)).map fun b => o.lt a b || (o.lt x a && o.lt b x)
  else some false

/-- Does the loop go on? Models: index_search.h:308. -/
def searching (o : Ops C) (xsi eta : C) : Bool := o.lt xsi o.lo || o.lt o.hi xsi || o.lt eta o.lo || o.lt o.hi eta

/-- The next cell. Models: index_search.h:349-357. -/
def moveCell (o : Ops C) (g : Grid C) (xsi eta : C) (xi yi : ℤ) : ℤ × ℤ :=
  let xi := if o.lt xsi o.lo then xi - 1 else xi
  let xi := if o.lt o.hi xsi then xi + 1 else xi
  let yi := if o.lt eta o.lo then yi - 1 else yi
  let yi := if o.lt o.hi eta then yi + 1 else yi
  Curvilinear.reconnect g.lon.length g.lat.length g.spherical xi yi

/-- The loop; the number is `maxIterSearch` less the rounds so far. `none` as second result: ERROR_OUT_OF_BOUNDS. Models: index_search.h:308-367. -/
def curvLoop (o : Ops C) (g : Grid C) (lons lats : List C) (x y : C) : Nat → ℤ → ℤ → C → C → Option ((ℤ × ℤ) × Option (C × C))
  | fuel, xi, yi, xsi, eta =>
    if searching o xsi eta then
      (corners2 g lons xi yi).bind fun px => (corners2 g lats xi yi).bind fun py =>
      let p := o.solve g.spherical x y px py xsi eta
      if (o.lt p.1 o.zero && o.lt p.2 o.zero) = true ∧ xi = 0 ∧ yi = 0 then some ((xi, yi), none)
      else if (o.lt o.one p.1 && o.lt o.one p.2) = true ∧ xi = (g.lon.length : ℤ) - 1 ∧ yi = (g.lat.length : ℤ) - 1 then some ((xi, yi), none)
      else
        let m := moveCell o g p.1 p.2 xi yi
        match fuel with
        | 0 => some (m, none)
        | f + 1 => curvLoop o g lons lats x y f m.1 m.2 p.1 p.2
    else some ((xi, yi), some (xsi, eta))

/-- Limited to [0, 1]. Models: index_search.h:376-379. -/
def clamp (o : Ops C) (r : C) : C :=
  let r := if o.lt r o.zero then o.zero else r
  if o.lt o.one r then o.one else r

/-- `search_indices_curvilinear`. Models: index_search.h:271-405. -/
def searchCurv (o : Ops C) (g : Grid C) (lons lats : List C) (ixg : Indexing) (bgrid : Bool) (x y z time t0 t1 : C) (ix : Idx) :
    Option (Idx × Except Err (C × C × C)) :=
  (rangeX o g lons x).bind fun out =>
  if out || o.lt y g.latMin || o.lt g.latMax y then some (ix, .error .outOfBounds)
  else
    (curvLoop o g lons lats x y 1000000 ix.xi ix.yi o.start o.start).bind fun r =>
    let ix := { ix with xi := r.1.1, yi := r.1.2 }
    match r.2 with
    | none => some (ix, .error .outOfBounds)
    | some p =>
      if o.isNan p.1 || o.isNan p.2 then some (ix, .error .outOfBounds)
      else
        let xsi := clamp o p.1
        let eta := clamp o p.2
        (searchZ o g ixg bgrid z ix xsi eta time t0 t1).bind fun rz =>
        let ix := { ix with zi := rz.1 }
        match rz.2 with
        | .error e => some (ix, .error e)
        | .ok zeta => if outside o xsi || outside o eta || outside o zeta then some (ix, .error .interpolation) else some (ix, .ok (xsi, eta, zeta))

/-- `search_indices`. Models: index_search.h:410-430. -/
def searchIndices (o : Ops C) (g : Grid C) (ixg : Indexing) (bgrid : Bool) (x y z time t0 t1 : C) (ix : Idx) : Option (Idx × Except Err (C × C × C)) :=
  match g.curv with
  | none => searchRect o g ixg bgrid x y z time t0 t1 ix
  | some v => searchCurv o g v.1 v.2 ixg bgrid x y z time t0 t1 ix

/-! ### Time -/

/-- `search_time_index`, with a bound on the depth of its recursion: the index, and the time moved by periods. Models: index_search.h:433-458. -/
def timeIndex (o : Ops C) (tv : List C) (periodic : Bool) : Nat → C → ℤ → Option (ℤ × Except Err C)
  | 0, _, ti => some (ti, .error .hang)
  | f + 1, t, ti =>
    let ti := if ti < 0 then 0 else ti
    let loops := fun (t : C) (ti : ℤ) => (walk o.lt tv t ti).map fun j => (j, (.ok t : Except Err C))
    let go := fun (r : Option (ℤ × Except Err C)) => r.bind fun p => match p.2 with
      | .error e => some (p.1, .error e)
      | .ok t => loops t p.1
    if periodic then
      (at? tv 0).bind fun a =>
      if o.lt t a then go (timeIndex o tv periodic f (o.before t) ((tv.length : ℤ) - 1))
      else (at? tv ((tv.length : ℤ) - 1)).bind fun b =>
        if o.lt b t then go (timeIndex o tv periodic f (o.after t) 0) else loops t ti
    else loops t ti

/-- What sampling uses of a field besides the grid: chunks and flags. Models: CField of parcels.h:21-26; parcels.h:324-334, 417-428, 486. -/
structure Fld (α : Type) where
  axes : List (List Nat)
  load : List Nat
  chunks : List (Option (List α))
  periodic : Bool
  extrapolate : Bool

/-- What is known after the search: are two snapshots used, and the relative position. Models: parcels.h:491-511. -/
structure Found (C : Type) where
  two : Bool
  pos : C × C × C

/-- The part that is the same in all functions: the check of the time, the search for the time index and for the cell. `bgrid`: one of the methods for B-grids.
At a snapshot the code passes `t0 + 1` for `t1`, here `t0`: `tmix` may treat equal times in any way.
Models: parcels.h:486-499, 694-706, 738, 912-927, 943. -/
def locate (o : Ops C) (g : Grid C) (f : Fld α) (ixg : Indexing) (bgrid : Bool) (depth : Nat) (x y z t : C) (ix : Idx) : Option (Idx × Except Err (Found C)) :=
  (if f.periodic = false ∧ f.extrapolate = false then
    (at? g.time 0).bind fun a => if o.lt t a then some true else (at? g.time ((g.time.length : ℤ) - 1)).map fun b => o.lt b t
   else some false).bind fun early =>
  if early then some (ix, .error .timeExtrapolation)
  else
    (timeIndex o g.time f.periodic depth t ix.ti).bind fun rt =>
    let ix := { ix with ti := rt.1 }
    match rt.2 with
    | .error e => some (ix, .error e)
    | .ok t =>
      (at? g.time ix.ti).bind fun t0 =>
      let two := decide (ix.ti < (g.time.length : ℤ) - 1) && o.lt t0 t
      (if two then at? g.time (ix.ti + 1) else some t0).bind fun t1 =>
      (searchIndices o g ixg bgrid x y z (if two then t else t0) t0 t1 ix).bind fun rs =>
      match rs.2 with
      | .error e => some (rs.1, .error e)
      | .ok p => some (rs.1, .ok ⟨two, p⟩)

/-! ### Data -/

/-- `getCell2D` or `getCell3D`. Models: parcels.h:313-374, 406-473. -/
def cell (g : Grid C) (f : Fld α) (xi yi zi ti : ℤ) (two : Bool) : Out α :=
  if g.zdim = 1 then getCell (chunkInfo f.axes) f.chunks f.load [yi, xi] ti !two
  else getCell (chunkInfo f.axes) f.chunks f.load [zi, yi, xi] ti !two

/-- The level at which the cell starts. Models: parcels.h:513-525. -/
def level (g : Grid C) (ixg : Indexing) (zi : ℤ) : ℤ :=
  if ixg = .mom5 ∧ zi = -1 then 0 else if ixg = .pop ∧ zi = (g.zdim : ℤ) - 2 then zi - 1 else zi

/-- `temporal_interpolation_structured_grid`. REPEAT or the data of the cell. Models: parcels.h:476-525. -/
def sample (o : Ops C) (g : Grid C) (f : Fld α) (ixg : Indexing) (bgrid : Bool) (depth : Nat) (x y z t : C) (ix : Idx) : Option (Idx × Except Err (Out α)) :=
  (locate o g f ixg bgrid depth x y z t ix).bind fun r =>
  match r.2 with
  | .error e => some (r.1, .error e)
  | .ok p =>
    match cell g f r.1.xi r.1.yi (level g ixg r.1.zi) r.1.ti p.two with
    | .undef => none
    | c => some (r.1, .ok c)

/-- The corners of the cell. Models: parcels.h:615-630. -/
def corners (g : Grid C) (xi yi : ℤ) : Option (List C) :=
  match g.curv with
  | none => [at? g.lon xi, at? g.lon (xi + 1), at? g.lat yi, at? g.lat (yi + 1)].mapM id
  | some v => (corners2 g v.1 xi yi).bind fun px => (corners2 g v.2 xi yi).map fun py => px ++ py

/-- A second field that may be on the same grid sees the chunks marked by the first. Models: parcels.h:324-328, 417-421, 436-440 (`load_chunk` belongs to the grid). -/
def afterLoad (f : Fld α) (shared : Bool) (load : List Nat) : Fld α := if shared then { f with load := load } else f

/-- `temporal_interpolationUV_c_grid`: the data of U and V, in this order. `shared`: V is on the same grid object as U. MOM5 and POP read variables that were never set.
Models: parcels.h:685-765. -/
def sampleUV (o : Ops C) (g : Grid C) (u v : Fld α) (shared : Bool) (ixg : Indexing) (depth : Nat) (x y z t : C) (ix : Idx) :
    Option (Idx × Except Err (List (Out α))) :=
  (locate o g u ixg false depth x y z t ix).bind fun r =>
  match r.2 with
  | .error e => some (r.1, .error e)
  | .ok p =>
    if ixg = .mom5 ∨ ixg = .pop then none
    else
      let back : ℤ := if ixg = .mitgcm then 1 else 0
      match cell g u r.1.xi (r.1.yi - back) r.1.zi r.1.ti p.two with
      | .undef => none
      | .rep l => some (r.1, .ok [.rep l])
      | .ok l c =>
        match cell g (afterLoad v shared l) (r.1.xi - back) r.1.yi r.1.zi r.1.ti p.two with
        | .undef => none
        | .rep l' => some (r.1, .ok [.ok l c, .rep l'])
        | .ok l' c' => (corners g r.1.xi r.1.yi).map fun _ => (r.1, .ok [.ok l c, .ok l' c'])

/-- The depths of the corners of the cell, at both levels. Models: parcels.h:812-826. -/
def cellDepths (g : Grid C) (ix : Idx) (t : ℤ) : Option (List C) :=
  [depthAt g t ix.zi ix.yi ix.xi, depthAt g t ix.zi ix.yi (ix.xi + 1), depthAt g t ix.zi (ix.yi + 1) (ix.xi + 1), depthAt g t ix.zi (ix.yi + 1) ix.xi,
   depthAt g t (ix.zi + 1) ix.yi ix.xi, depthAt g t (ix.zi + 1) ix.yi (ix.xi + 1), depthAt g t (ix.zi + 1) (ix.yi + 1) (ix.xi + 1),
   depthAt g t (ix.zi + 1) (ix.yi + 1) ix.xi].mapM id

/-- `temporal_interpolationUVW_c_grid`, called for levels that follow the terrain: the data of U, V and W. `getCell3D` calls `exit` for a grid with one level, before the check of `zdim`.
The indexing is not used for the data. Models: parcels.h:903-955; parcels.h:768-826 for the reads of the grid. -/
def sampleUVW (o : Ops C) (g : Grid C) (u v w : Fld α) (shared : Bool) (ixg : Indexing) (depth : Nat) (x y z t : C) (ix : Idx) :
    Option (Idx × Except Err (List (Out α))) :=
  (locate o g u ixg false depth x y z t ix).bind fun r =>
  match r.2 with
  | .error e => some (r.1, .error e)
  | .ok p =>
    if g.zdim = 1 then none
    else
      match cell g u r.1.xi r.1.yi r.1.zi r.1.ti p.two with
      | .undef => none
      | .rep l => some (r.1, .ok [.rep l])
      | .ok l c =>
        match cell g (afterLoad v shared l) r.1.xi r.1.yi r.1.zi r.1.ti p.two with
        | .undef => none
        | .rep l' => some (r.1, .ok [.ok l c, .rep l'])
        | .ok l' c' =>
          match cell g (afterLoad w shared l') r.1.xi r.1.yi r.1.zi r.1.ti p.two with
          | .undef => none
          | .rep l'' => some (r.1, .ok [.ok l c, .ok l' c', .rep l''])
          | .ok l'' c'' => (corners g r.1.xi r.1.yi).bind fun _ => (cellDepths g r.1 r.1.ti).bind fun _ =>
            (if p.two then cellDepths g r.1 (r.1.ti + 1) else some []).map fun _ => (r.1, .ok [.ok l c, .ok l' c', .ok l'' c''])

/-! ### First guess -/

/-- The node nearest to a point: the number of its place in the arrays (the first of several). Models: the query of the tree, particlesets/particlesetsoa.py:215-220, which may take any
of several nodes at the same distance. -/
def nearestNode (dist : C → C → C → C → ℚ) (x y : C) : List (C × C) → Option Nat
  | [] => none
  | p :: ps =>
    match nearestNode dist x y ps with
    | none => some 0
    | some k => match ps[k]? with
      | none => some 0
      | some q => if dist x y p.1 p.2 ≤ dist x y q.1 q.2 then some 0 else some (k + 1)

/-- `populate_indices` for one particle and one grid: the row and the column of the nearest node. Models: particlesets/particlesetsoa.py:211-224. -/
def populate (dist : C → C → C → C → ℚ) (g : Grid C) (x y : C) (ix : Idx) : Idx :=
  match g.curv with
  | none => ix
  | some v =>
    match nearestNode dist x y (v.1.zip v.2) with
    | none => ix
    | some k => { ix with xi := (k % g.lon.length : Nat), yi := (k / g.lon.length : Nat) }

end Parcels.Memory
