import Verif.Model.TimeChunk

/-!
Model of how field data get from files (or arrays) into a Field: `NetcdfFileBuffer.lonlat`, `depth`, `_apply_indices`, `data_access`
(parcels/fieldfilebuffer.py:72-165), `Field.from_netcdf` (parcels/field.py:324-450), `Field.reshape` (field.py:487-538),
`Field.computeTimeChunk`, `Field.data_concatenate` (field.py:1317-1379), `FieldSet.computeTimeChunk` (fieldset.py:1044-1122) and the
flip of the latitudes in `RectilinearGrid` (grid.py:274-277).

Simplifications: exact arithmetic (no conversion to float32); no NaN, scaling, vmin or vmax (Model/Scaling); no halo (Model/Halo); no
dask chunks (Model/Chunks); depth is a vector; a file without a time axis has one time. The errors numpy, xarray or the assertions
raise are `none`.
-/

namespace Parcels.Load

/-! ### Arrays -/

/-- An array: its shape, and the value at each index. Models: the arrays of field.py:490-538 and fieldfilebuffer.py:140-165. -/
structure ND (α : Type) where
  shape : List Nat
  get : List Nat → α

variable {α : Type}

/-- Product of the lengths. Models: the reshapes of field.py:422-429, 516, 519. -/
def prod : List Nat → Nat
  | [] => 1
  | n :: s => n * prod s

/-- Position of an index in row-major order. Models: the reshapes of field.py:422-429, 516, 519. -/
def ravel : List Nat → List Nat → Nat
  | _ :: s, i :: is => i * prod s + ravel s is
  | _, _ => 0

/-- Index at a position in row-major order. Models: the reshapes of field.py:422-429, 516, 519. -/
def unravel : List Nat → Nat → List Nat
  | [], _ => []
  | _ :: s, k => (k / prod s) :: unravel s (k % prod s)

/-- `a.reshape(s)` of numpy. Models: field.py:422-429, 516, 519, 1372-1376. -/
def ND.reshape (a : ND α) (s : List Nat) : Option (ND α) :=
  if prod a.shape = prod s then some ⟨s, fun i => a.get (unravel a.shape (ravel s i))⟩ else none

/-- What is selected along one axis: a list of indices, or one index, which removes the axis. Models: fieldfilebuffer.py:80-91, 116-121, 141-154. -/
inductive Sel where
  | many (l : List Nat)
  | one (i : ℤ)
deriving DecidableEq

/-- Are all indices in range?. Models: fieldfilebuffer.py:80-91, 141-154 (IndexError). -/
def selOk : List Sel → List Nat → Bool
  | [], [] => true
  | .many l :: ss, n :: s => l.all (fun i => decide (i < n)) && selOk ss s
  | .one i :: ss, n :: s => decide (-(n : ℤ) ≤ i) && decide (i < n) && selOk ss s
  | _, _ => false

/-- Shape of the selection. Models: fieldfilebuffer.py:80-91, 141-154. -/
def selShape : List Sel → List Nat
  | [] => []
  | .many l :: ss => l.length :: selShape ss
  | .one _ :: ss => selShape ss

/-- Where an index of the selection comes from. Models: fieldfilebuffer.py:80-91, 141-154. -/
def selIdx : List Sel → List Nat → List Nat → List Nat
  | .many l :: ss, _ :: s, i :: is => l.getD i 0 :: selIdx ss s is
  | .one k :: ss, n :: s, is => TimeInterp.wrapIdx n k :: selIdx ss s is
  | _, _, _ => []

/-- `a[sel0, sel1, ...]` of xarray, which selects along each axis separately. Models: fieldfilebuffer.py:80-91, 141-154. -/
def ND.pick (a : ND α) (ss : List Sel) : Option (ND α) :=
  if selOk ss a.shape then some ⟨selShape ss, fun i => a.get (selIdx ss a.shape i)⟩ else none

/-- The block of a concatenation an index falls into. Models: field.py:435-436. -/
def locate : List (ND α) → Nat → List Nat → α → α
  | [], _, _, d => d
  | a :: as, t, r, d => if t < a.shape.headD 0 then a.get (t :: r) else locate as (t - a.shape.headD 0) r d

/-- `np.concatenate(list, axis=0)`. Models: field.py:435-436. -/
def concat (as : List (ND α)) : Option (ND α) :=
  match as with
  | [] => none
  | a :: _ =>
    if as.all fun b => decide (b.shape.tail = a.shape.tail) && decide (b.shape ≠ []) then
      some ⟨(as.map fun b => b.shape.headD 0).sum :: a.shape.tail, fun
        | t :: r => locate as t r (a.get (t :: r))
        | [] => a.get []⟩
    else none

/-- `np.flip(a, axis=-2)`. Models: field.py:501-502. -/
def ND.flip2 (a : ND α) : Option (ND α) :=
  match a.shape.reverse with
  | _ :: n :: _ => some ⟨a.shape, fun i =>
      match i.reverse with
      | x :: y :: r => a.get (x :: (n - 1 - y) :: r).reverse
      | _ => a.get i⟩
  | _ => none

/-- `np.transpose(a)`. Models: field.py:499-500. -/
def ND.transpose (a : ND α) : ND α := ⟨a.shape.reverse, fun i => a.get i.reverse⟩

/-- `np.expand_dims(a, axis=-1)`: a reshape. Models: field.py:509. -/
def expandLast (a : ND α) : Option (ND α) := a.reshape (a.shape ++ [1])

/-- `np.expand_dims(a, axis=-2)`: a reshape. Models: field.py:513. -/
def expandMid (a : ND α) : Option (ND α) := a.reshape (a.shape.dropLast ++ [1] ++ a.shape.drop (a.shape.length - 1))

/-- `np.squeeze(a)`: a reshape. Models: field.py:505. -/
def squeeze (a : ND α) : Option (ND α) := a.reshape (a.shape.filter (· ≠ 1))

/-! ### Grids -/

/-- A grid: `lon` and `lat` are vectors (rectilinear) or matrices (curvilinear). Models: grid.py:37-68, 263-277, 388-400. -/
structure Grid where
  lon : ND ℚ
  lat : ND ℚ
  depth : List ℚ
  time : List ℚ
  flipped : Bool

/-- Is it a curvilinear grid? Models: grid.py:78-87. -/
def Grid.curvilinear (g : Grid) : Bool := decide (2 ≤ g.lon.shape.length)

/-- `xdim`. Models: grid.py:271, 398. -/
def Grid.xdim (g : Grid) : Nat := g.lon.shape.getLastD 0

/-- `ydim`. Models: grid.py:272, 399. -/
def Grid.ydim (g : Grid) : Nat := if g.curvilinear then g.lon.shape.headD 0 else g.lat.shape.headD 0

/-- `create_grid`; the latitudes of a rectilinear grid that run from north to south are flipped.
Simplification: the squeeze of the coordinates of a curvilinear grid (grid.py:395-396) is left out.
Models: grid.py:70-87, 263-277. -/
def createGrid (lon lat : ND ℚ) (depth time : List ℚ) : Grid :=
  let n := lat.shape.headD 0
  if lon.shape.length ≤ 1 ∧ 1 < n ∧ lat.get [n - 1] < lat.get [0] then
    ⟨lon, ⟨lat.shape, fun i => lat.get [n - 1 - i.headD 0]⟩, depth, time, true⟩
  else ⟨lon, lat, depth, time, false⟩

/-- Longitude of node (y, x). Models: grid.py:264, 389 (shapes of lon). -/
def Grid.lonAt (g : Grid) (y x : Nat) : ℚ := if g.curvilinear then g.lon.get [y, x] else g.lon.get [x]

/-- Latitude of node (y, x). Models: grid.py:265, 390 (shapes of lat). -/
def Grid.latAt (g : Grid) (y x : Nat) : ℚ := if g.curvilinear then g.lat.get [y, x] else g.lat.get [y]

/-! ### Field.reshape -/

/-- `if c: a = f(a)`. Models: field.py:499-519. -/
def onlyIf (c : Prop) [Decidable c] (f : ND α → Option (ND α)) (a : ND α) : Option (ND α) := if c then f a else some a

/-- Lines 504-519 of `Field.reshape`: add and remove axes of length one. Models: field.py:504-519. -/
def fitAxes (g : Grid) (tdim : Nat) (a : ND α) : Option (ND α) :=
  (onlyIf (g.xdim = 1 ∨ g.ydim = 1) squeeze a).bind fun a =>
  (onlyIf (g.xdim = 1 ∧ a.shape.length < 4) expandLast a).bind fun a =>
  (onlyIf (g.ydim = 1 ∧ a.shape.length < 4) expandMid a).bind fun a =>
  (onlyIf (tdim = 1 ∧ a.shape.length < 4) (fun a => a.reshape (1 :: a.shape)) a).bind fun a =>
  onlyIf (g.depth.length = 1 ∧ a.shape.length = 4) (fun a => a.reshape (a.shape.headD 0 :: a.shape.drop 2)) a

/-- The assertions on the shape. Models: field.py:520-535. -/
def shapeOk (g : Grid) (tdim : Nat) (pop : Bool) (s : List Nat) : Bool :=
  if s.length = 4 then
    decide (s.getD 0 0 = tdim) && decide (s.getD 2 0 = g.ydim) && decide (s.getD 3 0 = g.xdim) &&
      (decide (s.getD 1 0 = g.depth.length) || (pop && decide (s.getD 1 0 + 1 = g.depth.length)))
  else decide (s = [tdim, g.ydim, g.xdim])

/-- `Field.reshape`. `tdim` is a parameter because it is 2 for grids with deferred loading. Models: field.py:490-538. -/
def fieldReshape (g : Grid) (tdim : Nat) (pop transpose : Bool) (a : ND α) : Option (ND α) :=
  (onlyIf (g.flipped = true) ND.flip2 (if transpose then a.transpose else a)).bind fun a =>
  (fitAxes g tdim a).bind fun a =>
  if shapeOk g tdim pop a.shape then some a else none

/-- The value a field with these data has at node (t, z, y, x). Models: the indexing in field.py:888-931; field.py:1033-1046. -/
def nodeValue (a : ND α) (t z y x : Nat) : α := if a.shape.length = 4 then a.get [t, z, y, x] else a.get [t, y, x]

/-! ### Reading files -/

/-- A file: coordinate variables and data. Models: fieldfilebuffer.py:72-124, 161-165. -/
structure NcFile where
  lon : ND ℚ
  lat : ND ℚ
  depth : List ℚ
  time : List ℚ
  data : ND ℚ

/-- The user's request: indices per dimension, whether there is a depth dimension, whether the interpolation method is one of the
B-grid methods, and whether the grid indexing is that of POP. Models: field.py:324-365. -/
structure Request where
  lon : Option (List Nat)
  lat : Option (List Nat)
  depth : Option (List Nat)
  useDepth : Bool
  bgrid : Bool
  pop : Bool

/-- `np.allclose` on two rows. Models: fieldfilebuffer.py:96, 101. -/
def allClose (a b : List ℚ) : Bool :=
  (a.zip b).all fun p => decide (|p.1 - p.2| ≤ 1 / 100000000 + 1 / 100000 * |p.2|)

/-- Indices used for the longitudes. Models: fieldfilebuffer.py:76, 78. -/
def Request.lonIdx (r : Request) (f : NcFile) : List Nat := r.lon.getD (List.range (f.lon.shape.getLastD 0))

/-- Indices used for the latitudes. Models: fieldfilebuffer.py:77, 79. -/
def Request.latIdx (r : Request) (f : NcFile) : List Nat :=
  r.lat.getD (List.range (if f.lat.shape.length = 1 then f.lat.shape.headD 0 else f.lat.shape.getD (f.lat.shape.length - 2) 0))

/-- Row `y` of a matrix. Models: fieldfilebuffer.py:96, 105. -/
def row (a : ND ℚ) (y : Nat) : List ℚ := (List.range (a.shape.getD 1 0)).map fun x => a.get [y, x]

/-- Column `x` of a matrix. Models: fieldfilebuffer.py:101, 106. -/
def col (a : ND ℚ) (x : Nat) : List ℚ := (List.range (a.shape.headD 0)).map fun y => a.get [y, x]

/-- Are matrices of coordinates those of a rectilinear grid? Models: fieldfilebuffer.py:93-103. -/
def rectilinear (lon lat : ND ℚ) : Bool :=
  ((List.range (lon.shape.headD 0)).all fun y => y = 0 || allClose (row lon 0) (row lon y)) &&
  ((List.range (lat.shape.getD 1 0)).all fun x => x = 0 || allClose (col lat 0) (col lat x))

/-- `NetcdfFileBuffer.lonlat`. Models: fieldfilebuffer.py:72-107. -/
def lonlat (r : Request) (f : NcFile) : Option (ND ℚ × ND ℚ) := do
  let li := Sel.many (r.lonIdx f)
  let la := Sel.many (r.latIdx f)
  if f.lon.shape.length = 1 then
    let lon ← f.lon.pick [li]
    let lat ← f.lat.pick [la]
    some (lon, lat)
  else
    let pre := List.replicate (f.lon.shape.length - 2) (Sel.one 0)
    let lon ← f.lon.pick (pre ++ [la, li])
    let lat ← f.lat.pick (pre ++ [la, li])
    if rectilinear lon lat then
      some (⟨[lon.shape.getD 1 0], fun i => lon.get (0 :: i)⟩, ⟨[lat.shape.headD 0], fun i => lat.get (i ++ [0])⟩)
    else some (lon, lat)

/-- Indices used for the depths. Models: fieldfilebuffer.py:115, 123, field.py:361. -/
def Request.depthIdx (r : Request) (f : NcFile) : List Nat :=
  if r.useDepth then r.depth.getD (List.range f.depth.length) else [0]

/-- Depths of the grid. Models: fieldfilebuffer.py:109-124, field.py:362. -/
def depths (r : Request) (f : NcFile) : Option (List ℚ) :=
  if r.useDepth then
    if (r.depthIdx f).all fun k => decide (k < f.depth.length) then some ((r.depthIdx f).map fun k => f.depth.getD k 0) else none
  else some [0]

/-- `data_full_zdim`. Models: fieldfilebuffer.py:113-114, field.py:363. -/
def fullZ (r : Request) (f : NcFile) : Nat := if r.useDepth then f.depth.length else 1

/-- `_check_extend_depth`; `z` is `data.shape[di]`. Models: fieldfilebuffer.py:135-138. -/
def extendDepth (r : Request) (dl : List Nat) (full z : Nat) : Bool :=
  decide (dl.getLastD 0 + 1 = full) && decide (z + 1 = full) && r.bgrid

/-- `_apply_indices`. Models: fieldfilebuffer.py:140-155. -/
def applyIndices (r : Request) (la li dl : List Nat) (full : Nat) (data : ND ℚ) (ti : Sel) : Option (ND ℚ) :=
  if data.shape.length = 2 then data.pick [.many la, .many li]
  else if data.shape.length = 3 then
    if extendDepth r dl full (data.shape.getD 0 0) then data.pick [.many dl.dropLast, .many la, .many li]
    else if 1 < dl.length then data.pick [.many dl, .many la, .many li]
    else data.pick [ti, .many la, .many li]
  else
    if extendDepth r dl full (data.shape.getD 1 0) then data.pick [ti, .many dl.dropLast, .many la, .many li]
    else data.pick [ti, .many dl, .many la, .many li]

/-- One file of a direct load. Models: field.py:411-436. -/
def readAll (r : Request) (la li dl : List Nat) (full : Nat) (f : NcFile) : Option (ND ℚ) := do
  let b ← applyIndices r la li dl full f.data (.many (List.range (f.data.shape.headD 0)))
  if b.shape.length = 2 then b.reshape (f.time.length :: 1 :: b.shape)
  else if b.shape.length = 3 then
    if 1 < dl.length then b.reshape (1 :: b.shape)
    else b.reshape (f.time.length :: 1 :: b.shape.tail)
  else some b

/-- The times of all files, relative to the first one; they must increase. Models: field.py:223-252. -/
def collectTimes (fs : List NcFile) : Option (List ℚ) :=
  let ts := fs.flatMap (·.time)
  if (List.range (ts.length - 1)).all (fun i => decide (ts.getD i 0 < ts.getD (i + 1) 0)) then some (ts.map (· - ts.headD 0))
  else none

/-- The grid of a field read from files: coordinates from the first one. Models: field.py:342-376. -/
def makeGrid (r : Request) (fs : List NcFile) : Option Grid := do
  let f ← fs.head?
  let (lon, lat) ← lonlat r f
  let dep ← depths r f
  let ts ← collectTimes fs
  some (createGrid lon lat dep ts)

/-- A direct load onto a grid. Models: field.py:395-436, 161-174. -/
def loadOn (r : Request) (g : Grid) (fs : List NcFile) : Option (ND ℚ) := do
  let f ← fs.head?
  let parts ← fs.mapM (readAll r (r.latIdx f) (r.lonIdx f) (r.depthIdx f) (fullZ r f))
  let d ← concat parts
  fieldReshape g g.time.length r.pop false d

/-- `Field.from_netcdf` without deferred loading. Models: field.py:324-452. -/
def loadDirect (r : Request) (fs : List NcFile) : Option (Grid × ND ℚ) := do
  let g ← makeGrid r fs
  let d ← loadOn r g fs
  some (g, d)

/-! ### Deferred loading -/

/-- The time origin: the first time of all. Models: field.py:245. -/
def origin (fs : List NcFile) : ℚ := (fs.flatMap (·.time)).headD 0

/-- `(time_data <= t).argmin() - 1`. Models: field.py:1366. -/
def tiOf (times : List ℚ) (t : ℚ) : ℤ :=
  ((if times.all fun v => decide (v ≤ t) then 0 else times.findIdx fun v => !decide (v ≤ t) : Nat) : ℤ) - 1

/-- The record with (global) time index `k`, with two leading axes. Models: field.py:1344-1377. -/
def readRecord (r : Request) (g : Grid) (fs : List NcFile) (k : Nat) : Option (ND ℚ) := do
  let f0 ← fs.head?
  let f ← fs[(TimeChunk.dataFiles (fs.map (·.time)) false).getD k 0]?
  let ti := tiOf (f.time.map (· - origin fs)) (g.time.getD k 0)
  let b ← applyIndices r (r.latIdx f0) (r.lonIdx f0) (r.depthIdx f0) (fullZ r f0) f.data (.one ti)
  if b.shape.length = 2 then b.reshape (1 :: 1 :: b.shape)
  else if b.shape.length = 3 ∧ 1 < g.depth.length then b.reshape (1 :: b.shape)
  else if b.shape.length = 3 then b.reshape (b.shape.headD 0 :: 1 :: b.shape.tail)
  else some b

/-- `a[i:i+1]` along the first axis. Models: field.py:1325-1327; fieldset.py:1101, 1113. -/
def ND.slot (a : ND α) (i : Nat) : ND α := ⟨1 :: a.shape.tail, fun
  | _ :: rest => a.get (i :: rest)
  | [] => a.get []⟩

/-- `data_concatenate`: put a record into slot 0 or 1. Models: field.py:1317-1330. -/
def putSlot (d buf : ND ℚ) (i : Nat) : Option (ND ℚ) := if i = 0 then concat [buf, d.slot 1] else concat [d.slot 0, buf]

/-- The uninitialised array of lines 1052-1057 and 1079-1084, filled with anything. Models: fieldset.py:1052-1057. -/
def emptyPair (r : Request) (g : Grid) (junk : List Nat → ℚ) : ND ℚ :=
  ⟨[2, if r.pop ∧ 1 < g.depth.length then g.depth.length - 1 else g.depth.length, g.ydim, g.xdim], junk⟩

/-- First load of data: records `n` and `n + 1`. Models: fieldset.py:1044-1069. -/
def loadPair (r : Request) (g : Grid) (fs : List NcFile) (junk : List Nat → ℚ) (n : Nat) : Option (ND ℚ) := do
  let b0 ← readRecord r g fs n
  let d ← putSlot (emptyPair r g junk) b0 0
  let b1 ← readRecord r g fs (n + 1)
  let d ← putSlot d b1 1
  fieldReshape g 2 r.pop false d

/-- The pair moves one record forward: slot 0 becomes the old slot 1, and record `n + 1` is read into slot 1.
Models: fieldset.py:1078-1111. -/
def loadNext (r : Request) (g : Grid) (fs : List NcFile) (junk : List Nat → ℚ) (old : ND ℚ) (n : Nat) : Option (ND ℚ) := do
  let b ← readRecord r g fs (n + 1)
  let d ← putSlot (emptyPair r g junk) b 1
  let d ← fieldReshape g 2 r.pop false d
  some ⟨old.shape, fun
    | 0 :: rest => old.get (1 :: rest)
    | i => d.get i⟩

/-- The pair moves one record back: slot 1 becomes the old slot 0, and record `n` is read into slot 0.
Models: fieldset.py:1078-1123. -/
def loadPrev (r : Request) (g : Grid) (fs : List NcFile) (junk : List Nat → ℚ) (old : ND ℚ) (n : Nat) : Option (ND ℚ) := do
  let b ← readRecord r g fs n
  let d ← putSlot (emptyPair r g junk) b 0
  let d ← fieldReshape g 2 r.pop false d
  some ⟨old.shape, fun
    | 1 :: rest => old.get (0 :: rest)
    | i => d.get i⟩

/-! ### Writing -/

/-- `Field.write`: the file it makes. The coordinates become matrices (rectilinear grids) or are those of the grid (curvilinear grids). `date` is
the date of the time origin; times without calendar are written as they are, that is with `date = 0`. Simplification: the mesh attribute, which
is written and read, is left out; the exception for s-grids is not modelled. Models: field.py:1268-1305. -/
def writeField (date : ℚ) (g : Grid) (d : ND ℚ) : Option NcFile :=
  (d.reshape [g.time.length, g.depth.length, g.ydim, g.xdim]).map fun a =>
    ⟨⟨[g.ydim, g.xdim], fun i => g.lonAt (i.getD 0 0) (i.getD 1 0)⟩, ⟨[g.ydim, g.xdim], fun i => g.latAt (i.getD 0 0) (i.getD 1 0)⟩,
      g.depth, g.time.map (· + date), a⟩

/-- What a FieldSet has as attributes. Models: fieldset.py:930-939. -/
inductive Entry where
  | field (name : String) (date : ℚ) (g : Grid) (d : ND ℚ)
  | other (name : String)

/-- `FieldSet.write`: the files, by name, or `none` for the AttributeError raised by fields that are not scalar: `get_fields` lists them too, and they
have no `write`. Simplification: U and V are not written first. Models: fieldset.py:973-988, 926-940. -/
def writeSet : List Entry → Option (List (String × NcFile))
  | [] => some []
  | .other _ :: _ => none
  | .field n date g d :: es => (writeField date g d).bind fun f => (writeSet es).map fun fs => (n, f) :: fs

end Parcels.Load
