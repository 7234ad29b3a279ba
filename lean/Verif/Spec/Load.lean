import Verif.Model.Load

/-!
Vocabulary for C69: what a file says, and when a field in memory agrees with it.
-/

namespace Parcels.Load

/-- The axes a data variable has in the file. -/
inductive Layout where
  | yx
  | tyx
  | zyx
  | tzyx
deriving DecidableEq

/-- Does the variable have a depth axis? -/
def Layout.hasDepth : Layout → Bool
  | .zyx | .tzyx => true
  | _ => false

/-- The shape of data with these axes. -/
def Layout.shape (l : Layout) (T Z Y X : Nat) : List Nat :=
  match l with
  | .yx => [Y, X]
  | .tyx => [T, Y, X]
  | .zyx => [Z, Y, X]
  | .tzyx => [T, Z, Y, X]

/-- The index of time `t`, level `z`, row `y`, column `x` in data with these axes. -/
def Layout.index (l : Layout) (t z y x : Nat) : List Nat :=
  match l with
  | .yx => [y, x]
  | .tyx => [t, y, x]
  | .zyx => [z, y, x]
  | .tzyx => [t, z, y, x]

/-- The value a file gives for record `t`, level `z`, row `y`, column `x`. -/
def Layout.value (l : Layout) (f : NcFile) (t z y x : Nat) : ℚ :=
  match l with
  | .yx => f.data.get [y, x]
  | .tyx => f.data.get [t, y, x]
  | .zyx => f.data.get [z, y, x]
  | .tzyx => f.data.get [t, z, y, x]

/-- The longitude a file gives for row `y`, column `x`: the variable has one axis, or two, possibly after one or two axes of length 1. -/
def NcFile.lonAt (f : NcFile) (y x : Nat) : ℚ :=
  if f.lon.shape.length = 1 then f.lon.get [x] else f.lon.get (List.replicate (f.lon.shape.length - 2) 0 ++ [y, x])

/-- The latitude a file gives for row `y`, column `x`. -/
def NcFile.latAt (f : NcFile) (y x : Nat) : ℚ :=
  if f.lat.shape.length = 1 then f.lat.get [y] else f.lat.get (List.replicate (f.lat.shape.length - 2) 0 ++ [y, x])

/-- A file with rows and columns `ny`, `nx`, and `nz` levels of data, whose variables have the axes they should have. -/
structure WellFormed (l : Layout) (ny nx nz : Nat) (f : NcFile) : Prop where
  coords : (f.lon.shape = [nx] ∧ f.lat.shape = [ny]) ∨
    ∃ m, f.lon.shape = List.replicate m 1 ++ [ny, nx] ∧ f.lat.shape = List.replicate m 1 ++ [ny, nx]
  data : f.data.shape = match l with
    | .yx => [ny, nx]
    | .tyx => [f.time.length, ny, nx]
    | .zyx => [nz, ny, nx]
    | .tzyx => [f.time.length, nz, ny, nx]
  times : 1 ≤ f.time.length
  single : l = .yx ∨ l = .zyx → f.time.length = 1

/-- The files of one series have the same coordinates. -/
def SameAxes (fs : List NcFile) : Prop := ∀ f ∈ fs, ∀ g ∈ fs, f.lon = g.lon ∧ f.lat = g.lat ∧ f.depth = g.depth

/-- `a` and `b` are the same, up to the tolerance of `np.allclose`, if `tol`; the same, if not. -/
def Agree (tol : Bool) (a b : ℚ) : Prop := if tol then |a - b| ≤ 1 / 100000000 + 1 / 100000 * |b| else a = b

/-- The data in slot `s` of a field in memory are those of the files for time index `k` of the grid: the value at each node is the
value one of the files gives for a record, level, row and column with the time, depth, latitude and longitude of the node; the row is
one of the requested rows, the column is the requested one. Without depth dimension it is the first level. `levels`: number of levels of data (it can be one less than there are depths). -/
def Holds (tol : Bool) (l : Layout) (r : Request) (rows cols : List Nat) (fs : List NcFile) (g : Grid) (levels : Nat) (d : ND ℚ) (s k : Nat) : Prop :=
  ∀ z y x, z < levels → y < g.ydim → x < g.xdim →
    ∃ f ∈ fs, ∃ a b c e, c ∈ rows ∧ cols[x]? = some e ∧ f.time[a]? = some (g.time.getD k 0 + origin fs) ∧
      (if r.useDepth then f.depth[b]? = some (g.depth.getD z 0) else b = 0) ∧
      Agree tol (g.latAt y x) (f.latAt c e) ∧ Agree tol (g.lonAt y x) (f.lonAt c e) ∧
      nodeValue d s z y x = l.value f a b c e

/-- The indices a request means: those it lists, or all `n`. -/
def wanted (sel : Option (List Nat)) (n : Nat) : List Nat := sel.getD (List.range n)

/-- The depths a request means; without depth dimension there is one level. -/
def wantedDepth (r : Request) (f : NcFile) : List Nat := if r.useDepth then wanted r.depth f.depth.length else [0]

/-- Has this request levels of data for all depths but the last (some B-grid data sets do not have the deepest level)? -/
def Request.short (r : Request) (f : NcFile) (nz : Nat) : Bool :=
  r.useDepth && r.bgrid && decide (nz + 1 = f.depth.length) && decide ((wantedDepth r f).getLastD 0 + 1 = f.depth.length)

/-- The levels of data a request gives: the requested ones; without the last, if the data do not have it. -/
def picked (r : Request) (f : NcFile) (nz : Nat) : List Nat :=
  if r.short f nz then (wantedDepth r f).dropLast else wantedDepth r f

/-- The requested indices exist in files with `ny` rows, `nx` columns and `nz` levels of data. -/
structure InFile (r : Request) (f : NcFile) (ny nx nz : Nat) : Prop where
  lat : ∀ i ∈ wanted r.lat ny, i < ny
  lon : ∀ i ∈ wanted r.lon nx, i < nx
  levels : ∀ i ∈ picked r f nz, i < nz
  depth : r.useDepth = true → ∀ i ∈ wantedDepth r f, i < f.depth.length
  some : 1 ≤ (picked r f nz).length

/-- What deferred loading can have in memory after any number of moves forward and back: `InMemory r g fs n d` says that the data are
`d` when the grid is at time index `n`. -/
inductive InMemory (r : Request) (g : Grid) (fs : List NcFile) : Nat → ND ℚ → Prop where
  | first (junk : List Nat → ℚ) (n : Nat) (d : ND ℚ) : n + 1 < g.time.length → loadPair r g fs junk n = some d → InMemory r g fs n d
  | next (junk : List Nat → ℚ) (n : Nat) (old d : ND ℚ) : InMemory r g fs n old → n + 2 < g.time.length →
      loadNext r g fs junk old (n + 1) = some d → InMemory r g fs (n + 1) d
  | prev (junk : List Nat → ℚ) (n : Nat) (old d : ND ℚ) : InMemory r g fs (n + 1) old → n + 1 < g.time.length →
      loadPrev r g fs junk old n = some d → InMemory r g fs n d

end Parcels.Load
