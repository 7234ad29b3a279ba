import Verif.Proofs.Load7

/-!
C69: the value a field has at a node is the value the file (or the array the user gave) has for the coordinates of that node.
-/

namespace Parcels.Load
open Parcels.Search

/-! ### Arrays -/

/-- C69 for arrays: for all vectors (or matrices) of longitudes and latitudes, depths and times, and data with any of the documented
shapes, transposed or not, the field is made, and at every node its value is the one the array has for a row with the latitude of the
node and a column with its longitude - also if the latitudes run from north to south, so that grid and data are turned round. -/
theorem C69_array (lon lat : ND ℚ) (depth time : List ℚ) (X Y : Nat) (l : Layout) (transpose pop : Bool) (a : ND ℚ)
    (hs : (lon.shape = [X] ∧ lat.shape = [Y]) ∨ (lon.shape = [Y, X] ∧ lat.shape = [Y, X]))
    (ha : a.shape = if transpose then (l.shape time.length depth.length Y X).reverse else l.shape time.length depth.length Y X)
    (hT : l = .yx ∨ l = .zyx → time.length = 1) (hZ : l.hasDepth = false → depth.length = 1) :
    let g := createGrid lon lat depth time
    ∃ d, fieldReshape g time.length pop transpose a = some d ∧ g.xdim = X ∧ g.ydim = Y ∧ g.depth = depth ∧ g.time = time ∧
      ∀ t z y x, t < time.length → z < depth.length → y < Y → x < X → ∃ row, row < Y ∧
        g.latAt y x = lat.get (if lat.shape.length = 1 then [row] else [row, x]) ∧
        g.lonAt y x = lon.get (if lon.shape.length = 1 then [x] else [row, x]) ∧
        nodeValue d t z y x = a.get (if transpose then (l.index t z row x).reverse else l.index t z row x) := by
  intro g
  obtain ⟨h1, h2, h3, h4, h5⟩ := createGrid_nodes lon lat depth time X Y hs
  have e1 : g.xdim = X := h1
  have e2 : g.ydim = Y := h2
  have e3 : g.depth = depth := h3
  rw [fieldReshape_transpose]
  obtain ⟨d, hd, hv⟩ := reshape_documented g time.length depth.length pop l (if transpose then a.transpose else a) (by
    rw [e1, e2]
    cases transpose
    · simpa using ha
    · simp only [if_true] at ha ⊢
      unfold ND.transpose
      simp only []
      rw [ha, List.reverse_reverse]) hT hZ (Or.inl (by rw [e3]))
  refine ⟨d, hd, h1, h2, h3, h4, ?_⟩
  intro t z y x ht hz hy hx
  obtain ⟨r1, r2, r3⟩ := h5 y x hy
  refine ⟨g.rowOf y, r1, r2, r3, ?_⟩
  rw [hv t z y x ht hz (by rw [e2]; exact hy) (by rw [e1]; exact hx)]
  cases transpose <;> rfl

/-- A 2 x 3 array, latitudes from north to south. -/
def exLon : ND ℚ := ⟨[3], fun i => 10 + i.headD 0⟩
def exLat : ND ℚ := ⟨[2], fun i => 5 - i.headD 0⟩
def exData : ND ℚ := ⟨[2, 3], fun i => 100 * i.getD 0 0 + i.getD 1 0⟩

example : (createGrid exLon exLat [0] [0]).latAt 0 1 = 4 ∧
    (fieldReshape (createGrid exLon exLat [0] [0]) 1 false false exData).map (fun d => nodeValue d 0 0 0 1) = some 101 := by
  decide +kernel

/-- C69 is false when the data of a field and its grid are used for a new field, as in `Field("Q", P.data, grid=P.grid)`: if the latitudes
were given from north to south, the data are turned round once more, and the new field is upside down. -/
theorem C69_reused_grid_fails :
    let g := createGrid exLon exLat [0] [0]
    ∃ d e, fieldReshape g 1 false false exData = some d ∧ fieldReshape g 1 false false d = some e ∧
      nodeValue d 0 0 0 1 = 101 ∧ nodeValue e 0 0 0 1 = 1 := by
  intro g
  have h : ((fieldReshape g 1 false false exData).bind fun d => (fieldReshape g 1 false false d).map fun e =>
      (nodeValue d 0 0 0 1, nodeValue e 0 0 0 1)) = some (101, 1) := by decide +kernel
  rw [Option.bind_eq_some_iff] at h
  obtain ⟨d, h1, h⟩ := h
  rw [Option.map_eq_some_iff] at h
  obtain ⟨e, h2, h3⟩ := h
  injection h3 with h3 h4
  exact ⟨d, e, h1, h2, h3, h4⟩

/-! ### Files, loaded at once -/

/-- C69 for files that are loaded at once: for every list of files with the same coordinates, whose data have the axes (time, depth, lat,
lon), (time, lat, lon), (depth, lat, lon) or (lat, lon), and all lists of indices: if the load succeeds, then at every time, level and node
the value of the field is the one that one of the files has for the time, depth, latitude and longitude of the node. The coordinates are the
same if they are vectors in the files, and the same up to the tolerance of `np.allclose` if they are matrices (`C69_tolerance_fails`).
Partial: for data without depth axis, the file has one depth or the request is for the first only; for data with the axes (depth, lat,
lon), more than one depth is requested (`C69_single_depth_fails`). -/
theorem C69_direct_partial (l : Layout) (ny nx nz : Nat) (r : Request) (f0 : NcFile) (fs : List NcFile) (hf : fs.head? = some f0)
    (hw : ∀ f ∈ fs, WellFormed l ny nx nz f) (hs : SameAxes fs) (hnz : 1 ≤ nz)
    (hflat : l.hasDepth = false → wantedDepth r f0 = [0]) (hzyx : l = .zyx → 1 < (wantedDepth r f0).length)
    (g : Grid) (d : ND ℚ) (h : loadDirect r fs = some (g, d)) :
    g.time = (fs.flatMap (·.time)).map (· - origin fs) ∧ g.depth.length = (wantedDepth r f0).length ∧
    g.ydim = (wanted r.lat ny).length ∧ g.xdim = (wanted r.lon nx).length ∧
    ∀ k, k < g.time.length → Holds (decide (f0.lon.shape.length ≠ 1)) l r (wanted r.lat ny) (wanted r.lon nx) fs g (picked r f0 nz).length d k k := by
  have h0 : f0 ∈ fs := List.mem_of_mem_head? (by rw [hf]; rfl)
  unfold loadDirect at h
  simp only [Option.bind_eq_bind, Option.bind_eq_some_iff] at h
  obtain ⟨g', h1, d', h2, h3⟩ := h
  injection h3 with h3
  injection h3 with e1 e2
  subst e1 e2
  have hG := makeGrid_spec l ny nx nz r f0 fs hf (hw f0 h0) g' h1
  rw [← latIdx_eq (hw f0 h0), ← lonIdx_eq (hw f0 h0)]
  exact ⟨hG.time, hG.zdim, hG.ydim, hG.xdim, fun k hk => loadOn_spec l ny nx nz r f0 fs hf hw hs hnz hflat hzyx g' hG d' h2 k hk⟩

/-- C69: such a load succeeds, if the indices exist and the times increase. Partial: as for `C69_direct_partial`, and data without the deepest
level only if the grid indexing is that of POP (`C69_mom5_short_fails`). -/
theorem C69_direct_loads_partial (l : Layout) (ny nx nz : Nat) (r : Request) (f0 : NcFile) (fs : List NcFile) (hf : fs.head? = some f0)
    (hw : ∀ f ∈ fs, WellFormed l ny nx nz f) (hs : SameAxes fs) (hnz : 1 ≤ nz)
    (hflat : l.hasDepth = false → wantedDepth r f0 = [0]) (hzyx : l = .zyx → 1 < (wantedDepth r f0).length)
    (hi : InFile r f0 ny nx nz) (hT : Increasing (fs.flatMap (·.time))) (hpop : r.short f0 nz = true → r.pop = true) :
    ∃ g d, loadDirect r fs = some (g, d) :=
  loadDirect_ok l ny nx nz r f0 fs hf hw hs hnz hflat hzyx hi hT hpop

/-! ### Deferred loading -/

/-- C69 for deferred loading, after any number of moves forward and back in time: the two records in memory are those of the time indices
`n` and `n + 1`, node by node, as if all files had been loaded at once. Partial: as for `C69_direct_partial`, and the grid was made of these
files (`C69_shared_grid_fails`). -/
theorem C69_deferred_partial (l : Layout) (ny nx nz : Nat) (r : Request) (f0 : NcFile) (fs : List NcFile) (hf : fs.head? = some f0)
    (hw : ∀ f ∈ fs, WellFormed l ny nx nz f) (hs : SameAxes fs) (hnz : 1 ≤ nz)
    (hflat : l.hasDepth = false → wantedDepth r f0 = [0]) (hzyx : l = .zyx → 1 < (wantedDepth r f0).length)
    (hi : 1 ≤ (picked r f0 nz).length)
    (g : Grid) (hg : makeGrid r fs = some g) (n : Nat) (d : ND ℚ) (h : InMemory r g fs n d) :
    Holds (decide (f0.lon.shape.length ≠ 1)) l r (wanted r.lat ny) (wanted r.lon nx) fs g (picked r f0 nz).length d 0 n ∧
    Holds (decide (f0.lon.shape.length ≠ 1)) l r (wanted r.lat ny) (wanted r.lon nx) fs g (picked r f0 nz).length d 1 (n + 1) := by
  have h0 : f0 ∈ fs := List.mem_of_mem_head? (by rw [hf]; rfl)
  have hG := makeGrid_spec l ny nx nz r f0 fs hf (hw f0 h0) g hg
  have := inMemory_inv l ny nx nz r f0 fs hf hw hs hnz hflat hzyx hi g hG n d h
  rw [← latIdx_eq (hw f0 h0), ← lonIdx_eq (hw f0 h0)]
  exact ⟨this.lower, this.upper⟩

/-- C69: deferred loads succeed, from any place and in both directions. Partial: as before, and with the grid indexing of POP only if the
deepest level is requested and the data do not have it (`C69_pop_deferred_fails`). -/
theorem C69_deferred_loads_partial (l : Layout) (ny nx nz : Nat) (r : Request) (f0 : NcFile) (fs : List NcFile) (hf : fs.head? = some f0)
    (hw : ∀ f ∈ fs, WellFormed l ny nx nz f) (hs : SameAxes fs) (hnz : 1 ≤ nz)
    (hflat : l.hasDepth = false → wantedDepth r f0 = [0]) (hzyx : l = .zyx → 1 < (wantedDepth r f0).length)
    (hi : InFile r f0 ny nx nz) (hT : Increasing (fs.flatMap (·.time)))
    (hpop : r.short f0 nz = (r.pop && decide (1 < (wantedDepth r f0).length))) :
    ∃ g, makeGrid r fs = some g ∧ ∀ (junk : List Nat → ℚ) (n : Nat), n + 1 < g.time.length →
      (∃ d, loadPair r g fs junk n = some d) ∧ (∀ old, ∃ d, loadNext r g fs junk old n = some d) ∧
      ∀ old, ∃ d, loadPrev r g fs junk old n = some d := by
  have h0 : f0 ∈ fs := List.mem_of_mem_head? (by rw [hf]; rfl)
  obtain ⟨g, hg⟩ := makeGrid_ok l ny nx nz r f0 fs hf (hw f0 h0) hi hT
  have hG := makeGrid_spec l ny nx nz r f0 fs hf (hw f0 h0) g hg
  exact ⟨g, hg, fun junk n hn => ⟨loadPair_ok l ny nx nz r f0 fs hf hw hs hnz hflat hzyx hi hpop g hG junk n hn,
    fun old => loadNext_ok l ny nx nz r f0 fs hf hw hs hnz hflat hzyx hi hpop g hG junk old n hn,
    fun old => loadPrev_ok l ny nx nz r f0 fs hf hw hs hnz hflat hzyx hi hpop g hG junk old n hn⟩⟩

/-! ### Non-trivial cases -/

/-- Two files with 2 and 1 records of 3 levels, 2 rows from north to south and 4 columns; the value codes file, record, level, row, column. -/
def exFile (n : Nat) (ts : List ℚ) : NcFile where
  lon := ⟨[4], fun i => i.headD 0⟩
  lat := ⟨[2], fun i => 50 - i.headD 0⟩
  depth := [0, 10, 20]
  time := ts
  data := ⟨[ts.length, 3, 2, 4], fun i => 10000 * n + 1000 * i.getD 0 0 + 100 * i.getD 1 0 + 10 * i.getD 2 0 + i.getD 3 0⟩
def exFiles : List NcFile := [exFile 1 [7, 8], exFile 2 [10]]

/-- Levels 1 and 2, columns 1 to 3. -/
def exReq : Request := ⟨some [1, 2, 3], none, some [1, 2], true, false, false⟩

theorem exFile_wf (n : Nat) (t : ℚ) (ts : List ℚ) : WellFormed .tzyx 2 4 3 (exFile n (t :: ts)) := by
  constructor
  · exact Or.inl ⟨rfl, rfl⟩
  · rfl
  · simp [exFile]
  · intro h; rcases h with h | h <;> cases h

example : (∀ f ∈ exFiles, WellFormed .tzyx 2 4 3 f) ∧ SameAxes exFiles ∧ InFile exReq (exFile 1 [7, 8]) 2 4 3 ∧
    Increasing (exFiles.flatMap (·.time)) ∧ exReq.short (exFile 1 [7, 8]) 3 = false := by
  refine ⟨?_, ?_, ⟨?_, ?_, ?_, ?_, ?_⟩, ?_, ?_⟩
  · intro f hf
    simp only [exFiles, List.mem_cons, List.not_mem_nil, or_false] at hf
    rcases hf with rfl | rfl <;> exact exFile_wf _ _ _
  · intro f hf g hg
    simp only [exFiles, List.mem_cons, List.not_mem_nil, or_false] at hf hg
    rcases hf with rfl | rfl <;> rcases hg with rfl | rfl <;> exact ⟨rfl, rfl, rfl⟩
  · decide
  · decide
  · decide
  · decide
  · decide
  · unfold Increasing; decide +kernel
  · decide

/-- The third time is the only record of the second file; the lower row of the field is the second row of the file. -/
example : (loadDirect exReq exFiles).map (fun p => (p.1.time, p.1.depth, p.1.latAt 0 1, p.1.lonAt 0 1, nodeValue p.2 2 1 0 1)) =
    some ([0, 1, 3], [10, 20], 49, 2, 20000 + 200 + 10 + 2) := by decide +kernel

example : ((makeGrid exReq exFiles).bind fun g => (loadPair exReq g exFiles (fun _ => 77) 0).bind fun d =>
    (loadNext exReq g exFiles (fun _ => 88) d 1).map fun e => (nodeValue e 0 1 0 1, nodeValue e 1 1 0 1)) =
    some (10000 + 1000 + 200 + 10 + 2, 20000 + 200 + 10 + 2) := by decide +kernel

/-! ### Where C69 fails -/

/-- Files with data on (depth, lat, lon), one time each. -/
def zFile (n : Nat) (t : ℚ) : NcFile where
  lon := ⟨[2], fun i => i.headD 0⟩
  lat := ⟨[2], fun i => i.headD 0⟩
  depth := [0, 10, 20]
  time := [t]
  data := ⟨[3, 2, 2], fun i => 1000 * n + 100 * i.getD 0 0 + 10 * i.getD 1 0 + i.getD 2 0⟩

/-- C69 is false for data on (depth, lat, lon) if one depth is requested: with `indices={'depth': [0]}` the load fails; with deferred loading
the field gets the data of the deepest level, although its depth is 0. -/
theorem C69_single_depth_fails :
    let r : Request := ⟨none, none, some [0], true, false, false⟩
    let fs := [zFile 1 0, zFile 2 1]
    (∀ f ∈ fs, WellFormed .zyx 2 2 3 f) ∧ loadDirect r fs = none ∧
    ((makeGrid r fs).bind fun g => (loadPair r g fs (fun _ => 0) 0).map fun d => (g.depth, nodeValue d 0 0 1 1)) = some ([0], 1211) := by
  refine ⟨?_, ?_, ?_⟩
  · intro f hf
    simp only [List.mem_cons, List.not_mem_nil, or_false] at hf
    rcases hf with rfl | rfl <;> exact ⟨Or.inl ⟨rfl, rfl⟩, rfl, by decide, fun _ => rfl⟩
  · have : (loadDirect ⟨none, none, some [0], true, false, false⟩ [zFile 1 0, zFile 2 1]).isNone = true := by decide +kernel
    simpa using this
  · decide +kernel

/-- The same field in a file from north to south, and in one from south to north. -/
def nsFile (south : Bool) (t : ℚ) : NcFile where
  lon := ⟨[2], fun i => i.headD 0⟩
  lat := ⟨[2], fun i => if south then i.headD 0 else 1 - i.headD 0⟩
  depth := [0]
  time := [t]
  data := ⟨[1, 2, 2], fun i => if south then 10 * i.getD 1 0 else 10 * (1 - i.getD 1 0)⟩

/-- C69 is false for deferred loading if a FieldSet shares one grid between fields whose files have the latitudes in different order. (The grids
have the same coordinates, so `GridSet.add_grid` takes the first for both.) The data of the second field are turned round although they
should not be: at latitude 0 it has the value the file has at latitude 1. -/
theorem C69_shared_grid_fails :
    let r : Request := ⟨none, none, none, false, false, false⟩
    let north := [nsFile false 0, nsFile false 1]
    let south := [nsFile true 0, nsFile true 1]
    ∃ g g', makeGrid r north = some g ∧ makeGrid r south = some g' ∧
      (∀ y < 2, ∀ x < 2, g.latAt y x = g'.latAt y x ∧ g.lonAt y x = g'.lonAt y x) ∧ g.depth = g'.depth ∧ g.time = g'.time ∧
      g.latAt 0 0 = 0 ∧
      (loadPair r g south (fun _ => 0) 0).map (fun d => nodeValue d 0 0 0 0) = some 10 ∧
      (loadPair r g' south (fun _ => 0) 0).map (fun d => nodeValue d 0 0 0 0) = some 0 := by
  intro r north south
  have h1 : (makeGrid r north).isSome = true := by decide +kernel
  have h2 : (makeGrid r south).isSome = true := by decide +kernel
  refine ⟨(makeGrid r north).get h1, (makeGrid r south).get h2, by simp, by simp, ?_, ?_, ?_, ?_, ?_, ?_⟩
  all_goals decide +kernel +revert

/-- A fine curvilinear grid at 180 degrees: the columns are not meridians. -/
def fineFile : NcFile where
  lon := ⟨[2, 2], fun i => 180 + (i.getD 0 0 + i.getD 1 0) / 1000⟩
  lat := ⟨[2, 2], fun i => i.getD 0 0 / 1000⟩
  depth := [0]
  time := [0]
  data := ⟨[2, 2], fun i => 10 * i.getD 0 0 + i.getD 1 0⟩

/-- C69 is false for coordinates given as matrices, if they are close to those of a rectilinear grid in the sense of `np.allclose`, that is up to
0.0018 degrees (200 m) at 180 degrees: here the node with value 10 is at longitude 180.001 in the file, and at 180 in the field. -/
theorem C69_tolerance_fails :
    let r : Request := ⟨none, none, none, false, false, false⟩
    fineFile.lonAt 1 0 = 180 + 1 / 1000 ∧
    (loadDirect r [fineFile]).map (fun p => (p.1.curvilinear, p.1.latAt 1 0, p.1.lonAt 1 0, nodeValue p.2 0 0 1 0)) =
      some (false, 1 / 1000, 180, 10) := by
  refine ⟨?_, ?_⟩ <;> decide +kernel

/-- C69: with the grid indexing of POP, three depths in the file and a request for the upper two, the load works at once but not when
deferred: the array has one level, the data two. -/
theorem C69_pop_deferred_fails :
    let r : Request := ⟨none, none, some [0, 1], true, true, true⟩
    let fs := [exFile 1 [7, 8]]
    (loadDirect r fs).isSome = true ∧ ((makeGrid r fs).bind fun g => (loadPair r g fs (fun _ => 0) 0).map fun _ => ()) = none := by
  refine ⟨?_, ?_⟩ <;> decide +kernel

/-- A file with data for the upper two of three depths. -/
def shortFile : NcFile where
  lon := ⟨[2], fun i => i.headD 0⟩
  lat := ⟨[2], fun i => i.headD 0⟩
  depth := [0, 10, 20]
  time := [0]
  data := ⟨[1, 2, 2, 2], fun i => 100 * i.getD 1 0 + 10 * i.getD 2 0 + i.getD 3 0⟩

/-- C69: data on a B-grid without the deepest level load with the grid indexing of POP only; with that of MOM5 the load fails. -/
theorem C69_mom5_short_fails :
    (loadDirect ⟨none, none, none, true, true, true⟩ [shortFile]).map (fun p => nodeValue p.2 0 1 1 1) = some 111 ∧
    (loadDirect ⟨none, none, none, true, true, false⟩ [shortFile]).isNone = true := by
  refine ⟨?_, ?_⟩ <;> decide +kernel

end Parcels.Load
