import Verif.Proofs.Memory

/-!
C83: compiled sampling reads only the memory of the grid and of the field.
-/

namespace Parcels.Memory
open Parcels.Chunks (at? Copes InMemory Data Out)

variable {C α : Type}

/-- One sample, wherever and whenever it is taken, from indices in range: every read is inside its array, whatever comparisons and arithmetic give, whether or not the sample succeeds. The
indices stay in range, but for the level -1 that MOM5 has above the first level. Missing: the cases `Req.Meant` leaves out, curvilinear grids on the sphere (where it is false), and the rest of the generated code. -/
theorem C83_sample_partial (o : Ops C) (g : Grid C) (hg : Complete g) (ixg : Indexing) (depth : Nat) (q : Req C α) (hq : q.On g) (hm : q.Meant g ixg) (ix : Idx)
    (h : InRange g ix) : ∃ ix', q.run o g ixg depth ix = some ix' ∧ (ixg ≠ .mom5 → InRange g ix') := by
  obtain ⟨r, e, r1, r2⟩ := run_safe o g hg ixg depth q hq hm ix h.loose fun h1 => .inl (h.z h1).1
  exact ⟨r, e, fun hn => ⟨r1.x, r1.y, fun h1 => ⟨r2 hn h1 (h.z h1).1, (r1.z h1).2⟩, r1.t⟩⟩

/-- Any number of samples one after the other, each starting from the indices the one before has left: every read is inside its array. With MOM5 on levels of constant depth, if no sample is
taken exactly at the depth of the first level. -/
theorem C83_history_partial (o : Ops C) (g : Grid C) (hg : Complete g) (ixg : Indexing) (depth : Nat) (qs : List (Req C α)) (hq : ∀ q ∈ qs, q.On g)
    (hm : ∀ q ∈ qs, q.Meant g ixg)
    (h5 : ixg = .mom5 → g.s = false ∧ ∀ q ∈ qs, ∃ a, g.depth.head? = some a ∧ (o.lt a q.depth = true ∨ o.lt q.depth a = true)) (ix : Idx) (h : InRange g ix) :
    ∃ ix', runAll o g ixg depth qs ix = some ix' ∧ (ixg ≠ .mom5 → InRange g ix') := by
  by_cases hn : ixg = .mom5
  · obtain ⟨hs, h5⟩ := h5 hn
    have key : ∀ (qs : List (Req C α)), (∀ q ∈ qs, q.On g) → (∀ q ∈ qs, q.Meant g ixg) →
        (∀ q ∈ qs, ∃ a, g.depth.head? = some a ∧ (o.lt a q.depth = true ∨ o.lt q.depth a = true)) → ∀ ix, Loose g ix → ∃ ix', runAll o g ixg depth qs ix = some ix' := by
      intro qs
      induction qs with
      | nil => intro _ _ _ ix _; exact ⟨ix, rfl⟩
      | cons q qs ih =>
        intro a b c ix hx
        obtain ⟨r, e, r1, -⟩ := run_safe o g hg ixg depth q (a q List.mem_cons_self) (b q List.mem_cons_self) ix hx (fun _ => .inr ⟨hs, by
          obtain ⟨d, h1, h2⟩ := c q List.mem_cons_self
          refine ⟨d, ?_, h2⟩
          rcases hd : g.depth with _ | ⟨d', l⟩
          · rw [hd] at h1; cases h1
          · rw [hd] at h1; cases h1; rfl⟩)
        obtain ⟨r', e'⟩ := ih (fun x hx => a x (List.mem_cons_of_mem _ hx)) (fun x hx => b x (List.mem_cons_of_mem _ hx))
          (fun x hx => c x (List.mem_cons_of_mem _ hx)) r r1
        exact ⟨r', by rw [runAll, e, Option.bind_some, e']⟩
    obtain ⟨r, e⟩ := key qs hq hm h5 ix h.loose
    exact ⟨r, e, fun hh => absurd hn hh⟩
  · clear h5
    induction qs generalizing ix with
    | nil => exact ⟨ix, rfl, fun _ => h⟩
    | cons q qs ih =>
      obtain ⟨r, e, r1⟩ := C83_sample_partial o g hg ixg depth q (hq q List.mem_cons_self) (hm q List.mem_cons_self) ix h
      obtain ⟨r', e', r2⟩ := ih (fun x hx => hq x (List.mem_cons_of_mem _ hx)) (fun x hx => hm x (List.mem_cons_of_mem _ hx)) r (r1 hn)
      exact ⟨r', by rw [runAll, e, Option.bind_some, e'], r2⟩

/-! ### Concrete cases -/

/-- The position in a cell, as in C28 but without roots: the cells below are parallelograms. -/
def solve (spherical : Bool) (x y : ℚ) (px py : List ℚ) (eta : ℚ) : ℚ × ℚ :=
  let c := Curvilinear.shift spherical x ⟨px.getD 0 0, px.getD 1 0, px.getD 2 0, px.getD 3 0, py.getD 0 0, py.getD 1 0, py.getD 2 0, py.getD 3 0⟩
  let num := fun (e : Curvilinear.Ext ℚ) => match e with
    | .fin r => r
    | .pinf => 1000000000
    | .ninf => -1000000000
    | .nan => 0
  let e := Curvilinear.solveEta (fun _ => 0) true c x y (.fin eta)
  (num (Curvilinear.solveXsi c x y e), num e)

/-- Exact arithmetic; a period of 10. -/
def exact : Ops ℚ where
  lt a b := decide (a < b)
  zero := 0
  one := 1
  rel x a b := (x - a) / (b - a)
  near225 a x := if a < x - 225 then a + 360 else if x + 225 < a then a - 360 else a
  near180 b a := if b < a - 180 then b + 360 else if a + 180 < b then b - 360 else b
  above a b := 2 * a - b
  ratio z a := z / a
  mix x e a b c d := (1 - x) * (1 - e) * a + x * (1 - e) * b + x * e * c + (1 - x) * e * d
  tmix a b t t0 t1 := a + (b - a) * ((t - t0) / (t1 - t0))
  before t := t + 10
  after t := t - 10
  start := -1
  lo := -Curvilinear.tol
  hi := 1 + Curvilinear.tol
  solve sph x y px py _ eta := solve sph x y px py eta
  isNan _ := false

/-- Two snapshots, three levels, three rows and three columns; coordinates 0, 1, 2, depths 1, 2, 3. -/
def box : Grid ℚ where
  lon := [0, 1, 2]
  lat := [0, 1, 2]
  depth := [1, 2, 3]
  zdim := 3
  time := [0, 10]
  spherical := false
  zonalPeriodic := false
  s := false
  z4d := false
  lonMin := 0
  lonMax := 2
  latMin := 0
  latMax := 2

theorem box_complete : Complete box :=
  ⟨by decide, by decide, fun _ => rfl, fun _ => rfl, (fun _ h => by cases h), (fun _ h => by cases h), fun _ => rfl, (by intro h; cases h)⟩

def boxData : Data ℚ := ⟨2, fun _ _ => 7⟩

/-- The whole field in one chunk that is in memory. -/
def boxField : Fld ℚ := ⟨[[3], [3], [3]], [2], [some (Chunks.loadBlock [[3], [3], [3]] boxData 0)], false, false⟩

theorem boxField_on : On box boxField boxData where
  copes := ⟨by decide, by decide, by decide, by decide⟩
  memory := by
    refine ⟨rfl, rfl, ?_⟩
    intro b s hb hs
    rcases b with _ | b
    · rfl
    · simp [boxField] at hb
  dims := rfl
  times := rfl

/-- A new particle. -/
def new : Idx := ⟨0, 0, 0, -1⟩

/-- A sample in the middle, one at the far corner, one outside the domain and one above the surface, then one after the last snapshot. -/
def tour : List (Req ℚ ℚ) :=
  [.field boxField boxData false (3/2) (1/2) (3/2) 5, .velocity boxField boxField boxData boxData true 2 2 3 0, .field boxField boxData false 5 1 1 0,
   .field boxField boxData false 1 1 0 0, .field boxField boxData true 1 1 1 11]

example : ∃ ix', runAll exact box .nemo 5 tour new = some ix' ∧ InRange box ix' := by
  obtain ⟨r, e, h⟩ := C83_history_partial exact box box_complete .nemo 5 tour
    (by
      intro q hq
      simp only [tour, List.mem_cons, List.not_mem_nil, or_false] at hq
      rcases hq with rfl | rfl | rfl | rfl | rfl
      · exact boxField_on
      · exact ⟨boxField_on, boxField_on, fun _ => ⟨rfl, rfl⟩⟩
      · exact boxField_on
      · exact boxField_on
      · exact boxField_on)
    (by
      intro q hq
      simp only [tour, List.mem_cons, List.not_mem_nil, or_false] at hq
      rcases hq with rfl | rfl | rfl | rfl | rfl
      · exact fun h => by cases h
      · exact ⟨rfl, by decide, by decide⟩
      · exact fun h => by cases h
      · exact fun h => by cases h
      · exact fun h => by cases h)
    (by intro h; cases h) new ⟨by decide, by decide, by decide, by decide⟩
  exact ⟨r, e, h (by decide)⟩


example : runAll exact box .nemo 5 tour new = some ⟨1, 1, 1, 0⟩ := by decide +kernel

/-- With MOM5: samples below and above the first level, never at it. -/
def dive : List (Req ℚ ℚ) := [.field boxField boxData false 1 1 (1/2) 0, .field boxField boxData false 1 1 (5/2) 0, .field boxField boxData true 1 1 (1/4) 0]

example : ∃ ix', runAll exact box .mom5 5 dive new = some ix' := by
  obtain ⟨r, e, -⟩ := C83_history_partial exact box box_complete .mom5 5 dive
    (by
      intro q hq
      simp only [dive, List.mem_cons, List.not_mem_nil, or_false] at hq
      rcases hq with rfl | rfl | rfl <;> exact boxField_on)
    (by
      intro q hq
      simp only [dive, List.mem_cons, List.not_mem_nil, or_false] at hq
      rcases hq with rfl | rfl | rfl <;> exact fun h => by cases h)
    (by
      intro _
      refine ⟨rfl, ?_⟩
      intro q hq
      simp only [dive, List.mem_cons, List.not_mem_nil, or_false] at hq
      rcases hq with rfl | rfl | rfl <;> exact ⟨1, rfl, by decide +kernel⟩) new ⟨by decide, by decide, by decide, by decide⟩
  exact ⟨r, e⟩

/-- Terrain-following levels that move: `box` with a depth at each node and snapshot. -/
def slope : Grid ℚ := { box with
  depth := (List.range 54).map fun n => ((n / 9 % 3 : Nat) : ℚ) + 1 + (n / 27 : Nat) / 2
  s := true
  z4d := true }

theorem slope_complete : Complete slope :=
  ⟨by decide, by decide, fun _ => rfl, fun _ => rfl, (fun _ h => by cases h), (fun _ h => by cases h), (by intro h; cases h), fun _ => ⟨by decide, by decide, by decide +kernel⟩⟩

def flow3 : Req ℚ ℚ := .velocity3 boxField boxField boxField boxData boxData boxData true (3/2) (1/2) 3 5

example : ∃ ix', flow3.run exact slope .nemo 5 new = some ix' ∧ InRange slope ix' := by
  obtain ⟨r, e, h⟩ := C83_sample_partial exact slope slope_complete .nemo 5 flow3
    ⟨⟨boxField_on.copes, boxField_on.memory, rfl, rfl⟩, ⟨boxField_on.copes, boxField_on.memory, rfl, rfl⟩, ⟨boxField_on.copes, boxField_on.memory, rfl, rfl⟩,
      fun _ => ⟨rfl, rfl, rfl, rfl⟩⟩ ⟨by decide, rfl, by decide⟩ new ⟨by decide, by decide, by decide, by decide⟩
  exact ⟨r, e, h (by decide)⟩

example : flow3.run exact slope .nemo 5 new = some ⟨1, 0, 1, 0⟩ := by decide +kernel

/-- A curvilinear grid of parallelograms: row j is shifted by j/2. -/
def skew : Grid ℚ := { box with
  lonMax := 3
  curv := some ([0, 1, 2, 1/2, 3/2, 5/2, 1, 2, 3], [0, 0, 0, 1, 1, 1, 2, 2, 2]) }

theorem skew_complete : Complete skew where
  time := by decide
  zdim := by decide
  lonMax := fun h => by cases h
  latMax := fun h => by cases h
  noHalo := fun h => by cases h
  nodes := by
    intro v h
    cases h
    exact ⟨rfl, by decide, by decide, rfl, rfl⟩
  depthZ := fun _ => rfl
  depthS := fun h => by cases h

theorem skewField_on : On skew boxField boxData := ⟨boxField_on.copes, boxField_on.memory, rfl, rfl⟩

/-- A sample in the last cell, the velocity in the first one, a sample outside the grid. -/
def curvTour : List (Req ℚ ℚ) :=
  [.field boxField boxData false (9/4) (3/2) (3/2) 5, .velocity boxField boxField boxData boxData true (1/2) (1/4) 3 0, .field boxField boxData false (1/4) (7/4) 1 0]

example : ∃ ix', runAll exact skew .nemo 5 curvTour new = some ix' ∧ InRange skew ix' := by
  obtain ⟨r, e, h⟩ := C83_history_partial exact skew skew_complete .nemo 5 curvTour
    (by
      intro q hq
      simp only [curvTour, List.mem_cons, List.not_mem_nil, or_false] at hq
      rcases hq with rfl | rfl | rfl
      · exact skewField_on
      · exact ⟨skewField_on, skewField_on, fun _ => ⟨rfl, rfl⟩⟩
      · exact skewField_on)
    (by
      intro q hq
      simp only [curvTour, List.mem_cons, List.not_mem_nil, or_false] at hq
      rcases hq with rfl | rfl | rfl
      · exact fun h => by cases h
      · exact ⟨rfl, by decide, by decide⟩
      · exact fun h => by cases h)
    (by intro h; cases h) new ⟨by decide, by decide, by decide, by decide⟩
  exact ⟨r, e, h (by decide)⟩

example : runAll exact skew .nemo 5 (curvTour.take 1) new = some ⟨1, 1, 0, 0⟩ := by decide +kernel
example : runAll exact skew .nemo 5 (curvTour.take 2) new = some ⟨0, 0, 1, 0⟩ := by decide +kernel

/-! ### Where the code reads outside -/

/-- A curvilinear grid on the sphere of two rows: the last column is two units higher. -/
def steepSphere : Grid ℚ := { box with
  lat := [0, 1]
  spherical := true
  latMax := 3
  curv := some ([0, 1, 2, 0, 1, 2], [0, 0, 2, 1, 1, 3]) }

def steepField : Fld ℚ := ⟨[[3], [2], [3]], [2], [some (Chunks.loadBlock [[3], [2], [3]] boxData 0)], false, false⟩

theorem steepField_on : On steepSphere steepField boxData where
  copes := ⟨by decide, by decide, by decide, by decide⟩
  memory := by
    refine ⟨rfl, rfl, ?_⟩
    intro b s hb hs
    rcases b with _ | b
    · rfl
    · simp [steepField] at hb
  dims := rfl
  times := rfl

/-- A curvilinear grid on the sphere: the search for a position inside the grid goes over the last row, turns to the other end of the row, and reads beyond the arrays. On a flat mesh the same
position is found. -/
theorem C83_sphere_fails : ∃ (g : Grid ℚ) (f : Fld ℚ) (d : Data ℚ) (ix : Idx), g.spherical = true ∧ Complete { g with spherical := false } ∧ On g f d ∧ InRange g ix ∧
    sample exact g f .nemo false 5 (7/4) (9/4) 2 0 ix = none ∧ (sample exact { g with spherical := false } f .nemo false 5 (7/4) (9/4) 2 0 ix).map (·.1) = some ⟨1, 0, 0, 0⟩ :=
  ⟨steepSphere, steepField, boxData, new, rfl, ⟨by decide, by decide, (fun h => by cases h), (fun h => by cases h), (fun h => by cases h), (by
    intro v h
    cases h
    exact ⟨rfl, by decide, by decide, rfl, rfl⟩), fun _ => rfl, (fun h => by cases h)⟩, steepField_on, ⟨by decide, by decide, by decide, by decide⟩, by
    rw [← Option.isNone_iff_eq_none]; decide +kernel, by decide +kernel⟩

/-- From the last row, whatever the grid, the position and the arithmetic, a search on a curvilinear grid ends before its first round or reads beyond the arrays. `populate_indices` puts
particles there, see the next theorem. -/
theorem C83_last_row_fails (o : Ops C) (ho : o.lt o.start o.lo = true) (g : Grid C) (v : List C × List C) (hc : g.curv = some v)
    (h1 : v.1.length = g.lat.length * g.lon.length) (h2 : 2 ≤ g.lon.length) (h3 : 2 ≤ g.lat.length) (ix : Idx) (hx : 0 ≤ ix.xi) (hy : ix.yi + 1 = g.lat.length)
    (ixg : Indexing) (bgrid : Bool) (x y z time t0 t1 : C) :
    searchIndices o g ixg bgrid x y z time t0 t1 ix = some (ix, .error .outOfBounds) ∨ searchIndices o g ixg bgrid x y z time t0 t1 ix = none := by
  unfold searchIndices
  rw [hc]
  dsimp only
  unfold searchCurv
  obtain ⟨out, eo⟩ := rangeX_safe o g v.1 h2 h3 h1 x
  rw [eo, Option.bind_some]
  split_ifs
  · exact .inl rfl
  · right
    rw [curvLoop_outside o g v.1 v.2 h1 x y 1000000 ix.xi ix.yi o.start o.start (by unfold searching; rw [ho]; rfl) hx hy]
    rfl

/-- Squared distance. -/
def dist2 (x y a b : ℚ) : ℚ := (x - a) * (x - a) + (y - b) * (y - b)

/-- `populate_indices` gives a new particle the indices of the node nearest to it. For a particle inside the last cell this may be a node of the last row, and the first sample reads beyond
the arrays; without `populate_indices` it is found. -/
theorem C83_populate_fails : ∃ (g : Grid ℚ) (f : Fld ℚ) (d : Data ℚ), Complete g ∧ On g f d ∧ populate dist2 g 2 (7/4) new = ⟨1, 2, 0, -1⟩ ∧
    sample exact g f .nemo false 5 2 (7/4) 2 0 (populate dist2 g 2 (7/4) new) = none ∧ (sample exact g f .nemo false 5 2 (7/4) 2 0 new).map (·.1) = some ⟨1, 1, 0, 0⟩ :=
  ⟨skew, boxField, boxData, skew_complete, skewField_on, by decide +kernel, by rw [← Option.isNone_iff_eq_none]; decide +kernel, by decide +kernel⟩

/-- MOM5: a sample above the first level leaves the level -1; a sample exactly at the first level then reads the depth before the first. -/
theorem C83_mom5_fails : ∃ (g : Grid ℚ) (f : Fld ℚ) (d : Data ℚ) (ix ix' : Idx), Complete g ∧ On g f d ∧ InRange g ix ∧
    (sample exact g f .mom5 false 5 1 1 (1/2) 0 ix).map (·.1) = some ix' ∧ ix'.zi = -1 ∧ sample exact g f .mom5 false 5 1 1 1 0 ix' = none :=
  ⟨box, boxField, boxData, new, ⟨0, 0, -1, 0⟩, box_complete, boxField_on, ⟨by decide, by decide, by decide, by decide⟩, by decide +kernel, rfl, by
    rw [← Option.isNone_iff_eq_none]; decide +kernel⟩

/-- `box` with two levels. -/
def thin : Grid ℚ := { box with depth := [1, 2], zdim := 2 }

def thinField : Fld ℚ := ⟨[[2], [3], [3]], [2], [some (Chunks.loadBlock [[2], [3], [3]] boxData 0)], false, false⟩

theorem thin_complete : Complete thin :=
  ⟨by decide, by decide, fun _ => rfl, fun _ => rfl, (fun _ h => by cases h), (fun _ h => by cases h), fun _ => rfl, (by intro h; cases h)⟩

theorem thinField_on : On thin thinField boxData where
  copes := ⟨by decide, by decide, by decide, by decide⟩
  memory := by
    refine ⟨rfl, rfl, ?_⟩
    intro b s hb hs
    rcases b with _ | b
    · rfl
    · simp [thinField] at hb
  dims := rfl
  times := rfl

/-- POP with two levels: the data of level -1 are read. -/
theorem C83_pop_fails : ∃ (g : Grid ℚ) (f : Fld ℚ) (d : Data ℚ) (ix : Idx), Complete g ∧ On g f d ∧ InRange g ix ∧ sample exact g f .pop false 5 1 1 (3/2) 0 ix = none :=
  ⟨thin, thinField, boxData, new, thin_complete, thinField_on, ⟨by decide, by decide, by decide, by decide⟩, by rw [← Option.isNone_iff_eq_none]; decide +kernel⟩

/-- MITgcm: C-grid velocities in the first row of the first level read before the data. (Elsewhere in the first row or column they read the data of another row.) -/
theorem C83_mitgcm_fails : ∃ (g : Grid ℚ) (f : Fld ℚ) (d : Data ℚ) (ix : Idx), Complete g ∧ On g f d ∧ InRange g ix ∧
    sampleUV exact g f f true .mitgcm 5 (3/2) (1/2) (3/2) 0 ix = none :=
  ⟨box, boxField, boxData, new, box_complete, boxField_on, ⟨by decide, by decide, by decide, by decide⟩, by rw [← Option.isNone_iff_eq_none]; decide +kernel⟩

/-- MOM5 and POP: two-dimensional C-grid velocities are computed from variables that were never set, wherever the position is found. -/
theorem C83_unset_fails (o : Ops C) (g : Grid C) (u v : Fld α) (shared : Bool) (ixg : Indexing) (hi : ixg = .mom5 ∨ ixg = .pop) (depth : Nat) (x y z t : C) (ix : Idx) :
    ∀ r p, locate o g u ixg false depth x y z t ix = some (r, .ok p) → sampleUV o g u v shared ixg depth x y z t ix = none := by
  intro r p h
  rw [sampleUV, h, Option.bind_some]
  exact if_pos hi

example : ∃ r p, locate exact box boxField .pop false 5 1 1 2 0 new = some (r, .ok p) := by
  have h : ((locate exact box boxField .pop false 5 1 1 2 0 new).map fun r => r.2.toOption.isSome) = some true := by decide +kernel
  rcases hl : locate exact box boxField .pop false 5 1 1 2 0 new with _ | ⟨r, e | p⟩
  · rw [hl] at h; cases h
  · rw [hl] at h; cases h
  · exact ⟨r, p, rfl⟩

/-- A flat mesh with a zonal halo: a sample east of the last column reads the longitude after the last. -/
theorem C83_halo_fails : ∃ (g : Grid ℚ) (f : Fld ℚ) (d : Data ℚ) (ix : Idx), g.spherical = false ∧ g.zonalPeriodic = true ∧ Complete { g with zonalPeriodic := false } ∧ On g f d ∧
    InRange g ix ∧ sample exact g f .nemo false 5 3 1 2 0 ix = none :=
  ⟨{ box with zonalPeriodic := true }, boxField, boxData, new, rfl, rfl, box_complete, ⟨boxField_on.copes, boxField_on.memory, rfl, rfl⟩,
    ⟨by decide, by decide, by decide, by decide⟩, by rw [← Option.isNone_iff_eq_none]; decide +kernel⟩

/-- Decreasing longitudes on a flat mesh: a sample inside the domain reads the longitude after the last. -/
theorem C83_decreasing_fails : ∃ (g : Grid ℚ) (f : Fld ℚ) (d : Data ℚ) (ix : Idx), g.lon = [2, 1, 0] ∧ Complete { g with lon := [0, 1, 2] } ∧ On g f d ∧ InRange g ix ∧
    sample exact g f .nemo false 5 (3/2) 1 2 0 ix = none :=
  ⟨{ box with lon := [2, 1, 0] }, boxField, boxData, new, rfl, box_complete, ⟨boxField_on.copes, boxField_on.memory, rfl, rfl⟩,
    ⟨by decide, by decide, by decide, by decide⟩, by rw [← Option.isNone_iff_eq_none]; decide +kernel⟩

/-- `box` with one column. -/
def slice : Grid ℚ := { box with lon := [0], lonMax := 0 }

def sliceField : Fld ℚ := ⟨[[3], [3], [1]], [2], [some (Chunks.loadBlock [[3], [3], [1]] boxData 0)], false, false⟩

theorem slice_complete : Complete slice :=
  ⟨by decide, by decide, fun _ => rfl, fun _ => rfl, (fun _ h => by cases h), (fun _ h => by cases h), fun _ => rfl, (by intro h; cases h)⟩

theorem sliceField_on : On slice sliceField boxData where
  copes := ⟨by decide, by decide, by decide, by decide⟩
  memory := by
    refine ⟨rfl, rfl, ?_⟩
    intro b s hb hs
    rcases b with _ | b
    · rfl
    · simp [sliceField] at hb
  dims := rfl
  times := rfl

/-- One column: other samples are safe, but C-grid velocities read the longitude after the last. -/
theorem C83_column_fails : ∃ (g : Grid ℚ) (f : Fld ℚ) (d : Data ℚ) (ix : Idx), Complete g ∧ On g f d ∧ InRange g ix ∧
    (sample exact g f .nemo false 5 1 1 2 0 ix).isSome = true ∧ sampleUV exact g f f true .nemo 5 1 1 2 0 ix = none :=
  ⟨slice, sliceField, boxData, new, slice_complete, sliceField_on, ⟨by decide, by decide, by decide, by decide⟩, by decide +kernel, by
    rw [← Option.isNone_iff_eq_none]; decide +kernel⟩

/-- Three-dimensional C-grid velocities with a single level: the program ends where an error is meant to be returned. -/
theorem C83_exit_fails (o : Ops C) (g : Grid C) (hz : g.zdim = 1) (u v w : Fld α) (shared : Bool) (ixg : Indexing) (depth : Nat) (x y z t : C) (ix : Idx) :
    ∀ r p, locate o g u ixg false depth x y z t ix = some (r, .ok p) → sampleUVW o g u v w shared ixg depth x y z t ix = none := by
  intro r p h
  rw [sampleUVW, h, Option.bind_some]
  exact if_pos hz

end Parcels.Memory
