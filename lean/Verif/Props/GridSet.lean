import Verif.Model.GridSet
import Mathlib.Tactic.Ring
import Mathlib.Tactic.Linarith
import Mathlib.Tactic.Common

/-!
C42: a field shares a grid only with a field on the same grid; C58: the default time range of a FieldSet.
-/

namespace Parcels.GridSet

/-- Two arrays have the same shape (hence as many entries), and entries that differ by at most 1e-8 + 1e-5 |b|. -/
def CloseTo (a b : Coord) : Prop :=
  a.shape = b.shape ∧ ∀ i : Nat, ∀ x y, a.vals[i]? = some x → b.vals[i]? = some y → |x - y| ≤ 1 / 100000000 + 1 / 100000 * |y|

/-- Grid `h` can stand for grid `g`: same time origin, and coordinates equal up to tolerance. -/
def StandsFor (h g : Grid) : Prop :=
  h.origin = g.origin ∧ CloseTo h.lon g.lon ∧ CloseTo h.lat g.lat ∧ CloseTo h.depth g.depth ∧ CloseTo h.time g.time

theorem allclose_spec (a b : List ℚ) (h : allclose a b = true) (i : Nat) (x y : ℚ) (hx : a[i]? = some x)
    (hy : b[i]? = some y) : |x - y| ≤ 1 / 100000000 + 1 / 100000 * |y| := by
  unfold allclose at h
  rw [List.all_eq_true] at h
  have hm : (x, y) ∈ a.zip b := by
    rw [List.mem_iff_getElem?]
    exact ⟨i, by rw [List.getElem?_zip_eq_some]; exact ⟨hx, hy⟩⟩
  have := h _ hm
  simpa only [decide_eq_true_iff] using this

theorem sameCoord_spec {a b : Coord} (h : sameCoord a b = true) : CloseTo a b := by
  unfold sameCoord at h
  rw [Bool.and_eq_true, decide_eq_true_iff] at h
  exact ⟨h.1, fun i x y hx hy => allclose_spec _ _ h.2 i x y hx hy⟩

theorem allclose_refl (a : List ℚ) : allclose a a = true := by
  unfold allclose
  rw [List.all_eq_true]
  rintro ⟨x, y⟩ hm
  have : x = y := by
    rw [List.mem_iff_getElem?] at hm
    obtain ⟨i, hi⟩ := hm
    rw [List.getElem?_zip_eq_some] at hi
    exact Option.some.inj (hi.1.symm.trans hi.2)
  subst this
  apply decide_eq_true
  rw [sub_self, abs_zero]
  have := abs_nonneg x
  positivity

theorem sameCoord_refl (a : Coord) : sameCoord a a = true := by
  unfold sameCoord; rw [allclose_refl]; simp

theorem closeTo_refl (a : Coord) : CloseTo a a := sameCoord_spec (sameCoord_refl a)

theorem findGrid_spec (grid : Grid) (fc : Chunk) : ∀ (gs : List Grid) (i j : Nat),
    findGrid grid fc gs i = some (some j) → ∃ k h, j = i + k ∧ gs[k]? = some h ∧ fc ≠ .auto ∧ (h.ident = grid.ident ∨ StandsFor h grid)
  | [], i, j, h => by simp [findGrid] at h
  | g :: rest, i, j, h => by
    unfold findGrid at h
    by_cases h1 : fc = .auto
    · rw [if_pos h1] at h; simp at h
    rw [if_neg h1] at h
    by_cases h2 : g.ident = grid.ident
    · rw [if_pos h2] at h
      have : i = j := by simpa using h
      exact ⟨0, g, by omega, rfl, h1, Or.inl h2⟩
    rw [if_neg h2] at h
    have step : findGrid grid fc rest (i + 1) = some (some j) →
        ∃ k h, j = i + k ∧ (g :: rest)[k]? = some h ∧ fc ≠ .auto ∧ (h.ident = grid.ident ∨ StandsFor h grid) := by
      intro h'
      obtain ⟨k, x, hk, hx, hrest⟩ := findGrid_spec grid fc rest (i + 1) j h'
      exact ⟨k + 1, x, by omega, by simpa using hx, hrest⟩
    by_cases h3 : grid.origin ≠ g.origin
    · rw [if_pos h3] at h; exact step h
    rw [if_neg h3] at h
    cases hc : sameChunks g.chunk grid.chunk with
    | none => rw [hc] at h; simp at h
    | some c =>
      rw [hc] at h
      simp only at h
      split at h
      · rename_i h4
        have : i = j := by simpa using h
        simp only [Bool.and_eq_true] at h4
        obtain ⟨⟨⟨⟨h5, h6⟩, h7⟩, h8⟩, _⟩ := h4
        exact ⟨0, g, by omega, rfl, h1, Or.inr ⟨(not_not.mp h3).symm, sameCoord_spec h5, sameCoord_spec h6, sameCoord_spec h7, sameCoord_spec h8⟩⟩
      · exact step h

/-- C42 (partial): when a field is added, the grid it then uses has its own time origin, and its own coordinates up to
the tolerance of `np.allclose`; the grids of the fields added before stay where they are. Missing: equality of the
coordinates and of the mesh, for which the claim is false, see `C42_time_false` and `C42_mesh_false`. -/
theorem C42_stands_partial (gs gs' : List Grid) (grid : Grid) (fc : Chunk) (i : Nat)
    (hid : ∀ h ∈ gs, h.ident = grid.ident → h = grid) (h : addGrid gs grid fc = some (gs', i)) :
    (∃ g, gs'[i]? = some g ∧ StandsFor g grid) ∧ gs <+: gs' := by
  have hrefl : StandsFor grid grid := ⟨rfl, closeTo_refl _, closeTo_refl _, closeTo_refl _, closeTo_refl _⟩
  unfold addGrid at h
  cases hf : findGrid grid fc gs 0 with
  | none => rw [hf] at h; simp at h
  | some o =>
    rw [hf] at h
    cases o with
    | none =>
      simp only [Option.some.injEq, Prod.mk.injEq] at h
      obtain ⟨rfl, rfl⟩ := h
      exact ⟨⟨grid, by simp, hrefl⟩, List.prefix_append _ _⟩
    | some j =>
      simp only [Option.some.injEq, Prod.mk.injEq] at h
      obtain ⟨rfl, rfl⟩ := h
      obtain ⟨k, x, hk, hx, _, hs⟩ := findGrid_spec grid fc gs 0 j hf
      have hjk : j = k := by omega
      subst hjk
      refine ⟨⟨x, hx, ?_⟩, List.prefix_refl _⟩
      rcases hs with hs | hs
      · rw [hid x (List.mem_of_getElem? hx) hs]; exact hrefl
      · exact hs

/-- Two grids for the examples. -/
def exGrid (ident : Nat) (lon time : List ℚ) (spherical : Bool) : Grid :=
  { ident := ident
    lon := ⟨[lon.length], lon⟩
    lat := ⟨[2], [0, 1]⟩
    depth := ⟨[1], [0]⟩
    time := ⟨[time.length], time⟩
    origin := 0
    spherical := spherical
    chunk := .no }

/-- The hypotheses of `C42_stands_partial` hold for three fields, the third on the first one's grid. -/
example : addGrid [exGrid 0 [0, 1] [0, 1] true, exGrid 1 [0, 2] [0, 1] true] (exGrid 2 [0, 1] [0, 1] true) .no =
    some ([exGrid 0 [0, 1] [0, 1] true, exGrid 1 [0, 2] [0, 1] true], 0) := by decide +kernel

/-- Coordinates are told apart: they are equal, or differ by more than the tolerance in shape or in an entry. -/
def ToldApart (a b : Coord) : Prop := CloseTo a b → a = b

/-- C42 (partial): if coordinates that are different differ by more than the tolerance, the grid a field uses has
exactly its coordinates. -/
theorem C42_same_coordinates_partial (gs gs' : List Grid) (grid : Grid) (fc : Chunk) (i : Nat)
    (hid : ∀ h ∈ gs, h.ident = grid.ident → h = grid)
    (hta : ∀ h ∈ gs, ToldApart h.lon grid.lon ∧ ToldApart h.lat grid.lat ∧ ToldApart h.depth grid.depth ∧ ToldApart h.time grid.time)
    (h : addGrid gs grid fc = some (gs', i)) :
    ∃ g, gs'[i]? = some g ∧ g.lon = grid.lon ∧ g.lat = grid.lat ∧ g.depth = grid.depth ∧ g.time = grid.time ∧
      g.origin = grid.origin := by
  unfold addGrid at h
  cases hf : findGrid grid fc gs 0 with
  | none => rw [hf] at h; simp at h
  | some o =>
    rw [hf] at h
    cases o with
    | none =>
      simp only [Option.some.injEq, Prod.mk.injEq] at h
      obtain ⟨rfl, rfl⟩ := h
      exact ⟨grid, by simp⟩
    | some j =>
      simp only [Option.some.injEq, Prod.mk.injEq] at h
      obtain ⟨rfl, rfl⟩ := h
      obtain ⟨k, x, hk, hx, _, hs⟩ := findGrid_spec grid fc gs 0 j hf
      have hjk : j = k := by omega
      subst hjk
      have hxm := List.mem_of_getElem? hx
      rcases hs with hs | ⟨h1, h2, h3, h4, h5⟩
      · exact ⟨x, hx, by rw [hid x hxm hs]; exact ⟨rfl, rfl, rfl, rfl, rfl⟩⟩
      · obtain ⟨t1, t2, t3, t4⟩ := hta x hxm
        exact ⟨x, hx, t1 h2, t2 h3, t3 h4, t4 h5, h1⟩

/-- Whole degrees below 99999 in size are told apart. -/
example (a b : List ℤ) (hb : ∀ v ∈ b, |v| < 99999) (s : List Nat) (hl : a.length = b.length) :
    ToldApart ⟨s, a.map (fun v : ℤ => (v : ℚ))⟩ ⟨s, b.map (fun v : ℤ => (v : ℚ))⟩ := by
  rintro ⟨_, h⟩
  congr 2
  apply List.ext_getElem hl
  intro i h1 h2
  have hi := h i (a[i] : ℚ) (b[i] : ℚ) (by simp [h1]) (by simp [h2])
  have hbi : |(b[i] : ℚ)| < 99999 := by exact_mod_cast hb b[i] (List.getElem_mem h2)
  have hlt : |((a[i] - b[i] : ℤ) : ℚ)| < 1 := by
    push_cast
    have : 1 / 100000 * |(b[i] : ℚ)| < 99999 / 100000 := by linarith
    linarith
  have : |a[i] - b[i]| < 1 := by exact_mod_cast hlt
  have := Int.abs_lt_one_iff.mp this
  omega

/-- C42: a field whose grid is in the set already, with all coordinates, the origin and the chunk sizes equal, does not
add another one, unless its chunk size is 'auto'. -/
theorem C42_reuse (gs gs' : List Grid) (grid g : Grid) (fc : Chunk) (i : Nat) (hg : g ∈ gs) (hfc : fc ≠ .auto)
    (heq : g.lon = grid.lon ∧ g.lat = grid.lat ∧ g.depth = grid.depth ∧ g.time = grid.time ∧ g.origin = grid.origin ∧ g.chunk = grid.chunk)
    (h : addGrid gs grid fc = some (gs', i)) : gs' = gs := by
  have key : ∀ (l : List Grid) (k : Nat), g ∈ l → findGrid grid fc l k ≠ some none := by
    intro l
    induction l with
    | nil => intro k hm; cases hm
    | cons x rest ih =>
      intro k hm
      unfold findGrid
      rw [if_neg hfc]
      by_cases h2 : x.ident = grid.ident
      · rw [if_pos h2]; simp
      rw [if_neg h2]
      rcases List.mem_cons.mp hm with rfl | hm
      · obtain ⟨e1, e2, e3, e4, e5, e6⟩ := heq
        rw [if_neg (by simp [e5]), e1, e2, e3, e4, e6]
        simp [sameChunks, sameCoord_refl]
      · by_cases h3 : grid.origin ≠ x.origin
        · rw [if_pos h3]; exact ih _ hm
        rw [if_neg h3]
        cases sameChunks x.chunk grid.chunk with
        | none => simp
        | some c =>
          simp only
          split
          · simp
          · exact ih _ hm
  unfold addGrid at h
  cases hf : findGrid grid fc gs 0 with
  | none => rw [hf] at h; simp at h
  | some o =>
    cases o with
    | none => exact absurd hf (key gs 0 hg)
    | some j =>
      rw [hf] at h
      simp only [Option.some.injEq, Prod.mk.injEq] at h
      exact h.1.symm

/-- C42: with the chunk size 'auto' a field always gets its own grid. -/
theorem C42_auto (gs : List Grid) (grid : Grid) : addGrid gs grid .auto = some (gs ++ [grid], gs.length) := by
  unfold addGrid
  cases gs <;> simp [findGrid]

/-- C42: all fields are added one after the other. -/
def addAll : List (Grid × Chunk) → List Grid → Option (List Grid × List Nat)
  | [], gs => some (gs, [])
  | (g, c) :: rest, gs =>
    match addGrid gs g c with
    | none => none
    | some (gs', i) => (addAll rest gs').map fun r => (r.1, i :: r.2)

theorem addGrid_mem {gs gs' : List Grid} {grid : Grid} {fc : Chunk} {i : Nat} (h : addGrid gs grid fc = some (gs', i)) :
    ∀ x ∈ gs', x ∈ gs ∨ x = grid := by
  unfold addGrid at h
  cases hf : findGrid grid fc gs 0 with
  | none => rw [hf] at h; simp at h
  | some o =>
    rw [hf] at h
    cases o with
    | none =>
      simp only [Option.some.injEq, Prod.mk.injEq] at h
      obtain ⟨rfl, _⟩ := h
      intro x hx
      simpa using hx
    | some j =>
      simp only [Option.some.injEq, Prod.mk.injEq] at h
      obtain ⟨rfl, _⟩ := h
      exact fun x hx => Or.inl hx

/-- C42 over histories (partial): after any number of fields has been added, every field's index still points at a grid
that stands for the one it was created with. -/
theorem C42_history_partial : ∀ (fields : List (Grid × Chunk)) (gs gs' : List Grid) (is : List Nat),
    (∀ a ∈ gs ++ fields.map (·.1), ∀ b ∈ gs ++ fields.map (·.1), a.ident = b.ident → a = b) →
    addAll fields gs = some (gs', is) →
    gs <+: gs' ∧ is.length = fields.length ∧
      ∀ (k : Nat) (f : Grid × Chunk) (i : Nat), fields[k]? = some f → is[k]? = some i → ∃ g, gs'[i]? = some g ∧ StandsFor g f.1
  | [], gs, gs', is, _, h => by
    simp only [addAll, Option.some.injEq, Prod.mk.injEq] at h
    obtain ⟨rfl, rfl⟩ := h
    exact ⟨List.prefix_refl _, rfl, fun k f i hk => by simp at hk⟩
  | (g, c) :: rest, gs, gs', is, hid, h => by
    unfold addAll at h
    cases ha : addGrid gs g c with
    | none => rw [ha] at h; simp at h
    | some p =>
      obtain ⟨gs1, i0⟩ := p
      rw [ha] at h
      simp only [Option.map_eq_some_iff] at h
      obtain ⟨⟨gs2, is2⟩, hr, he⟩ := h
      simp only [Prod.mk.injEq] at he
      obtain ⟨rfl, rfl⟩ := he
      have hmem := addGrid_mem ha
      obtain ⟨⟨x, hx, hs⟩, hp⟩ := C42_stands_partial gs gs1 g c i0
        (fun y hy => hid y (by simp [hy]) g (by simp)) ha
      have hsub : ∀ a ∈ gs1 ++ rest.map (·.1), a ∈ gs ++ ((g, c) :: rest).map (·.1) := by
        intro a ha'
        rcases List.mem_append.mp ha' with h1 | h1
        · rcases hmem a h1 with h2 | h2
          · exact List.mem_append_left _ h2
          · subst h2; simp
        · simp only [List.map_cons, List.mem_append, List.mem_cons]; exact Or.inr (Or.inr h1)
      obtain ⟨q1, q2, q3⟩ := C42_history_partial rest gs1 gs2 is2
        (fun a ha' b hb' => hid a (hsub a ha') b (hsub b hb')) hr
      refine ⟨hp.trans q1, by simp [q2], ?_⟩
      intro k f i hk hi
      cases k with
      | zero =>
        have e1 : (g, c) = f := by simpa using hk
        have e2 : i0 = i := by simpa using hi
        subst e1 e2
        obtain ⟨t, rfl⟩ := q1
        refine ⟨x, ?_, hs⟩
        rw [List.getElem?_append_left (List.getElem?_eq_some_iff.mp hx).1]
        exact hx
      | succ k => exact q3 k f i (by simpa using hk) (by simpa using hi)

example : addAll [(exGrid 0 [0, 1] [0, 1] true, .no), (exGrid 1 [0, 2] [0, 1] true, .no), (exGrid 2 [0, 1] [0, 1] true, .no),
    (exGrid 3 [0, 1] [0, 1] true, .auto)] [] =
    some ([exGrid 0 [0, 1] [0, 1] true, exGrid 1 [0, 2] [0, 1] true, exGrid 3 [0, 1] [0, 1] true], [0, 1, 0, 2]) := by
  decide +kernel

/-- The full claim of C42 is false of the code for times: with times in seconds, a field given at 0 and 100000900 shares
the grid of a field given at 0 and 100000000; sampling it at its own last time then fails. -/
theorem C42_time_false :
    let h := exGrid 0 [0, 1] [0, 100000000] true
    let g := exGrid 1 [0, 1] [0, 100000900] true
    addGrid [h] g .no = some ([h], 0) ∧
      TimeInterp.evalTime (.full g.time.vals false false) (fun i => .ok i) 100000900 = .ok 1 ∧
      TimeInterp.evalTime (.full h.time.vals false false) (fun i => .ok i) 100000900 = .error .time := by
  decide +kernel

/-- Nor is it true of the mesh: a field with a flat mesh shares the grid of a field with a spherical mesh. -/
theorem C42_mesh_false :
    let h := exGrid 0 [0, 1] [0, 1] true
    let g := exGrid 1 [0, 1] [0, 1] false
    addGrid [h] g .no = some ([h], 0) ∧ h.spherical ≠ g.spherical := by decide +kernel

/-! ### The default time range -/

/-- The part of the loop's result that concerns the lower end. -/
theorem dimLoop_spec : ∀ (axes : List (List ℚ)) (lo hi : Option ℚ) (t : ℚ),
    ((∀ l, (dimLoop axes (lo, hi)).1 = some l → l ≤ t) ↔
      (∀ l, lo = some l → l ≤ t) ∧ ∀ ax ∈ axes, ax.length ≠ 1 → ax.headD 0 ≤ t) ∧
    ((∀ h, (dimLoop axes (lo, hi)).2 = some h → t ≤ h) ↔
      (∀ h, hi = some h → t ≤ h) ∧ ∀ ax ∈ axes, ax.length ≠ 1 → t ≤ ax.getLastD 0)
  | [], lo, hi, t => by simp [dimLoop]
  | ax :: rest, lo, hi, t => by
    unfold dimLoop
    by_cases h1 : ax.length = 1
    · rw [if_pos h1]
      obtain ⟨a, b⟩ := dimLoop_spec rest lo hi t
      refine ⟨a.trans ?_, b.trans ?_⟩
      · simp only [List.forall_mem_cons, h1, ne_eq, not_true_eq_false, false_implies, true_and]
      · simp only [List.forall_mem_cons, h1, ne_eq, not_true_eq_false, false_implies, true_and]
    · rw [if_neg h1]
      obtain ⟨a, b⟩ := dimLoop_spec rest (some (match lo with | none => ax.headD 0 | some l => max l (ax.headD 0)))
        (some (match hi with | none => ax.getLastD 0 | some h => min h (ax.getLastD 0))) t
      refine ⟨a.trans ?_, b.trans ?_⟩
      · simp only [List.forall_mem_cons, h1, ne_eq, not_false_eq_true, true_implies, Option.some.injEq, forall_eq']
        cases lo with
        | none => simp
        | some l => simp [max_le_iff, and_assoc]
      · simp only [List.forall_mem_cons, h1, ne_eq, not_false_eq_true, true_implies, Option.some.injEq, forall_eq']
        cases hi with
        | none => simp
        | some l => simp [le_min_iff, and_assoc]

theorem dimLoop_some : ∀ (axes : List (List ℚ)) (lo hi : Option ℚ),
    ((lo.isSome ∧ hi.isSome) ∨ ∃ ax ∈ axes, ax.length ≠ 1) →
      (dimLoop axes (lo, hi)).1.isSome ∧ (dimLoop axes (lo, hi)).2.isSome
  | [], lo, hi, h => by simpa [dimLoop] using h
  | ax :: rest, lo, hi, h => by
    unfold dimLoop
    by_cases h1 : ax.length = 1
    · rw [if_pos h1]
      exact dimLoop_some rest lo hi (by simpa [h1] using h)
    · rw [if_neg h1]
      exact dimLoop_some rest _ _ (Or.inl ⟨rfl, rfl⟩)

/-- C58: if at least one axis has more than one entry, the derived range is exactly the intersection of these axes: a
time is in the range if and only if it is between the first and the last time of each of them. -/
theorem C58_intersection (axes : List (List ℚ)) (hsome : ∃ ax ∈ axes, ax.length ≠ 1) (t : ℚ) :
    ((dimrange axes).1 ≤ t ∧ t ≤ (dimrange axes).2) ↔
      ∀ ax ∈ axes, ax.length ≠ 1 → ax.headD 0 ≤ t ∧ t ≤ ax.getLastD 0 := by
  obtain ⟨s1, s2⟩ := dimLoop_some axes none none (Or.inr hsome)
  obtain ⟨a, b⟩ := dimLoop_spec axes none none t
  obtain ⟨l, hl⟩ := Option.isSome_iff_exists.mp s1
  obtain ⟨h, hh⟩ := Option.isSome_iff_exists.mp s2
  rw [hl] at a; rw [hh] at b
  simp only [Option.some.injEq, forall_eq', reduceCtorEq, false_implies, implies_true, true_and] at a b
  show (dimLoop axes (none, none)).1.getD 0 ≤ t ∧ t ≤ (dimLoop axes (none, none)).2.getD 0 ↔ _
  rw [hl, hh]
  show l ≤ t ∧ t ≤ h ↔ _
  rw [a, b]
  constructor
  · rintro ⟨x, y⟩ ax hax hne; exact ⟨x ax hax hne, y ax hax hne⟩
  · intro x; exact ⟨fun ax hax hne => (x ax hax hne).1, fun ax hax hne => (x ax hax hne).2⟩

example : dimrange [[0, 10], [5], [3, 8, 20]] = (3, 10) := by decide +kernel

/-- C58: if every axis has a single entry, the derived range is [0, 0]. -/
theorem C58_single (axes : List (List ℚ)) (h : ∀ ax ∈ axes, ax.length = 1) : dimrange axes = (0, 0) := by
  have : ∀ axes : List (List ℚ), (∀ ax ∈ axes, ax.length = 1) → dimLoop axes (none, none) = (none, none) := by
    intro axes
    induction axes with
    | nil => intro _; rfl
    | cons ax rest ih =>
      intro h
      unfold dimLoop
      rw [if_pos (h ax List.mem_cons_self)]
      exact ih fun x hx => h x (List.mem_cons_of_mem _ hx)
  unfold dimrange
  rw [this axes h]; rfl

example : dimrange [[3], [4]] = (0, 0) := by decide +kernel

/-- The grids as they are when the field set is completed: `time_full` is all times; for direct loading it equals
`time`. -/
def GTime.Fresh (g : GTime) : Prop := g.time ≠ [] ∧ g.timeFull ≠ [] ∧ (g.deferred = false → g.timeFull = g.time)

theorem headD_map_add (l : List ℚ) (c : ℚ) (h : l ≠ []) : (l.map (· + c)).headD 0 = l.headD 0 + c := by
  cases l with
  | nil => exact absurd rfl h
  | cons a l => rfl

theorem getLastD_map_add (l : List ℚ) (c : ℚ) (h : l ≠ []) : (l.map (· + c)).getLastD 0 = l.getLastD 0 + c := by
  rw [List.getLastD_eq_getLast?, List.getLastD_eq_getLast?, List.getLast?_map]
  cases hl : l.getLast? with
  | none => exact absurd (List.getLast?_eq_none_iff.mp hl) h
  | some a => rfl

/-- C58 (partial), for a FieldSet made of grids with any time origins: every time in the default range is, as a date,
within the dates of each grid that has several times, provided each grid is loaded lazily or has the origin of the
FieldSet. Missing: grids loaded directly whose origin is not the one of the FieldSet, for which the claim is false, see
`C58_full_false`. -/
theorem C58_dates_partial (o : ℚ) (gs : List GTime) (hf : ∀ g ∈ gs, g.Fresh)
    (hd : ∀ g ∈ gs, g.deferred = true ∨ g.origin = o)
    (hlen : ∀ g ∈ gs, g.time.length = 1 → g.timeFull.length = 1)
    (hsome : ∃ g ∈ gs, g.timeFull.length ≠ 1) (t : ℚ)
    (ht : (dimrange (gs.map fun g => (complete o g).timeFull)).1 ≤ t ∧
      t ≤ (dimrange (gs.map fun g => (complete o g).timeFull)).2) :
    ∀ g ∈ gs, g.timeFull.length ≠ 1 →
      g.origin + g.timeFull.headD 0 ≤ o + t ∧ o + t ≤ g.origin + g.timeFull.getLastD 0 := by
  have hc : ∀ g ∈ gs, g.timeFull.length ≠ 1 → (complete o g).timeFull = g.timeFull.map (· + (g.origin - o)) := by
    intro g hg hne
    unfold complete
    rw [if_neg (fun e => hne (hlen g hg e))]
    show (if g.deferred = true then _ else _) = _
    rcases hd g hg with h | h
    · rw [if_pos h]
    · split
      · rfl
      · rw [h, sub_self]; simp
  rw [C58_intersection _ (by
    obtain ⟨g, hg, hne⟩ := hsome
    exact ⟨_, List.mem_map_of_mem hg, by rw [hc g hg hne, List.length_map]; exact hne⟩)] at ht
  intro g hg hne
  have := ht _ (List.mem_map_of_mem hg) (by rw [hc g hg hne, List.length_map]; exact hne)
  rw [hc g hg hne, headD_map_add _ _ (hf g hg).2.1, getLastD_map_add _ _ (hf g hg).2.1] at this
  constructor <;> linarith [this.1, this.2]

/-- The hypotheses of `C58_dates_partial` hold for a grid loaded directly and a lazily loaded grid that starts 5 seconds
later. -/
example : dimrange ([⟨[0, 10], [0, 10], 100, false⟩, ⟨[0, 10], [0, 10], 105, true⟩].map
    fun g : GTime => (complete 100 g).timeFull) = (5, 10) := by decide +kernel

/-- The full claim of C58 is false of the code: two grids loaded directly, the second one starting 5 seconds later. The
default start is 0, and sampling the second field there fails. -/
theorem C58_full_false :
    let a : GTime := ⟨[0, 10], [0, 10], 100, false⟩
    let b : GTime := ⟨[0, 10], [0, 10], 105, false⟩
    dimrange ([a, b].map fun g => (complete 100 g).timeFull) = (0, 10) ∧
      TimeInterp.evalTime ((complete 100 b).axis 2 false false) (fun i => .ok i) 0 = .error .time := by decide +kernel

end Parcels.GridSet
