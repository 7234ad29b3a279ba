import Verif.Proofs.Curvilinear
import Mathlib.Analysis.Real.Sqrt
import Mathlib.Data.Rat.Sqrt

/-!
C27, C28, C68: the search on curvilinear grids.
-/

namespace Parcels.Curvilinear

variable {K : Type} [Field K] [LinearOrder K] [IsStrictOrderedRing K]

/-! ### C28: the cells that are used -/

omit [IsStrictOrderedRing K] in
/-- C28, one step: from a valid cell, with a move by at most one cell in each direction, the next cell is valid
exactly unless the flag for spherical meshes is set, the step crosses the last row of cells, and the column (after
the zonal wrap) is one of the first two: the fold `xdim - xi` then leaves the grid. -/
theorem C28_step_iff (g : CGrid K) (sphere : Bool) (xi yi dx dy : ℤ) (h : ValidCell g xi yi)
    (hdx : dx = -1 ∨ dx = 0 ∨ dx = 1) (hdy : dy = -1 ∨ dy = 0 ∨ dy = 1) :
    let m := reconnect g.xdim g.ydim sphere (xi + dx) (yi + dy)
    let column := if xi + dx < 0 then (g.xdim : ℤ) - 2 else if xi + dx > g.xdim - 2 then 0 else xi + dx
    ValidCell g m.1 m.2 ↔ ¬ (sphere = true ∧ yi + dy > g.ydim - 2 ∧ (column = 0 ∨ column = 1)) :=
  step_iff g sphere xi yi dx dy h hdx hdy

/-- Both cases occur: on a sphere with 5 columns and 3 rows, crossing the last row from column 3 is fine, from
column 1 it is not. -/
example :
    let g : CGrid ℚ := { xdim := 5, ydim := 3, lon := fun _ i => i, lat := fun j _ => j, spherical := true,
                         zonalPeriodic := false }
    reconnect g.xdim g.ydim true 3 2 = (2, 1) ∧ reconnect g.xdim g.ydim true 1 2 = (4, 1) := by decide

/-- C28: the cell that the search returns is a cell of the grid: any grid, mesh, mode, position, starting cell
(even one outside the grid) and number of iterations. -/
theorem C28_result_valid (sqrt : K → K) (jit : Bool) (n : Nat) (g : CGrid K) (x y : K) (xi yi : ℤ) (r : Found K)
    (h : search sqrt jit n g x y xi yi = .ok r) : ValidCell g r.xi r.yi := by
  obtain ⟨s, c, old, _, hc, _⟩ := search_ok h
  exact cellAt_valid hc

omit [IsStrictOrderedRing K] in
/-- C28 in JIT mode on flat meshes: from a valid cell, the whole walk uses only valid cells. -/
theorem C28_flat_jit_partial (sqrt : K → K) (n : Nat) (g : CGrid K) (hflat : g.spherical = false) (x y : K) (xi yi : ℤ)
    (hv : ValidCell g xi yi) : search sqrt true n g x y xi yi ≠ .error .index := by
  intro h
  unfold search at h
  split at h
  · cases h
  · split at h
    · next e hw =>
      injection h with h
      subst h
      exact walk_index (by simp [sphereFlag, hflat]) n _ (by exact hv) hw
    · split at h <;> cases h

omit [IsStrictOrderedRing K] in
/-- The first guess of a search without particle is a valid cell. -/
theorem C28_first_guess (g : CGrid K) (hx : 2 ≤ g.xdim) (hy : 2 ≤ g.ydim) :
    ValidCell g (firstGuess g.xdim) (firstGuess g.ydim) := by
  unfold ValidCell firstGuess
  omega

/-- A grid of 3 columns and 2 rows: two unit squares except that the last column is two units higher. -/
def steep (spherical : Bool) : CGrid ℚ where
  xdim := 3
  ydim := 2
  lon := fun _ i => i
  lat := fun j i => if i = 2 then j + 2 else j
  spherical := spherical
  zonalPeriodic := false

/-- C28 fails: in Scipy mode, even on a flat mesh, and in JIT mode on a spherical mesh, the search for a position inside
the grid uses a cell that does not exist (Python raises IndexError, C reads outside the row). The position (7/4, 9/4)
has relative coordinates (3/4, 3/4) in cell (0, 1); the search starts in the valid cell (0, 0). -/
theorem C28_scipy_fails : search Rat.sqrt false 1000 (steep false) (7/4) (9/4) 0 0 = .error .index ∧
    search Rat.sqrt false 1000 (steep true) (7/4) (9/4) 0 0 = .error .index ∧
    search Rat.sqrt true 1000 (steep true) (7/4) (9/4) 0 0 = .error .index ∧
    At (corners (steep false) 1 0) (7/4) (9/4) (3/4) (3/4) := by
  refine ⟨?_, ?_, ?_, ?_⟩
  · decide +kernel
  · decide +kernel
  · decide +kernel
  · unfold At; decide +kernel

/-- In JIT mode on the flat mesh the same position is found. -/
example : search Rat.sqrt true 1000 (steep false) (7/4) (9/4) 0 0 =
    .ok { xsi := 3/4, eta := 3/4, xi := 1, yi := 0 } := by decide +kernel

omit [IsStrictOrderedRing K] in
/-- A search that starts at a node of the last row or column, where there is no cell, uses a cell that does not exist unless it ends before its first round: any grid, mode and position.
`populate_indices` lets it start there for each particle whose nearest node is in the last row or column. -/
theorem C28_populate_fails (sqrt : K → K) (jit : Bool) (n : Nat) (g : CGrid K) (x y : K) (xi yi : ℤ) (h : xi + 1 = g.xdim ∨ yi + 1 = g.ydim)
    (ht : (-1 : K) < -tol) : search sqrt jit (n + 1) g x y xi yi = .error (if rejected g x y then .outOfBounds else .index) := by
  unfold search
  split_ifs with hr
  · rfl
  · have hc : cellAt g xi yi = none := by
      unfold cellAt
      rw [if_neg (by omega)]
    have hs : searching ({ xi := xi, yi := yi, xsi := .fin (-1), eta := .fin (-1) } : St K) = true := by
      simp [searching, Ext.lt, ht]
    rw [walk, if_pos hs, step, hc]

/-- The position (1/4, 3/4) is inside the first cell and nearest to a node of the last row. -/
example : search Rat.sqrt true 1000 (steep false) (1/4) (3/4) 0 0 = .ok { xsi := 1/4, eta := 3/4, xi := 0, yi := 0 } ∧
    search Rat.sqrt true 1000 (steep false) (1/4) (3/4) 0 1 = .error .index ∧ search Rat.sqrt false 1000 (steep false) (1/4) (3/4) 0 1 = .error .index := by
  refine ⟨by decide +kernel, ?_, ?_⟩
  · rw [C28_populate_fails Rat.sqrt true 999 (steep false) (1/4) (3/4) 0 1 (.inr rfl) (by decide +kernel), if_neg (by decide +kernel)]
  · rw [C28_populate_fails Rat.sqrt false 999 (steep false) (1/4) (3/4) 0 1 (.inr rfl) (by decide +kernel), if_neg (by decide +kernel)]

/-! ### C27: the relative coordinates -/

/-- The square roots of the rational and of the real numbers meet the hypothesis about `sqrt`. -/
example : IsSqrt Rat.sqrt := Rat.sqrt_eq
example : IsSqrt Real.sqrt := Real.sqrt_mul_self_eq_abs

/-- C27: if the search accepts a cell, there are relative coordinates of the position in this cell, in [0, 1] up to the
tolerance 1e-10, and the returned ones are those, limited to [0, 1]. Any grid, mesh, mode, starting cell and number
of iterations.
What is missing (each is needed, see the `_fails` theorems): the sides of the cell must be exactly parallel or clearly
not (`Clear`), the position must have relative coordinates with respect to this cell at all (with a regular Jacobian),
and no line eta = const of the cell may be vertical. Rounding is not modelled. -/
theorem C27_position_partial (sqrt : K → K) (hs : IsSqrt sqrt) (jit : Bool) (n : Nat) (g : CGrid K) (x y : K) (xi yi : ℤ)
    (r : Found K) (h : search sqrt jit n g x y xi yi = .ok r) :
    let c := shift g.spherical x (corners g r.xi r.yi)
    Clear c → (∃ xsi eta, At c x y xsi eta ∧ jacobian c xsi eta ≠ 0) →
    (∀ eta, -tol ≤ eta → eta ≤ 1 + tol → tiny ≤ |chord c eta|) →
    ∃ xsi eta, At c x y xsi eta ∧ -tol ≤ xsi ∧ xsi ≤ 1 + tol ∧ -tol ≤ eta ∧ eta ≤ 1 + tol ∧
      r.xsi = min 1 (max 0 xsi) ∧ r.eta = min 1 (max 0 eta) := by
  intro c hclear ⟨a, b, hat, hj⟩ hch
  obtain ⟨s, c', old, hse, hc', he, hx, h1, h2⟩ := search_ok h
  rw [cellAt_corners (cellAt_valid hc')] at hc'
  injection hc' with hc'
  subst hc'
  obtain ⟨e, he', hroot, _⟩ := solveEta_root hs jit old hclear hat hj
  rw [he'] at he
  have hr : -tol ≤ e ∧ e ≤ 1 + tol := by
    unfold searching at hse
    rw [he] at hse
    simp only [Ext.lt, Ext.gt, Bool.or_eq_false_iff, decide_eq_false_iff_not, not_lt] at hse
    exact ⟨hse.1.2, hse.2⟩
  have hc := hch e hr.1 hr.2
  rw [he, solveXsi_clear hc] at hx
  have hne : a1 c + a3 c * e ≠ 0 := by
    intro h0
    rw [chord_eq, h0, abs_zero] at hc
    exact absurd hc (not_le.mpr tiny_pos)
  obtain ⟨f1, f2, _, _⟩ := fin_of_search hse he hx
  refine ⟨_, e, at_of_root hroot hne, f1, f2, hr.1, hr.2, ?_, ?_⟩
  · rw [hx, clamp_fin] at h1
    injection h1 with h1; exact h1.symm
  · rw [he, clamp_fin] at h2
    injection h2 with h2; exact h2.symm

/-- C27, inside the cell: returned coordinates strictly between 0 and 1 are exactly relative coordinates of the
position. -/
theorem C27_inside_partial (sqrt : K → K) (hs : IsSqrt sqrt) (jit : Bool) (n : Nat) (g : CGrid K) (x y : K) (xi yi : ℤ)
    (r : Found K) (h : search sqrt jit n g x y xi yi = .ok r) (hx : 0 < r.xsi ∧ r.xsi < 1) (hy : 0 < r.eta ∧ r.eta < 1) :
    let c := shift g.spherical x (corners g r.xi r.yi)
    Clear c → (∃ xsi eta, At c x y xsi eta ∧ jacobian c xsi eta ≠ 0) →
    (∀ eta, -tol ≤ eta → eta ≤ 1 + tol → tiny ≤ |chord c eta|) →
    At c x y r.xsi r.eta := by
  intro c h1 h2 h3
  obtain ⟨a, b, hat, _, _, _, _, ha, hb⟩ := C27_position_partial sqrt hs jit n g x y xi yi r h h1 h2 h3
  have key : ∀ t : K, 0 < min 1 (max 0 t) → min 1 (max 0 t) < 1 → min 1 (max 0 t) = t := by
    intro t k1 k2
    rcases le_or_gt t 0 with h | h
    · rw [max_eq_left h, min_eq_right zero_le_one] at k1
      exact absurd k1 (lt_irrefl _)
    · rw [max_eq_right h.le] at k2 ⊢
      rcases le_or_gt t 1 with k | k
      · exact min_eq_right k
      · rw [min_eq_left k.le] at k2
        exact absurd k2 (lt_irrefl _)
  rw [ha] at hx
  rw [hb] at hy
  rw [ha, hb, key a hx.1 hx.2, key b hy.1 hy.2]
  exact hat

/-- C27, the error made by limiting the coordinates to [0, 1]: the point of the cell at the returned coordinates differs
from the position, in each direction, by less than 3e-10 times the largest extent of an edge. -/
theorem C27_error_partial (sqrt : K → K) (hs : IsSqrt sqrt) (jit : Bool) (n : Nat) (g : CGrid K) (x y : K) (xi yi : ℤ)
    (r : Found K) (h : search sqrt jit n g x y xi yi = .ok r) (D : K) :
    let c := shift g.spherical x (corners g r.xi r.yi)
    Clear c → (∃ xsi eta, At c x y xsi eta ∧ jacobian c xsi eta ≠ 0) →
    (∀ eta, -tol ≤ eta → eta ≤ 1 + tol → tiny ≤ |chord c eta|) →
    (|c.x1 - c.x0| ≤ D ∧ |c.x2 - c.x3| ≤ D ∧ |c.x3 - c.x0| ≤ D ∧ |c.x2 - c.x1| ≤ D) →
    (|c.y1 - c.y0| ≤ D ∧ |c.y2 - c.y3| ≤ D ∧ |c.y3 - c.y0| ≤ D ∧ |c.y2 - c.y1| ≤ D) →
    0 ≤ r.xsi ∧ r.xsi ≤ 1 ∧ 0 ≤ r.eta ∧ r.eta ≤ 1 ∧
    |bilinX c r.xsi r.eta - x| ≤ 3 / 10000000000 * D ∧ |bilinY c r.xsi r.eta - y| ≤ 3 / 10000000000 * D := by
  intro c h1 h2 h3 ⟨d1, d2, d3, d4⟩ ⟨e1, e2, e3, e4⟩
  obtain ⟨a, b, ⟨hx, hy⟩, ha0, ha1, hb0, hb1, ha, hb⟩ := C27_position_partial sqrt hs jit n g x y xi yi r h h1 h2 h3
  obtain ⟨na, na0, na1⟩ := clamp_near tol_pos.le ha0 ha1
  obtain ⟨nb, nb0, nb1⟩ := clamp_near tol_pos.le hb0 hb1
  have hD : 0 ≤ D := le_trans (abs_nonneg _) d1
  have ht : (tol : K) * D * (2 + 2 * tol) ≤ 3 / 10000000000 * D := by
    unfold tol
    have : (1 / 10000000000 : K) * D * (2 + 2 * (1 / 10000000000)) = (20000000002 / 100000000000000000000) * D := by
      ring
    rw [this]
    exact mul_le_mul_of_nonneg_right (by norm_num) hD
  rw [ha, hb]
  refine ⟨na0, na1, nb0, nb1, ?_, ?_⟩
  · rw [← hx]
    exact le_trans (bilin_near tol_pos.le d1 d2 d3 d4 na nb nb0 nb1 ha0 ha1) ht
  · rw [← hy]
    exact le_trans (bilin_near tol_pos.le e1 e2 e3 e4 na nb nb0 nb1 ha0 ha1) ht

/-- A case that meets the hypotheses, with a real square root: a trapezoid. -/
def trapezoid : CGrid ℚ where
  xdim := 2
  ydim := 2
  lon := fun j i => if j = 0 then 4 * i else 1 + 2 * i
  lat := fun j _ => j
  spherical := false
  zonalPeriodic := false

example : search Rat.sqrt false 5 trapezoid (5/4) (1/2) 0 0 = .ok { xsi := 1/4, eta := 1/2, xi := 0, yi := 0 } := by
  decide +kernel

example : Clear (corners trapezoid 0 0) ∧ sideCross (corners trapezoid 0 0) ≠ 0 ∧
    At (corners trapezoid 0 0) (5/4) (1/2) (1/4) (1/2) ∧ jacobian (corners trapezoid 0 0) (1/4) (1/2) ≠ 0 := by
  unfold Clear At
  decide +kernel

example : ∀ eta : ℚ, -tol ≤ eta → eta ≤ 1 + tol → tiny ≤ |chord (corners trapezoid 0 0) eta| := by
  intro e _ h
  have : chord (corners trapezoid 0 0) e = 4 - 2 * e := by
    simp [chord, corners, trapezoid]; ring
  rw [this, abs_of_nonneg (by unfold tol at h; linarith)]
  unfold tol tiny at *
  linarith

/-- C27, the corners that the solver uses: on a flat mesh those of the cell; on a sphere they have the same latitudes and,
up to full turns, the same longitudes, and the longitudes of the other three corners are within half a turn of
that of the first. -/
theorem C27_corners (spherical : Bool) (x : K) (c : Cell K) :
    let s := shift spherical x c
    (spherical = false → s = c) ∧ s.y0 = c.y0 ∧ s.y1 = c.y1 ∧ s.y2 = c.y2 ∧ s.y3 = c.y3 ∧
    SameLon s.x0 c.x0 ∧ SameLon s.x1 c.x1 ∧ SameLon s.x2 c.x2 ∧ SameLon s.x3 c.x3 ∧
    (spherical = true → ∀ p ∈ [(s.x1, c.x1), (s.x2, c.x2), (s.x3, c.x3)], |p.2 - s.x0| ≤ 540 → |p.1 - s.x0| ≤ 180) := by
  intro s
  have z : ∀ p : K, SameLon p p := fun p => ⟨0, by simp⟩
  cases spherical
  · simp only [s, shift, cond_false]
    refine ⟨fun _ => trivial, trivial, trivial, trivial, trivial, z _, z _, z _, z _, fun h => by cases h⟩
  · simp only [s, shift, cond_true]
    refine ⟨fun h => (by cases h), trivial, trivial, trivial, trivial, nearX_same _ _, near_same _ _, near_same _ _, near_same _ _, ?_⟩
    intro _ p hp h
    simp only [List.mem_cons, List.not_mem_nil, or_false] at hp
    rcases hp with rfl | rfl | rfl <;> exact near_close h

/-- A cell across the date line, seen from longitude 181: the corners at -179 are brought to 181. -/
example : (shift true (181 : ℚ) { x0 := 179, x1 := -179, x2 := -179, x3 := 179, y0 := 0, y1 := 0, y2 := 1, y3 := 1 }).x1 = 181 := by
  decide +kernel

/-- C27, the other direction: a position with relative coordinates in [0, 1] in some cell is found with exactly these
coordinates by a search that starts in that cell (as it does for a particle that stays in its cell): if the cell is
clear, the Jacobian is positive there or the sides are parallel, and the line eta = const is not vertical. -/
theorem C27_found_partial (sqrt : K → K) (hs : IsSqrt sqrt) (jit : Bool) (n : Nat) (g : CGrid K) (x y : K) (xi yi : ℤ)
    (xsi eta : K) (hv : ValidCell g xi yi) (hr : rejected g x y = false) :
    let c := shift g.spherical x (corners g xi yi)
    Clear c → At c x y xsi eta → (0 < jacobian c xsi eta ∨ sideCross c = 0 ∧ jacobian c xsi eta ≠ 0) →
    tiny ≤ |chord c eta| → 0 ≤ xsi → xsi ≤ 1 → 0 ≤ eta → eta ≤ 1 →
    search sqrt jit (n + 1) g x y xi yi = .ok { xsi := xsi, eta := eta, xi := xi, yi := yi } := by
  intro c hclear hat hj hch h1 h2 h3 h4
  have hj0 : jacobian c xsi eta ≠ 0 := by
    rcases hj with hj | hj
    · exact hj.ne'
    · exact hj.2
  obtain ⟨e, he, hroot, k1, k2⟩ := solveEta_root hs jit (.fin (-1)) hclear hat hj0
  have heq : e = eta := by
    rcases hj with hj | hj
    · exact k1 hj
    · exact k2 (by rw [← sideCross_eq]; exact hj.1)
  subst heq
  refine search_first n hv hr he ?_ h1 h2 h3 h4
  rw [solveXsi_clear hch]
  congr 1
  have hne : a1 c + a3 c * e ≠ 0 := by
    intro h0
    rw [chord_eq, h0, abs_zero] at hch
    exact absurd hch (not_le.mpr tiny_pos)
  rw [div_eq_iff hne]
  have := hat.1
  rw [bilinX_eq] at this
  linear_combination -this

example : rejected trapezoid (5/4) (1/2) = false ∧ 0 < jacobian (corners trapezoid 0 0) (1/4) (1/2) ∧
    tiny ≤ |chord (corners trapezoid 0 0) (1/2)| := by decide +kernel

/-- C27 on rectangles, also rotated by a quarter turn (the first index along the latitude): where the lines of the grid
are parallel to the axes, the coordinates are exact without any further hypothesis. -/
theorem C27_quarter_turn (sqrt : K → K) (jit : Bool) (n : Nat) (g : CGrid K) (x y : K) (xi yi : ℤ)
    (xsi eta : K) (hv : ValidCell g xi yi) (hr : rejected g x y = false) :
    let c := shift g.spherical x (corners g xi yi)
    c.x1 = c.x0 → c.x2 = c.x3 → c.y3 = c.y0 → c.y2 = c.y1 → c.x3 ≠ c.x0 → c.y1 ≠ c.y0 → At c x y xsi eta →
    0 ≤ xsi → xsi ≤ 1 → 0 ≤ eta → eta ≤ 1 →
    search sqrt jit (n + 1) g x y xi yi = .ok { xsi := xsi, eta := eta, xi := xi, yi := yi } := by
  intro c e1 e2 e3 e4 d1 d2 hat h1 h2 h3 h4
  obtain ⟨hx, hy⟩ := hat
  rw [bilinX_eq] at hx
  rw [bilinY_eq] at hy
  have ha1 : a1 c = 0 := by unfold a1; rw [e1]; ring
  have ha3 : a3 c = 0 := by unfold a3; rw [e1, e2]; ring
  have hb2 : b2 c = 0 := by unfold b2; rw [e3]; ring
  have hb3 : b3 c = 0 := by unfold b3; rw [e3, e4]; ring
  have hn2 : a2 c ≠ 0 := by
    unfold a2; intro h; apply d1; linear_combination h
  have hn1 : b1 c ≠ 0 := by
    unfold b1; intro h; apply d2; linear_combination h
  rw [ha1, ha3] at hx
  rw [hb2, hb3] at hy
  refine search_first n hv hr ?_ ?_ h1 h2 h3 h4
  · unfold solveEta
    simp only
    rw [if_pos (by unfold qa; rw [ha3, hb3]; simp [tiny_pos])]
    unfold Ext.div
    have hb : qb c x y = -(a2 c * b1 c) := by unfold qb; rw [ha3, hb3, ha1]; ring
    have hcc : qc c x y = a2 c * eta * b1 c := by unfold qc; rw [ha1, ← hx]; ring
    rw [if_neg (by rw [hb]; simp [hn1, hn2]), hb, hcc]
    congr 1
    field_simp
  · simp only [solveXsi]
    rw [if_pos (by rw [ha1, ha3]; simp [tiny_pos])]
    have hy1 : c.y1 - c.y0 = b1 c := by unfold b1; ring
    have hy2 : c.y2 - c.y3 = b1 c := by unfold b1; rw [e3, e4]; ring
    unfold Ext.div
    rw [hy1, hy2, if_neg hn1, if_neg hn1]
    simp only [Ext.add, Ext.half]
    congr 1
    rw [e3, ← hy]
    field_simp
    ring

/-- A grid whose first index runs along the latitude. -/
example :
    let g : CGrid ℚ := { xdim := 2, ydim := 2, lon := fun j _ => 2 * j, lat := fun _ i => 3 * i, spherical := false,
                         zonalPeriodic := false }
    search Rat.sqrt true 3 g (1/2) (9/4) 0 0 = .ok { xsi := 3/4, eta := 1/4, xi := 0, yi := 0 } := by decide +kernel

/-- C27 on a flat curvilinear grid made of rectangles (as a rectilinear grid given as curvilinear one): a position within the
grid is found from every starting cell, in at most xdim + ydim iterations, in both modes. The returned coordinates
are those of the position in the returned cell, up to the tolerance 1e-10. -/
theorem C27_rectangles (sqrt : K → K) (jit : Bool) (n : Nat) (g : CGrid K) (X Y : Nat → K)
    (hg : ∀ j i, g.lon j i = X i ∧ g.lat j i = Y j) (hflat : g.spherical = false)
    (hX : ∀ i, i + 1 < g.xdim → X i + tiny ≤ X (i + 1)) (hY : ∀ j, j + 1 < g.ydim → Y j < Y (j + 1))
    (x y : K) (hx : X 0 ≤ x ∧ x ≤ X (g.xdim - 1)) (hy : Y 0 ≤ y ∧ y ≤ Y (g.ydim - 1))
    (xi yi : ℤ) (hv : ValidCell g xi yi) (hn : g.xdim + g.ydim ≤ n) :
    ∃ r xsi eta, search sqrt jit n g x y xi yi = .ok r ∧ ValidCell g r.xi r.yi ∧
      At (corners g r.xi r.yi) x y xsi eta ∧ -tol ≤ xsi ∧ xsi ≤ 1 + tol ∧ -tol ≤ eta ∧ eta ≤ 1 + tol ∧
      r.xsi = min 1 (max 0 xsi) ∧ r.eta = min 1 (max 0 eta) := by
  have t := tiny_pos (K := K)
  have v := hv
  obtain ⟨v1, v2, v3, v4⟩ := v
  obtain ⟨k, k1, k2, k3⟩ := bracket X (g.xdim - 2) x hx.1 (by
    rw [show g.xdim - 2 + 1 = g.xdim - 1 by omega]; exact hx.2)
  obtain ⟨l, l1, l2, l3⟩ := bracket Y (g.ydim - 2) y hy.1 (by
    rw [show g.ydim - 2 + 1 = g.ydim - 1 by omega]; exact hy.2)
  have hr : rejected g x y = false := by
    apply rejected_false (j1 := 0) (i1 := 0) (j2 := 0) (i2 := g.xdim - 1) (j3 := 0) (i3 := 0) (j4 := g.ydim - 1) (i4 := 0)
    · exact ⟨by omega, by omega, by rw [(hg _ _).1]; exact hx.1⟩
    · exact ⟨by omega, by omega, by rw [(hg _ _).1]; exact hx.2⟩
    · exact ⟨by omega, by omega, by rw [(hg _ _).2]; exact hy.1⟩
    · exact ⟨by omega, by omega, by rw [(hg _ _).2]; exact hy.2⟩
  obtain ⟨s, hs⟩ := walk_rect (sqrt := sqrt) jit hg hflat hX hY (by omega : k + 1 < g.xdim) (by omega : l + 1 < g.ydim)
    ⟨k2, k3⟩ ⟨l2, l3⟩ n { xi := xi, yi := yi, xsi := .fin (-1), eta := .fin (-1) } hv (by unfold dist; simp only; omega)
  obtain ⟨h1, c, old, hc, he, hxs⟩ := walk_ok n _ s (searching_start xi yi) hs
  have hvs := cellAt_valid hc
  rw [cellAt_corners hvs] at hc
  injection hc with hc
  subst hc
  obtain ⟨w1, w2, w3, w4⟩ := hvs
  have hsh : shift g.spherical x (corners g s.xi s.yi) = corners g s.xi s.yi := by rw [hflat]; rfl
  rw [hsh] at he hxs
  have px := hX s.xi.toNat (by omega)
  have py := hY s.yi.toNat (by omega)
  obtain ⟨se, sx⟩ := solve_rect (sqrt := sqrt) jit (c := corners g s.xi s.yi) (x := x) (y := y) old
    (by simp [corners, hg]) (by simp [corners, hg]) (by simp [corners, hg]) (by simp [corners, hg])
    (by simp only [corners, hg]; exact px) (by simp only [corners, hg]; exact py)
  rw [se] at he
  rw [he, sx] at hxs
  obtain ⟨f1, f2, f3, f4⟩ := fin_of_search h1 he hxs
  refine ⟨⟨_, _, s.xi, s.yi⟩, _, _, ?_, ⟨w1, w2, w3, w4⟩, ?_, f1, f2, f3, f4, rfl, rfl⟩
  · unfold search
    rw [hr, hs]
    simp only [Bool.false_eq_true, if_false, he, hxs, clamp_fin]
  · have hwx : X (s.xi.toNat + 1) - X s.xi.toNat ≠ 0 := by
      have : 0 < X (s.xi.toNat + 1) - X s.xi.toNat := by linarith
      exact this.ne'
    have hwy : Y (s.yi.toNat + 1) - Y s.yi.toNat ≠ 0 := by
      have : 0 < Y (s.yi.toNat + 1) - Y s.yi.toNat := by linarith
      exact this.ne'
    constructor
    · simp only [bilinX, corners, hg]
      field_simp
      ring
    · simp only [bilinY, corners, hg]
      field_simp
      ring

/-- Such a grid, with irregular spacing, and the hypotheses. -/
example :
    let g : CGrid ℚ := { xdim := 4, ydim := 3, lon := fun _ i => i * i, lat := fun j _ => j, spherical := false,
                         zonalPeriodic := false }
    (∀ i : Nat, i < 3 → (i * i : ℚ) + tiny ≤ (i + 1 : Nat) * (i + 1 : Nat)) ∧
    search Rat.sqrt false 7 g (25/4) (1/2) 0 1 = .ok { xsi := 9/20, eta := 1/2, xi := 2, yi := 0 } := by
  decide +kernel

/-- C27 fails where a line eta = const of the cell is vertical but the cell is not a rectangle: the position (1/4, -1/4) has
the relative coordinates (1/2, 1/4) in the parallelogram (0,0), (0,-1), (1,0), (1,1); the search returns xsi = 3/4. -/
theorem C27_vertical_fails :
    let g : CGrid ℚ := { xdim := 2, ydim := 2, lon := fun j _ => j, lat := fun j i => j - i, spherical := false,
                         zonalPeriodic := false }
    (∀ jit ∈ [false, true], search Rat.sqrt jit 100 g (1/4) (-1/4) 0 0 = .ok { xsi := 3/4, eta := 1/4, xi := 0, yi := 0 }) ∧
    At (corners g 0 0) (1/4) (-1/4) (1/2) (1/4) ∧ 0 < jacobian (corners g 0 0) (1/2) (1/4) ∧
    ¬ At (corners g 0 0) (1/4) (-1/4) (3/4) (1/4) := by
  refine ⟨?_, ?_, ?_, ?_⟩
  · decide +kernel
  · unfold At; decide +kernel
  · decide +kernel
  · unfold At; decide +kernel

/-- Two convex cells: a unit square and, to its right, one that rises to the north-east. -/
def rising : CGrid ℚ where
  xdim := 3
  ydim := 2
  lon := fun j i => if i = 2 then (if j = 0 then 3/2 else 5/2) else i
  lat := fun j i => if i = 2 then (if j = 0 then 1/2 else 2) else j
  spherical := false
  zonalPeriodic := false

/-- C27 fails for a position that has no relative coordinates with respect to the cell under consideration: eta keeps the
value it had in the previous cell. The position (3/2, 1/4), outside the grid, is accepted in cell (0, 1), with
coordinates of another point of that cell. -/
theorem C27_stale_fails :
    (∀ jit ∈ [false, true], search Rat.sqrt jit 100 rising (3/2) (1/4) 0 0 =
      .ok { xsi := 2/3, eta := 1/4, xi := 1, yi := 0 }) ∧
    (∀ xsi eta, ¬ At (corners rising 1 0) (3/2) (1/4) xsi eta) ∧
    (∀ xsi eta, At (corners rising 0 0) (3/2) (1/4) xsi eta → 1 < xsi) := by
  refine ⟨?_, ?_, ?_⟩
  · decide +kernel
  · intro a b h
    have hq := quad_zero h
    have h1 : qa (corners rising 1 0) = 1 := by decide +kernel
    have h2 : qb (corners rising 1 0) (3/2) (1/4) = 1/2 := by decide +kernel
    have h3 : qc (corners rising 1 0) (3/2) (1/4) = 1/8 := by decide +kernel
    rw [h1, h2, h3] at hq
    nlinarith [sq_nonneg (b + 1/4)]
  · intro a b h
    have := h.1
    simp [bilinX, corners, rising] at this
    linarith

/-- C27 fails where the four corners of a cell coincide: the quotients are NaN, which ends the loop. Scipy mode accepts the
cell with coordinates (0, 0), the JIT mode reports a position outside the grid; the position is in the next cell. -/
theorem C27_degenerate_fails :
    let g : CGrid ℚ := { xdim := 3, ydim := 2, lon := fun _ i => if i = 2 then 1 else 0,
                         lat := fun j i => if i = 2 then 2 * j else 0, spherical := false, zonalPeriodic := false }
    search Rat.sqrt false 100 g (1/2) (1/4) 0 0 = .ok { xsi := 0, eta := 0, xi := 0, yi := 0 } ∧
    search Rat.sqrt true 100 g (1/2) (1/4) 0 0 = .error .outOfBounds ∧
    ¬ At (corners g 0 0) (1/2) (1/4) 0 0 ∧ At (corners g 1 0) (1/2) (1/4) (1/2) (1/4) := by
  refine ⟨?_, ?_, ?_, ?_⟩
  · decide +kernel
  · decide +kernel
  · unfold At; decide +kernel
  · unfold At; decide +kernel

/-- C27 fails for very small cells (1e-7 units), which the solver takes for parallelograms: the trapezoid above, scaled. -/
theorem C27_small_fails :
    let s : ℚ := 1 / 10000000
    let g : CGrid ℚ := { trapezoid with lon := fun j i => s * trapezoid.lon j i, lat := fun j i => s * trapezoid.lat j i }
    At (corners g 0 0) (s * (5/4)) (s * (1/2)) (1/4) (1/2) ∧ 0 < jacobian (corners g 0 0) (1/4) (1/2) ∧
    (∀ jit ∈ [false, true], search Rat.sqrt jit 100 g (s * (5/4)) (s * (1/2)) 0 0 ≠
      .ok { xsi := 1/4, eta := 1/2, xi := 0, yi := 0 }) := by
  refine ⟨?_, ?_, ?_⟩
  · unfold At; decide +kernel
  · decide +kernel
  · decide +kernel

/-- One cell with rows from north to south and sides that are not parallel. -/
def southward : CGrid ℚ where
  xdim := 2
  ydim := 2
  lon := fun j i => if j = 0 then i else 2 * i
  lat := fun j _ => if j = 0 then 1 else 0
  spherical := false
  zonalPeriodic := false

/-- The other direction of C27 fails where the rows of the grid run from north to south and the sides of the cell are not
parallel: the solver takes the wrong root. The position (3/4, 1/2) has the coordinates (1/2, 1/2) in the only cell of
the grid and is not found, in JIT mode after any number of iterations. -/
theorem C27_orientation_fails : At (corners southward 0 0) (3/4) (1/2) (1/2) (1/2) ∧
    ∀ n, search Rat.sqrt true n southward (3/4) (1/2) 0 0 = .error .outOfBounds := by
  refine ⟨by unfold At; decide +kernel, ?_⟩
  have h1 : step Rat.sqrt true southward (3/4) (1/2) { xi := 0, yi := 0, xsi := .fin (-1), eta := .fin (-1) } =
      .ok { xi := 0, yi := 0, xsi := .nan, eta := .fin (-1) } := by decide +kernel
  have h2 : step Rat.sqrt true southward (3/4) (1/2) { xi := 0, yi := 0, xsi := .nan, eta := .fin (-1) } =
      .ok { xi := 0, yi := 0, xsi := .nan, eta := .fin (-1) } := by decide +kernel
  have h3 : searching ({ xi := 0, yi := 0, xsi := .nan, eta := .fin (-1) } : St ℚ) = true := by decide +kernel
  have hw : ∀ n, walk Rat.sqrt true southward (3/4) (1/2) n { xi := 0, yi := 0, xsi := .nan, eta := .fin (-1) } =
      .error .outOfBounds := by
    intro n
    induction n with
    | zero => unfold walk; rw [if_pos h3]
    | succ n ih =>
      unfold walk
      rw [if_pos h3, h2]
      exact ih
  intro n
  have hr : rejected southward (3/4) (1/2) = false := by decide +kernel
  unfold search
  rw [hr]
  simp only [Bool.false_eq_true, if_false]
  cases n with
  | zero => unfold walk; rw [if_pos (searching_start 0 0)]
  | succ n =>
    unfold walk
    rw [if_pos (searching_start 0 0), h1]
    simp only [hw n]

/-! ### C68: sampling -/

/-- C68: sampling a uniform field gives its value: any grid, cell, mode and position at which sampling succeeds. -/
theorem C68_uniform (sqrt : K → K) (jit : Bool) (n : Nat) (g : CGrid K) (k x y : K) (xi yi : ℤ) (v : K)
    (h : sample2D sqrt jit n g (fun _ _ => k) x y xi yi = .ok v) : v = k := by
  unfold sample2D at h
  split at h
  · cases h
  · injection h with h
    rw [← h]; ring

/-- C68: a sample lies between bounds of the data: any grid, cell, mode and position at which sampling succeeds. -/
theorem C68_range (sqrt : K → K) (jit : Bool) (n : Nat) (g : CGrid K) (d : Nat → Nat → K) (x y : K) (xi yi : ℤ) (v lo hi : K)
    (hd : ∀ j i, j < g.ydim → i < g.xdim → lo ≤ d j i ∧ d j i ≤ hi)
    (h : sample2D sqrt jit n g d x y xi yi = .ok v) : lo ≤ v ∧ v ≤ hi := by
  unfold sample2D at h
  split at h
  · cases h
  · next r hr =>
    injection h with h
    obtain ⟨s, c, old, _, hc, _, _, h1, h2⟩ := search_ok hr
    obtain ⟨v1, v2, v3, v4⟩ := cellAt_valid hc
    obtain ⟨a0, a1⟩ := clamp_range h1
    obtain ⟨b0, b1⟩ := clamp_range h2
    have k0 := hd r.yi.toNat r.xi.toNat (by omega) (by omega)
    have k1 := hd r.yi.toNat (r.xi.toNat + 1) (by omega) (by omega)
    have k2 := hd (r.yi.toNat + 1) (r.xi.toNat + 1) (by omega) (by omega)
    have k3 := hd (r.yi.toNat + 1) r.xi.toNat (by omega) (by omega)
    rw [← h]
    have w0 : 0 ≤ (1 - r.xsi) * (1 - r.eta) := mul_nonneg (by linarith) (by linarith)
    have w1 : 0 ≤ r.xsi * (1 - r.eta) := mul_nonneg (by linarith) (by linarith)
    have w2 : 0 ≤ r.xsi * r.eta := mul_nonneg (by linarith) (by linarith)
    have w3 : 0 ≤ (1 - r.xsi) * r.eta := mul_nonneg (by linarith) (by linarith)
    constructor
    · nlinarith [mul_le_mul_of_nonneg_left k0.1 w0, mul_le_mul_of_nonneg_left k1.1 w1,
        mul_le_mul_of_nonneg_left k2.1 w2, mul_le_mul_of_nonneg_left k3.1 w3]
    · nlinarith [mul_le_mul_of_nonneg_left k0.2 w0, mul_le_mul_of_nonneg_left k1.2 w1,
        mul_le_mul_of_nonneg_left k2.2 w2, mul_le_mul_of_nonneg_left k3.2 w3]

/-- C68: sampling a field that is a linear function of longitude and latitude gives the value of the function at the
position, on a flat mesh, under the hypotheses of `C27_inside_partial` about the cell. -/
theorem C68_linear_partial (sqrt : K → K) (hs : IsSqrt sqrt) (jit : Bool) (n : Nat) (g : CGrid K) (hflat : g.spherical = false)
    (p q k x y : K) (xi yi : ℤ) (r : Found K)
    (h : search sqrt jit n g x y xi yi = .ok r) (hx : 0 < r.xsi ∧ r.xsi < 1) (hy : 0 < r.eta ∧ r.eta < 1) :
    let c := corners g r.xi r.yi
    Clear c → (∃ xsi eta, At c x y xsi eta ∧ jacobian c xsi eta ≠ 0) →
    (∀ eta, -tol ≤ eta → eta ≤ 1 + tol → tiny ≤ |chord c eta|) →
    sample2D sqrt jit n g (fun j i => p * g.lon j i + q * g.lat j i + k) x y xi yi = .ok (p * x + q * y + k) := by
  intro c h1 h2 h3
  have hsh : shift g.spherical x (corners g r.xi r.yi) = corners g r.xi r.yi := by rw [hflat]; rfl
  have := C27_inside_partial sqrt hs jit n g x y xi yi r h hx hy
  simp only [hsh] at this
  obtain ⟨e1, e2⟩ := this h1 h2 h3
  unfold sample2D
  rw [h]
  simp only
  congr 1
  rw [← e1, ← e2]
  simp only [bilinX, bilinY, corners]
  ring

example : sample2D Rat.sqrt true 5 trapezoid (fun j i => 2 * trapezoid.lon j i + 3 * trapezoid.lat j i + 1) (5/4) (1/2) 0 0 =
    .ok (2 * (5/4) + 3 * (1/2) + 1) := by decide +kernel

/-- C68 fails where C27 does: the field `lat` sampled at latitude -1/4 gives -1/2. -/
theorem C68_linear_fails :
    let g : CGrid ℚ := { xdim := 2, ydim := 2, lon := fun j _ => j, lat := fun j i => j - i, spherical := false,
                         zonalPeriodic := false }
    ∀ jit ∈ [false, true], sample2D Rat.sqrt jit 100 g g.lat (1/4) (-1/4) 0 0 = .ok (-1/2) := by
  decide +kernel

end Parcels.Curvilinear
