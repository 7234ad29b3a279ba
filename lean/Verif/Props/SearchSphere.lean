import Verif.Proofs.SearchSphere2
import Verif.Spec.Sphere

/-!
C26: on spherical grids every longitude of the grid is found, modulo 360, in both modes, and with depth levels.
-/

namespace Parcels.Search
open Parcels.Interp

theorem accepted_check {g : RGrid} {x : ℚ} (h : Accepted g x) :
    ¬ (g.zonalPeriodic = false ∧ (x < minL g.lon ∨ maxL g.lon < x)) := by
  rintro ⟨hz, hh⟩
  rcases h with h | ⟨a, b, ha, hb, h1, h2⟩
  · rw [h] at hz; exact absurd hz (by decide)
  · have := minL_le g.lon a ha
    have := le_maxL g.lon b hb
    rcases hh with h | h <;> linarith

/-- The Scipy search of the longitude, when it is on the axis as it is or with 360 added. -/
theorem scipy_lon {g : RGrid} {U : List ℚ} (hg : SphereGrid g U) {x : ℚ}
    (hx : OnAxis U x 0 ∨ (x < U.headD 0 ∧ OnAxis U x 1)) :
    ∃ i r, searchX g x = some (i, r) ∧ inUnit r = true ∧ LocatesMod360 g.lon x i r := by
  have hU := hg.lon
  have hl := eastward_length hU
  have hlen := eastward_len hU
  have hinc := eastward_inc hU
  have e1 : searchX g x = axisSearch (lonFixed g.lon x) x := by
    unfold searchX
    rw [if_pos (by omega), hg.sph, cond_true]
  rw [e1]
  unfold lonFixed
  rw [unwrap_eastward hU]
  rcases hx with ⟨h1, h2⟩ | ⟨h1, h2, h3⟩
  · simp only [Int.cast_zero, mul_zero, add_zero] at h1 h2
    rw [if_neg (not_lt.mpr h1)]
    rw [headD_getD] at h1
    rw [getLastD_getD] at h2
    obtain ⟨n, hn, ha, hb, hs⟩ := axisSearch_found hinc (by omega) h1 h2
    have hloc := locates_of_cell hinc hn ha hb
    exact ⟨_, _, hs, inUnit_of_locates hloc, locates_shift hU 0 (by simpa using hloc)⟩
  · rw [if_pos h1]
    have hinc' := increasing_sub hinc
    have e : ∀ k, k < U.length → (U.map (· - 360)).getD k 0 = U.getD k 0 - 360 := by
      intro k hk
      rw [List.getD_eq_getElem _ 0 (show k < (U.map (· - 360)).length by rw [List.length_map]; exact hk),
        List.getD_eq_getElem U 0 hk, List.getElem_map]
    rw [headD_getD] at h2
    rw [getLastD_getD] at h3
    push_cast at h2 h3
    obtain ⟨n, hn, ha, hb, hs⟩ := axisSearch_found hinc' (x := x) (by rw [List.length_map]; omega)
      (by rw [e 0 (by omega)]; linarith)
      (by rw [List.length_map, e _ (by omega)]; linarith)
    have hloc := locates_of_cell hinc' hn ha hb
    exact ⟨_, _, hs, inUnit_of_locates hloc, locates_shift hU 1 (locates_sub hloc)⟩

/-- The C search of the longitude, from any cell. -/
theorem jit_lon {g : RGrid} {U : List ℚ} (hg : SphereGrid g U) (hm : ModestAxis U) (hn : g.lon.length ≤ 5000) {x : ℚ}
    {s : ℤ} (hs : s = 0 ∨ s = 1 ∨ (s = -1 ∧ U = g.lon)) (hx : OnAxis U x s) {xi : Nat} (hxi : xi + 1 < g.lon.length) :
    ∃ i r, cSearchX g x xi = .ok (i, r) ∧ inUnit r = true ∧ LocatesMod360 g.lon x i r := by
  have hU := hg.lon
  have hlen := eastward_len hU
  obtain ⟨c, k, t, hc⟩ := circ_of_eastward hU hm.1 hm.2 hs hx.1 hx.2
  obtain ⟨j, a, b, hj, ha, hb⟩ := sphere_found hc 10000 xi hxi (by have := mu_le hc hxi; omega)
  have e1 : cSearchX g x xi = .ok (j, (x - a) / (b - a)) := by
    unfold cSearchX
    rw [if_neg (by omega), hg.sph, cond_true, hj]
  have h0 : 0 ≤ (x - a) / (b - a) := div_nonneg (by linarith) (by linarith)
  have h1 : (x - a) / (b - a) ≤ 1 := div_le_one_of_le₀ (by linarith) (by linarith)
  refine ⟨j, _, e1, ?_, cSphere_locates hU hj (by omega) (by exact_mod_cast hxi) h0 h1⟩
  unfold inUnit; rw [Bool.and_eq_true]; exact ⟨decide_eq_true h0, decide_eq_true h1⟩

/-- C26 (JIT, 2D), completeness: from every previous cell of the particle, every longitude that is on the axis as it
is, or with 360 added (or with 360 taken away, if the axis does not cross the date line), is found, right modulo 360.
Conditions: cells narrower than 135 degrees, at most one turn, at most 5000 longitudes (the search gives up after 10000
steps). -/
theorem C26_jit_found_partial (g : RGrid) (U : List ℚ) (hg : SphereGrid g U) (hm : ModestAxis U)
    (hn : g.lon.length ≤ 5000) (h2d : g.depth.length ≤ 1) (x y z : ℚ) (xi yi zi : Nat) (hxi : xi + 1 < g.lon.length)
    (hyi : yi + 1 < g.lat.length) (hacc : Accepted g x) (hy : InRange g.lat y) (s : ℤ)
    (hs : s = 0 ∨ s = 1 ∨ (s = -1 ∧ U = g.lon)) (hx : OnAxis U x s) :
    ∃ p, cSearchRect g x y z xi yi zi = .ok p ∧ LocatesMod360 g.lon x p.xi p.xsi ∧ Locates g.lat y p.yi p.eta := by
  rw [inRange_inc hg.latInc hg.latLen] at hy
  obtain ⟨i, r, e1, ux, hlx⟩ := jit_lon hg hm hn hs hx hxi
  have hly := cAxis_locates hg.latInc hg.latLen hyi hy.1 hy.2
  have uy := inUnit_of_locates hly
  have u0 : inUnit 0 = true := by decide +kernel
  have r1 := accepted_check hacc
  have hok : cSearchRect g x y z xi yi zi = .ok ⟨r, (cAxis g.lat y yi).2, 0, i, ((cAxis g.lat y yi).1 : Nat), zi⟩ := by
    unfold cSearchRect
    rw [if_neg (fun h => r1 ⟨h.1, h.2.2⟩)]
    rw [if_neg (by rw [minL_inc hg.latInc, maxL_inc hg.latInc]; rintro ⟨_, h | h⟩ <;> linarith)]
    simp only [e1, if_neg (show ¬ 1 < g.depth.length by omega), ux, uy, u0, Bool.and_self, if_true]
  exact ⟨_, hok, hlx, hly⟩

/-- C26 (Scipy, with depth levels): the three outcomes in the vertical, and the position found otherwise. -/
theorem C26_scipy_found_3D_partial (g : RGrid) (U : List ℚ) (hg : SphereGrid g U)
    (hd : Increasing g.depth ∨ Decreasing g.depth) (h3d : 2 ≤ g.depth.length) (hm5 : g.mom5 = false) (x y z : ℚ)
    (hacc : Accepted g x) (hy : InRange g.lat y) (hx : OnAxis U x 0 ∨ (x < U.headD 0 ∧ OnAxis U x 1)) :
    (BeforeFirst g.depth z → searchRect g x y z = .error .throughSurface) ∧
    (BeyondLast g.depth z → searchRect g x y z = .error .outOfBounds) ∧
    (¬ BeforeFirst g.depth z → ¬ BeyondLast g.depth z → ∃ p, searchRect g x y z = .ok p ∧
      LocatesMod360 g.lon x p.xi p.xsi ∧ Locates g.lat y p.yi p.eta ∧ Locates g.depth z p.zi p.zeta) := by
  have latLen := hg.latLen
  rw [inRange_inc hg.latInc hg.latLen] at hy
  obtain ⟨i, r, e1, ux, hlx⟩ := scipy_lon hg hx
  obtain ⟨m, hm, hc, hdd, ht⟩ := axisSearch_found hg.latInc hg.latLen hy.1 hy.2
  have hly := locates_of_cell hg.latInc hm hc hdd
  have uy := inUnit_of_locates hly
  have r1 := accepted_check hacc
  have e2 : searchY g y = some ((m : ℤ), (y - g.lat.getD m 0) / (g.lat.getD (m + 1) 0 - g.lat.getD m 0)) := by
    simp only [searchY, if_pos (show 1 < g.lat.length by omega), ht]
  have e3 : searchDepth g z = searchZ g.depth false z := by
    simp only [searchDepth, if_pos (show 1 < g.depth.length by omega), hm5]
  have hstart : searchRect g x y z =
      match searchZ g.depth false z with
      | .error e => .error e
      | .ok (zi, zeta) =>
        if inUnit zeta then .ok ⟨r,
          (y - g.lat.getD m 0) / (g.lat.getD (m + 1) 0 - g.lat.getD m 0), zeta, i, m, zi⟩ else .error .sampling := by
    unfold searchRect
    rw [if_neg (fun h => r1 ⟨h.2.1, h.2.2⟩)]
    rw [if_neg (by rw [minL_inc hg.latInc, maxL_inc hg.latInc]; rintro ⟨_, h | h⟩ <;> linarith)]
    simp only [e1, e2, e3, ux, uy, Bool.and_self, Bool.true_and]
    rcases searchZ g.depth false z with e | ⟨i, r⟩ <;> rfl
  obtain ⟨c1, c2, c3⟩ := C25_z_levels_scipy g.depth hd h3d z
  refine ⟨?_, ?_, ?_⟩
  · intro h; rw [hstart, c1 h]
  · intro h; rw [hstart, c2 h]
  · intro h1 h2
    obtain ⟨i, r, hr, hloc⟩ := c3 h1 h2
    have uz := inUnit_of_locates hloc
    rw [hstart, hr]
    simp only [uz, if_true]
    exact ⟨_, rfl, hlx, hly, hloc⟩

/-- C26 (JIT, with depth levels). -/
theorem C26_jit_found_3D_partial (g : RGrid) (U : List ℚ) (hg : SphereGrid g U) (hm : ModestAxis U)
    (hn : g.lon.length ≤ 5000) (hd : Increasing g.depth ∨ Decreasing g.depth) (h3d : 2 ≤ g.depth.length)
    (hm5 : g.mom5 = false) (x y z : ℚ) (xi yi zi : Nat) (hxi : xi + 1 < g.lon.length)
    (hyi : yi + 1 < g.lat.length) (hzi : zi ≤ g.depth.length - 1) (hacc : Accepted g x) (hy : InRange g.lat y) (s : ℤ)
    (hs : s = 0 ∨ s = 1 ∨ (s = -1 ∧ U = g.lon)) (hx : OnAxis U x s) :
    (BeforeFirst g.depth z → cSearchRect g x y z xi yi zi = .error .throughSurface) ∧
    (BeyondLast g.depth z → cSearchRect g x y z xi yi zi = .error .outOfBounds) ∧
    (¬ BeforeFirst g.depth z → ¬ BeyondLast g.depth z → ∃ p, cSearchRect g x y z xi yi zi = .ok p ∧
      LocatesMod360 g.lon x p.xi p.xsi ∧ Locates g.lat y p.yi p.eta ∧ Locates g.depth z p.zi p.zeta) := by
  rw [inRange_inc hg.latInc hg.latLen] at hy
  obtain ⟨i, r, e1, ux, hlx⟩ := jit_lon hg hm hn hs hx hxi
  have hly := cAxis_locates hg.latInc hg.latLen hyi hy.1 hy.2
  have uy := inUnit_of_locates hly
  have r1 := accepted_check hacc
  have hstart : cSearchRect g x y z xi yi zi =
      match cSearchZ g.depth false z zi with
      | .error e => .error e
      | .ok (k, zeta) =>
        if inUnit zeta then .ok ⟨r, (cAxis g.lat y yi).2, zeta, i,
          ((cAxis g.lat y yi).1 : Nat), k⟩ else .error .sampling := by
    unfold cSearchRect
    rw [if_neg (fun h => r1 ⟨h.1, h.2.2⟩)]
    rw [if_neg (by rw [minL_inc hg.latInc, maxL_inc hg.latInc]; rintro ⟨_, h | h⟩ <;> linarith)]
    simp only [e1, if_pos (show 1 < g.depth.length by omega), hm5, ux, uy, Bool.and_self, Bool.true_and]
    rcases cSearchZ g.depth false z zi with e | ⟨i, r⟩ <;> rfl
  obtain ⟨c1, c2, c3⟩ := C25_z_levels_jit g.depth hd h3d z zi hzi
  refine ⟨?_, ?_, ?_⟩
  · intro h; rw [hstart, c1 h]
  · intro h; rw [hstart, c2 h]
  · intro h1 h2
    obtain ⟨i, r, hr, hloc⟩ := c3 h1 h2
    have uz := inUnit_of_locates hloc
    rw [hstart, hr]
    simp only [uz, if_true]
    exact ⟨_, rfl, hlx, hly, hloc⟩

/-- A grid of almost one turn that crosses the date line, with depth levels. -/
def pacific : RGrid := { lon := [100, 160, -140, -80, -20, 40, 99], lat := [-10, 0, 10], depth := [0, 10, 30],
                         spherical := true, zonalPeriodic := true, mom5 := false }
def pacificU : List ℚ := [100, 160, 220, 280, 340, 400, 459]

theorem all_pairs {U : List ℚ} {w : ℚ} (h : ∀ m : Fin (U.length - 1), U.getD (m.val + 1) 0 - U.getD m.val 0 < w) :
    ∀ (n : Nat) (a b : ℚ), U[n]? = some a → U[n + 1]? = some b → b - a < w := by
  intro n a b ha hb
  obtain ⟨h1, rfl⟩ := List.getElem?_eq_some_iff.mp ha
  obtain ⟨h2, rfl⟩ := List.getElem?_eq_some_iff.mp hb
  have := h ⟨n, by omega⟩
  simpa only [List.getD_eq_getElem _ 0 h1, List.getD_eq_getElem _ 0 h2] using this

/-- The hypotheses hold for this grid, at longitude 30 (30 + 360 is on the axis) and at -170 (stored as 190). -/
theorem pacific_grid : SphereGrid pacific pacificU := by
  refine ⟨rfl, ⟨[100, 160], [-140, -80, -20, 40, 99], rfl, by decide +kernel, by decide, by decide, by decide +kernel,
    ?_, all_pairs (by decide +kernel)⟩, ?_, by decide⟩
  · unfold Increasing; decide +kernel
  · unfold Increasing; decide +kernel

example : ModestAxis pacificU := ⟨all_pairs (by decide +kernel), by decide +kernel⟩

example : OnAxis pacificU 30 1 ∧ OnAxis pacificU (-170) 1 ∧
    OnAxis pacificU 120 0 := by
  unfold OnAxis; decide +kernel

example : cSearchRect pacific 30 5 20 1 0 0 =
      .ok ⟨5 / 6, 1 / 2, 1 / 2, 4, 1, 1⟩ ∧
    searchRect pacific 30 5 20 =
      .ok ⟨5 / 6, 1 / 2, 1 / 2, 4, 1, 1⟩ := by decide +kernel

/-- A zonally periodic grid with a cell of 140 degrees. -/
def wide : RGrid := { lon := [0, 100, 240], lat := [0, 10], depth := [0], spherical := true, zonalPeriodic := true,
                      mom5 := false }

theorem wide_loops (f : Nat) : cSphere wide.lon (-125) f 0 = .error .outOfBounds ∧
    cSphere wide.lon (-125) f 1 = .error .outOfBounds := by
  have a0 : near225 (wide.lon.getD (0 : ℤ).toNat 0) (-125) = 0 := by decide +kernel
  have b0 : near180 (wide.lon.getD ((0 : ℤ).toNat + 1) 0) 0 = 100 := by decide +kernel
  have a1 : near225 (wide.lon.getD (1 : ℤ).toNat 0) (-125) = 100 := by decide +kernel
  have b1 : near180 (wide.lon.getD ((1 : ℤ).toNat + 1) 0) 100 = 240 := by decide +kernel
  have w0 : wrapX (0 - 1) wide.lon.length = 1 := by decide
  have w1 : wrapX (1 - 1) wide.lon.length = 0 := by decide
  induction f with
  | zero =>
    constructor
    · rw [cSphere]; simp only [a0, b0]; rw [if_pos (by norm_num)]
    · rw [cSphere]; simp only [a1, b1]; rw [if_pos (by norm_num)]
  | succ f ih =>
    constructor
    · rw [cSphere]; simp only [a0, b0]
      rw [if_pos (by norm_num), if_neg (by norm_num), w0]; exact ih.2
    · rw [cSphere]; simp only [a1, b1]
      rw [if_pos (by norm_num), if_neg (by norm_num), w1]; exact ih.1

/-- C26 is false in JIT mode with a cell of 135 degrees or more: longitude -125, which is 235 and so in the second
cell, is found in Scipy mode, and reported out of bounds in JIT mode, from either cell (the search goes to and fro
between the two cells until it gives up). -/
theorem C26_jit_wide_cell_fails :
    searchRect wide (-125) 5 0 = .ok ⟨27 / 28, 1 / 2, 0, 1, 0, -1⟩ ∧
    ∀ xi yi zi : Nat, xi + 1 < wide.lon.length → cSearchRect wide (-125) 5 0 xi yi zi = .error .outOfBounds := by
  refine ⟨by decide +kernel, ?_⟩
  intro xi yi zi hxi
  have h2 : ¬ (1 < wide.lat.length ∧ ((5 : ℚ) < minL wide.lat ∨ maxL wide.lat < 5)) := by decide +kernel
  have h1 : cSearchX wide (-125) xi = .error .outOfBounds := by
    unfold cSearchX
    rw [if_neg (by decide), show wide.spherical = true from rfl, cond_true]
    have hc : xi = 0 ∨ xi = 1 := by
      have : wide.lon.length = 3 := rfl
      omega
    rcases hc with rfl | rfl
    · rw [show ((0 : Nat) : ℤ) = 0 from rfl, (wide_loops 10000).1]
    · rw [show ((1 : Nat) : ℤ) = 1 from rfl, (wide_loops 10000).2]
  unfold cSearchRect
  rw [if_neg (by rintro ⟨h, _⟩; exact absurd h (by decide)), if_neg h2, h1]

end Parcels.Search
