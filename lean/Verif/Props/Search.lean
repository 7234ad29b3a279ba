import Verif.Proofs.Search

/-!
C24, C25: locating a position on a rectilinear grid.
-/

namespace Parcels.Search

/-! ### Depth axes (C25) -/

/-- `z` lies before the first level / beyond the last level of the axis. -/
def BeforeFirst (d : List ℚ) (z : ℚ) : Prop :=
  (Increasing d ∧ z < d.headD 0) ∨ (Decreasing d ∧ d.headD 0 < z)
def BeyondLast (d : List ℚ) (z : ℚ) : Prop :=
  (Increasing d ∧ d.getLastD 0 < z) ∨ (Decreasing d ∧ z < d.getLastD 0)

theorem first_lt_last {d : List ℚ} (h : Increasing d) (hl : 2 ≤ d.length) : d.headD 0 < d.getLastD 0 := by
  rw [headD_getD, getLastD_getD]; exact inc_lt h (by omega) (by omega)

theorem last_lt_first {d : List ℚ} (h : Decreasing d) (hl : 2 ≤ d.length) : d.getLastD 0 < d.headD 0 := by
  rw [headD_getD, getLastD_getD]; exact dec_gt h (by omega) (by omega)

theorem inUnit_of_locates {l : List ℚ} {x : ℚ} {i : ℤ} {r : ℚ} (h : Locates l x i r) : inUnit r = true := by
  obtain ⟨_, _, _, _, _, _, a, b, _⟩ := h
  unfold inUnit
  rw [Bool.and_eq_true]
  exact ⟨decide_eq_true a, decide_eq_true b⟩

/-- C25 (Scipy, z levels): for every strictly monotone depth axis, in either direction, and every z, the search
finds the layer and the relative height; before the first level it reports through-surface, beyond the last
out-of-bounds, and nothing else. -/
theorem C25_z_levels_scipy (d : List ℚ) (hd : Increasing d ∨ Decreasing d) (hl : 2 ≤ d.length) (z : ℚ) :
    (BeforeFirst d z → searchZ d false z = .error .throughSurface) ∧
    (BeyondLast d z → searchZ d false z = .error .outOfBounds) ∧
    (¬ BeforeFirst d z → ¬ BeyondLast d z → ∃ i r, searchZ d false z = .ok (i, r) ∧ Locates d z i r) := by
  rcases hd with h | h
  · have hfl := first_lt_last h hl
    have hnd : ¬ Decreasing d := by
      intro hh; exact absurd (last_lt_first hh hl) (not_lt.mpr hfl.le)
    have e1 : BeforeFirst d z ↔ z < d.headD 0 := by simp [BeforeFirst, h, hnd]
    have e2 : BeyondLast d z ↔ d.getLastD 0 < z := by simp [BeyondLast, h, hnd]
    rw [e1, e2]
    refine ⟨?_, ?_, ?_⟩
    · intro hz; simp only [searchZ, hfl, hz, if_true, Bool.false_eq_true, false_and, if_false, Bool.false_and]
    · intro hz
      have : ¬ z < d.headD 0 := by linarith
      simp only [searchZ, hfl, hz, this, if_true, Bool.false_eq_true, false_and, if_false, Bool.false_and]
    · intro h1 h2
      have h1' := not_lt.mp h1
      have h2' := not_lt.mp h2
      rw [headD_getD] at h1'
      rw [getLastD_getD] at h2'
      obtain ⟨n, hn, ha, hb, hg⟩ := zi_found_inc h hl h1' h2'
      refine ⟨n, (z - d.getD n 0) / (d.getD (n + 1) 0 - d.getD n 0), ?_, locates_of_cell h hn ha hb⟩
      unfold searchZ
      simp only [hfl, h1, h2, if_true, if_false]
      rw [headD_getD, getLastD_getD, hg]
      simp only [rel_nat hn]
  · have hfl := last_lt_first h hl
    have hfl' := not_lt.mpr hfl.le
    have hnd : ¬ Increasing d := by
      intro hh; exact absurd (first_lt_last hh hl) (not_lt.mpr hfl.le)
    have e1 : BeforeFirst d z ↔ d.headD 0 < z := by simp [BeforeFirst, h, hnd]
    have e2 : BeyondLast d z ↔ z < d.getLastD 0 := by simp [BeyondLast, h, hnd]
    rw [e1, e2]
    refine ⟨?_, ?_, ?_⟩
    · intro hz; simp only [searchZ, hfl', hz, if_true, if_false]
    · intro hz
      have : ¬ d.headD 0 < z := by linarith
      simp only [searchZ, hfl', hz, this, if_true, if_false]
    · intro h1 h2
      have h1' := not_lt.mp h1
      have h2' := not_lt.mp h2
      rw [headD_getD] at h1'
      rw [getLastD_getD] at h2'
      obtain ⟨n, hn, ha, hb, hg⟩ := zi_found_dec h hl h1' h2'
      refine ⟨n, (z - d.getD n 0) / (d.getD (n + 1) 0 - d.getD n 0), ?_, locates_of_cell_dec h hn ha hb⟩
      unfold searchZ
      simp only [hfl', h1, h2, if_false]
      rw [headD_getD, getLastD_getD, hg]
      simp only [rel_nat hn]

example : Increasing [0, 10, 30, 70] ∧ searchZ [0, 10, 30, 70] false 20 = .ok (1, 1 / 2) ∧
    searchZ [0, -10, -30] false (-10) = .ok (1, 0) ∧ searchZ [0, -10, -30] false 1 = .error .throughSurface ∧
    searchZ [0, 10, 30, 70] false 71 = .error .outOfBounds := by
  unfold Increasing; decide +kernel

/-- C25 (Scipy, terrain-following levels), for the column of depths at the particle. -/
theorem C25_s_levels_scipy (d : List ℚ) (hd : Increasing d ∨ Decreasing d) (hl : 2 ≤ d.length) (z : ℚ) :
    (BeforeFirst d z → searchS d z = .error .throughSurface) ∧
    (BeyondLast d z → searchS d z = .error .outOfBounds) ∧
    (¬ BeforeFirst d z → ¬ BeyondLast d z → ∃ i r, searchS d z = .ok (i, r) ∧ Locates d z i r) := by
  have hp0 : pyGet d 0 = some (d.getD 0 0) := pyGet_nat (n := 0) (by omega)
  have hp1 : pyGet d (0 + 1) = some (d.getD 1 0) := pyGet_nat (n := 1) (by omega)
  have hpa : pyGet d ((d.length : ℤ) - 2) = some (d.getD (d.length - 2) 0) := by
    rw [show ((d.length : ℤ) - 2) = ((d.length - 2 : Nat) : ℤ) by omega]
    exact pyGet_nat (by omega)
  have hpb : pyGet d ((d.length : ℤ) - 2 + 1) = some (d.getD (d.length - 1) 0) := by
    rw [show ((d.length : ℤ) - 2 + 1) = ((d.length - 1 : Nat) : ℤ) by omega]
    exact pyGet_nat (by omega)
  have hpn : ∀ n : Nat, n + 1 < d.length → pyGet d ((n : ℤ) + 1) = some (d.getD (n + 1) 0) := by
    intro n hn
    rw [show ((n : ℤ) + 1) = ((n + 1 : Nat) : ℤ) by push_cast; ring]
    exact pyGet_nat hn
  rcases hd with h | h
  · have hfl := first_lt_last h hl
    have hnd : ¬ Decreasing d := by
      intro hh; exact absurd (last_lt_first hh hl) (not_lt.mpr hfl.le)
    have e1 : BeforeFirst d z ↔ z < d.headD 0 := by simp [BeforeFirst, h, hnd]
    have e2 : BeyondLast d z ↔ d.getLastD 0 < z := by simp [BeyondLast, h, hnd]
    rw [e1, e2]
    refine ⟨?_, ?_, ?_⟩
    · intro hz
      have h1 : ¬ d.getLastD 0 ≤ z := by linarith
      have h2 : ¬ d.headD 0 ≤ z := not_le.mpr hz
      unfold searchS
      simp only [hfl, h1, h2, if_true, if_false, hp0, hp1]
      rw [headD_getD] at hz
      rw [if_pos hz]
    · intro hz
      unfold searchS
      simp only [hfl, hz.le, if_true, hpa, hpb]
      rw [getLastD_getD] at hz
      have : ¬ z < d.getD (d.length - 2) 0 := by
        have := inc_lt h (show d.length - 2 < d.length - 1 by omega) (by omega)
        linarith
      rw [if_neg this, if_pos hz]
    · intro h1 h2
      have h1' := not_lt.mp h1
      have h2' := not_lt.mp h2
      rw [headD_getD] at h1'
      rw [getLastD_getD] at h2'
      obtain ⟨n, hn, ha, hb, hg⟩ := zi_found_inc h hl h1' h2'
      refine ⟨n, (z - d.getD n 0) / (d.getD (n + 1) 0 - d.getD n 0), ?_, locates_of_cell h hn ha hb⟩
      unfold searchS
      simp only [hfl, if_true]
      rw [headD_getD, getLastD_getD, hg]
      simp only [pyGet_nat (show n < d.length by omega), hpn n hn, rel_nat hn]
      rw [if_neg (not_lt.mpr ha), if_neg (not_lt.mpr hb)]
  · have hfl := last_lt_first h hl
    have hfl' := not_lt.mpr hfl.le
    have hnd : ¬ Increasing d := by
      intro hh; exact absurd (first_lt_last hh hl) (not_lt.mpr hfl.le)
    have e1 : BeforeFirst d z ↔ d.headD 0 < z := by simp [BeforeFirst, h, hnd]
    have e2 : BeyondLast d z ↔ z < d.getLastD 0 := by simp [BeyondLast, h, hnd]
    rw [e1, e2]
    refine ⟨?_, ?_, ?_⟩
    · intro hz
      have h1 : ¬ z ≤ d.getLastD 0 := by linarith
      have h2 : ¬ z ≤ d.headD 0 := not_le.mpr hz
      unfold searchS
      simp only [hfl', h1, h2, if_false, hp0, hp1]
      rw [headD_getD] at hz
      rw [if_pos hz]
    · intro hz
      unfold searchS
      simp only [hfl', hz.le, if_false, if_true, hpa, hpb]
      rw [getLastD_getD] at hz
      have : ¬ d.getD (d.length - 2) 0 < z := by
        have := dec_gt h (show d.length - 2 < d.length - 1 by omega) (by omega)
        linarith
      rw [if_neg this, if_pos hz]
    · intro h1 h2
      have h1' := not_lt.mp h1
      have h2' := not_lt.mp h2
      rw [headD_getD] at h1'
      rw [getLastD_getD] at h2'
      obtain ⟨n, hn, ha, hb, hg⟩ := zi_found_dec h hl h1' h2'
      refine ⟨n, (z - d.getD n 0) / (d.getD (n + 1) 0 - d.getD n 0), ?_, locates_of_cell_dec h hn ha hb⟩
      unfold searchS
      simp only [hfl', if_false]
      rw [headD_getD, getLastD_getD, hg]
      simp only [pyGet_nat (show n < d.length by omega), hpn n hn, rel_nat hn]
      rw [if_neg (not_lt.mpr ha), if_neg (not_lt.mpr hb)]

/-- A column of a terrain-following grid: corner columns 0, 10, 20 and 0, 30, 60, half-way between them. -/
example : column 3 (fun k _ i => if i = 0 then 10 * k else 30 * k) false (1 / 2) (1 / 4) = [0, 20, 40] ∧
    searchS [0, 20, 40] 25 = .ok (1, 1 / 4) ∧ searchS [0, 20, 40] 41 = .error .outOfBounds := by decide +kernel

/-- The four corner columns strictly increase downwards, so does the column in between (at every position of the
cell): the hypothesis of `C25_s_levels_scipy` holds. -/
theorem C25_column_increasing (zdim : Nat) (c : Nat → Nat → Nat → ℚ) (bgrid : Bool) (xsi eta : ℚ)
    (hx : 0 ≤ xsi ∧ xsi ≤ 1) (he : 0 ≤ eta ∧ eta ≤ 1)
    (hc : ∀ j i k k', k < k' → c k j i < c k' j i) : Increasing (column zdim c bgrid xsi eta) := by
  have key : ∀ (s t : ℚ), 0 ≤ s → s ≤ 1 → 0 ≤ t → t ≤ 1 → ∀ k k', k < k' →
      (1 - s) * (1 - t) * c k 0 0 + s * (1 - t) * c k 0 1 + s * t * c k 1 1 + (1 - s) * t * c k 1 0 <
      (1 - s) * (1 - t) * c k' 0 0 + s * (1 - t) * c k' 0 1 + s * t * c k' 1 1 + (1 - s) * t * c k' 1 0 := by
    intro s t hs0 hs1 ht0 ht1 k k' hk
    have a1 : 0 ≤ (1 - s) * (1 - t) := mul_nonneg (by linarith) (by linarith)
    have a2 : 0 ≤ s * (1 - t) := mul_nonneg hs0 (by linarith)
    have a3 : 0 ≤ s * t := mul_nonneg hs0 ht0
    have a4 : 0 ≤ (1 - s) * t := mul_nonneg (by linarith) ht0
    have hsum : (1 - s) * (1 - t) + s * (1 - t) + s * t + (1 - s) * t = 1 := by ring
    have b1 := hc 0 0 k k' hk
    have b2 := hc 0 1 k k' hk
    have b3 := hc 1 1 k k' hk
    have b4 := hc 1 0 k k' hk
    have m1 := mul_le_mul_of_nonneg_left b1.le a1
    have m2 := mul_le_mul_of_nonneg_left b2.le a2
    have m3 := mul_le_mul_of_nonneg_left b3.le a3
    have m4 := mul_le_mul_of_nonneg_left b4.le a4
    by_contra hcon
    have hle := not_lt.mp hcon
    have z1 : (1 - s) * (1 - t) * (c k' 0 0 - c k 0 0) = 0 := by nlinarith
    have z2 : s * (1 - t) * (c k' 0 1 - c k 0 1) = 0 := by nlinarith
    have z3 : s * t * (c k' 1 1 - c k 1 1) = 0 := by nlinarith
    have z4 : (1 - s) * t * (c k' 1 0 - c k 1 0) = 0 := by nlinarith
    have w1 := (mul_eq_zero.mp z1).resolve_right (by linarith)
    have w2 := (mul_eq_zero.mp z2).resolve_right (by linarith)
    have w3 := (mul_eq_zero.mp z3).resolve_right (by linarith)
    have w4 := (mul_eq_zero.mp z4).resolve_right (by linarith)
    rw [w1, w2, w3, w4] at hsum
    norm_num at hsum
  unfold column Increasing
  rw [List.pairwise_map]
  refine List.Pairwise.imp ?_ (List.pairwise_lt_range)
  intro k k' hk
  cases bgrid with
  | true => simpa using key 1 1 (by norm_num) (by norm_num) (by norm_num) (by norm_num) k k' hk
  | false => simpa using key xsi eta hx.1 hx.2 he.1 he.2 k k' hk

/-- C25 (JIT, z levels): the same for the C search, whatever level the particle was in before. -/
theorem C25_z_levels_jit (d : List ℚ) (hd : Increasing d ∨ Decreasing d) (hl : 2 ≤ d.length) (z : ℚ)
    (start : Nat) (hs : start ≤ d.length - 1) :
    (BeforeFirst d z → cSearchZ d false z start = .error .throughSurface) ∧
    (BeyondLast d z → cSearchZ d false z start = .error .outOfBounds) ∧
    (¬ BeforeFirst d z → ¬ BeyondLast d z →
      ∃ i r, cSearchZ d false z start = .ok (i, r) ∧ Locates d z i r) := by
  rcases hd with h | h
  · have hfl := first_lt_last h hl
    have hnd : ¬ Decreasing d := by
      intro hh; exact absurd (last_lt_first hh hl) (not_lt.mpr hfl.le)
    have e1 : BeforeFirst d z ↔ z < d.headD 0 := by simp [BeforeFirst, h, hnd]
    have e2 : BeyondLast d z ↔ d.getLastD 0 < z := by simp [BeyondLast, h, hnd]
    rw [e1, e2]
    refine ⟨?_, ?_, ?_⟩
    · intro hz; simp only [cSearchZ, hfl, hz, if_true, Bool.false_eq_true, if_false, Bool.false_and, Bool.and_false]
    · intro hz
      have : ¬ z < d.headD 0 := by linarith
      simp only [cSearchZ, hfl, hz, this, if_true, Bool.false_eq_true, if_false, Bool.false_and, Bool.and_false]
    · intro h1 h2
      have h1' := not_lt.mp h1
      have h2' := not_lt.mp h2
      rw [headD_getD] at h1'
      rw [getLastD_getD] at h2'
      obtain ⟨w1, w2, w3, _⟩ := cWalk_spec (lt := ltB) hl start hs (x := z) (by simpa [ltB] using h1')
        (fun i hi => by simpa [ltB] using inc_lt h (Nat.lt_succ_self i) hi)
        (fun a b c h1 h2 => by simp only [ltB, decide_eq_true_eq] at *; linarith)
        (fun a => by simp [ltB])
      unfold cSearchZ
      simp only [hfl, h1, h2, if_true, if_false, decide_false, Bool.false_and, Bool.false_eq_true]
      generalize cWalk ltB d z start = w at *
      simp only [ltB, decide_eq_false_iff_not, not_lt] at w2 w3
      by_cases hw : w = d.length - 1
      · rw [if_pos hw]
        refine ⟨_, _, rfl, locates_of_cell h (by omega) ?_ ?_⟩
        · exact le_trans (inc_le h (by omega) (by omega)) w2
        · rw [show w - 1 + 1 = d.length - 1 by omega]; exact h2'
      · rw [if_neg hw]
        exact ⟨_, _, rfl, locates_of_cell h (by omega) w2 (w3 (by omega))⟩
  · have hfl := last_lt_first h hl
    have hfl' := not_lt.mpr hfl.le
    have hnd : ¬ Increasing d := by
      intro hh; exact absurd (first_lt_last hh hl) (not_lt.mpr hfl.le)
    have e1 : BeforeFirst d z ↔ d.headD 0 < z := by simp [BeforeFirst, h, hnd]
    have e2 : BeyondLast d z ↔ z < d.getLastD 0 := by simp [BeyondLast, h, hnd]
    rw [e1, e2]
    refine ⟨?_, ?_, ?_⟩
    · intro hz; simp only [cSearchZ, hfl', hz, if_true, if_false]
    · intro hz
      have : ¬ d.headD 0 < z := by linarith
      simp only [cSearchZ, hfl', hz, this, if_true, if_false]
    · intro h1 h2
      have h1' := not_lt.mp h1
      have h2' := not_lt.mp h2
      rw [headD_getD] at h1'
      rw [getLastD_getD] at h2'
      obtain ⟨w1, w2, w3, _⟩ := cWalk_spec (lt := gtB) hl start hs (x := z) (by simpa [gtB] using h1')
        (fun i hi => by simpa [gtB] using dec_gt h (Nat.lt_succ_self i) hi)
        (fun a b c h1 h2 => by simp only [gtB, decide_eq_true_eq] at *; linarith)
        (fun a => by simp [gtB])
      unfold cSearchZ
      simp only [hfl', h1, h2, if_false]
      generalize cWalk gtB d z start = w at *
      simp only [gtB, decide_eq_false_iff_not, not_lt] at w2 w3
      by_cases hw : w = d.length - 1
      · rw [if_pos hw]
        refine ⟨_, _, rfl, locates_of_cell_dec h (by omega) ?_ ?_⟩
        · exact le_trans w2 (dec_ge h (by omega) (by omega))
        · rw [show w - 1 + 1 = d.length - 1 by omega]; exact h2'
      · rw [if_neg hw]
        exact ⟨_, _, rfl, locates_of_cell_dec h (by omega) w2 (w3 (by omega))⟩

example : cSearchZ [0, 10, 30, 70] false 20 3 = .ok (1, 1 / 2) ∧
    cSearchZ [0, -10, -30] false (-10) 0 = .ok (0, 1) := by decide +kernel

/-! ### Horizontal search (C24) -/

/-- A grid on which C24 speaks: flat mesh, no zonal halo, increasing axes with at least two nodes. -/
structure FlatGrid (g : RGrid) : Prop where
  flat : g.spherical = false
  noHalo : g.zonalPeriodic = false
  lonInc : Increasing g.lon
  lonLen : 2 ≤ g.lon.length
  latInc : Increasing g.lat
  latLen : 2 ≤ g.lat.length

/-- C24 (Scipy): on every flat rectilinear 2D grid, a position inside is located on both axes; a position outside is
reported as out of bounds. -/
theorem C24_scipy (g : RGrid) (hg : FlatGrid g) (h2d : g.depth.length ≤ 1) (x y z : ℚ) :
    (InRange g.lon x ∧ InRange g.lat y → ∃ p, searchRect g x y z = .ok p ∧
      Locates g.lon x p.xi p.xsi ∧ Locates g.lat y p.yi p.eta) ∧
    (¬ (InRange g.lon x ∧ InRange g.lat y) → searchRect g x y z = .error .outOfBounds) := by
  obtain ⟨hf, hz, lonInc, lonLen, latInc, latLen⟩ := hg
  rw [inRange_inc lonInc lonLen, inRange_inc latInc latLen]
  have hlen1 : 1 < g.lon.length := by omega
  have hlen2 : 1 < g.lat.length := by omega
  constructor
  · rintro ⟨⟨x1, x2⟩, y1, y2⟩
    obtain ⟨n, hn, ha, hb, hs⟩ := axisSearch_found lonInc lonLen x1 x2
    obtain ⟨m, hm, hc, hd, ht⟩ := axisSearch_found latInc latLen y1 y2
    have hlx := locates_of_cell lonInc hn ha hb
    have hly := locates_of_cell latInc hm hc hd
    have ux : inUnit ((x - g.lon.getD n 0) / (g.lon.getD (n + 1) 0 - g.lon.getD n 0)) = true := by
      exact inUnit_of_locates hlx
    have uy : inUnit ((y - g.lat.getD m 0) / (g.lat.getD (m + 1) 0 - g.lat.getD m 0)) = true := by
      exact inUnit_of_locates hly
    unfold searchRect
    rw [if_neg (by rw [minL_inc lonInc, maxL_inc lonInc]; rintro ⟨_, _, h | h⟩ <;> linarith)]
    rw [if_neg (by rw [minL_inc latInc, maxL_inc latInc]; rintro ⟨_, h | h⟩ <;> linarith)]
    have e1 : searchX g x = some ((n : ℤ), (x - g.lon.getD n 0) / (g.lon.getD (n + 1) 0 - g.lon.getD n 0)) := by
      simp only [searchX, if_pos hlen1, hf, cond_false, hs]
    have e2 : searchY g y = some ((m : ℤ), (y - g.lat.getD m 0) / (g.lat.getD (m + 1) 0 - g.lat.getD m 0)) := by
      simp only [searchY, if_pos hlen2, ht]
    have e3 : searchDepth g z = .ok (-1, 0) := by
      simp only [searchDepth]; rw [if_neg (by omega)]
    have u0 : inUnit 0 = true := by decide +kernel
    simp only [e1, e2, e3, ux, uy, u0, Bool.and_self, if_true]
    exact ⟨_, rfl, hlx, hly⟩
  · intro hout
    unfold searchRect
    by_cases hx : g.lon.getD 0 0 ≤ x ∧ x ≤ g.lon.getD (g.lon.length - 1) 0
    · rw [if_neg (by rw [minL_inc lonInc, maxL_inc lonInc]; rintro ⟨_, _, h | h⟩ <;> linarith [hx.1, hx.2])]
      rw [if_pos]
      refine ⟨hlen2, ?_⟩
      rw [minL_inc latInc, maxL_inc latInc]
      by_contra hh
      rw [not_or, not_lt, not_lt] at hh
      exact hout ⟨hx, hh⟩
    · rw [if_pos]
      refine ⟨hlen1, hz, ?_⟩
      rw [minL_inc lonInc, maxL_inc lonInc]
      by_contra hh
      rw [not_or, not_lt, not_lt] at hh
      exact hx hh

def exGrid : RGrid := { lon := [0, 1, 3, 10], lat := [-5, 5, 6], depth := [0], spherical := false,
                        zonalPeriodic := false, mom5 := false }

example : FlatGrid exGrid where
  flat := rfl
  noHalo := rfl
  lonInc := by unfold Increasing; decide +kernel
  lonLen := by decide
  latInc := by unfold Increasing; decide +kernel
  latLen := by decide

example : searchRect exGrid 2 (11 / 2) 0 = .ok ⟨1 / 2, 1 / 2, 0, 1, 1, -1⟩ ∧
    searchRect exGrid 3 5 0 = .ok ⟨1, 1, 0, 1, 0, -1⟩ ∧
    searchRect exGrid 11 5 0 = .error .outOfBounds := by decide +kernel

/-- C24 (Scipy), three dimensions: on a grid with a strictly monotone depth axis, a position inside is located on
all three axes; with horizontal position inside, before the first level through-surface is reported, beyond the
last level out-of-bounds. -/
theorem C24_scipy_3D (g : RGrid) (hg : FlatGrid g) (hd : Increasing g.depth ∨ Decreasing g.depth)
    (h3d : 2 ≤ g.depth.length) (hm5 : g.mom5 = false) (x y z : ℚ)
    (hx : InRange g.lon x) (hy : InRange g.lat y) :
    (BeforeFirst g.depth z → searchRect g x y z = .error .throughSurface) ∧
    (BeyondLast g.depth z → searchRect g x y z = .error .outOfBounds) ∧
    (¬ BeforeFirst g.depth z → ¬ BeyondLast g.depth z → ∃ p, searchRect g x y z = .ok p ∧
      Locates g.lon x p.xi p.xsi ∧ Locates g.lat y p.yi p.eta ∧ Locates g.depth z p.zi p.zeta) := by
  obtain ⟨hf, hz, lonInc, lonLen, latInc, latLen⟩ := hg
  rw [inRange_inc lonInc lonLen] at hx
  rw [inRange_inc latInc latLen] at hy
  obtain ⟨n, hn, ha, hb, hs⟩ := axisSearch_found lonInc lonLen hx.1 hx.2
  obtain ⟨m, hm, hc, hdd, ht⟩ := axisSearch_found latInc latLen hy.1 hy.2
  have hlx := locates_of_cell lonInc hn ha hb
  have hly := locates_of_cell latInc hm hc hdd
  have ux : inUnit ((x - g.lon.getD n 0) / (g.lon.getD (n + 1) 0 - g.lon.getD n 0)) = true := by
    exact inUnit_of_locates hlx
  have uy : inUnit ((y - g.lat.getD m 0) / (g.lat.getD (m + 1) 0 - g.lat.getD m 0)) = true := by
    exact inUnit_of_locates hly
  have e1 : searchX g x = some ((n : ℤ), (x - g.lon.getD n 0) / (g.lon.getD (n + 1) 0 - g.lon.getD n 0)) := by
    simp only [searchX, if_pos (show 1 < g.lon.length by omega), hf, cond_false, hs]
  have e2 : searchY g y = some ((m : ℤ), (y - g.lat.getD m 0) / (g.lat.getD (m + 1) 0 - g.lat.getD m 0)) := by
    simp only [searchY, if_pos (show 1 < g.lat.length by omega), ht]
  have e3 : searchDepth g z = searchZ g.depth false z := by
    simp only [searchDepth, if_pos (show 1 < g.depth.length by omega), hm5]
  have hstart : searchRect g x y z =
      match searchZ g.depth false z with
      | .error e => .error e
      | .ok (zi, zeta) =>
        if inUnit zeta then .ok ⟨(x - g.lon.getD n 0) / (g.lon.getD (n + 1) 0 - g.lon.getD n 0),
          (y - g.lat.getD m 0) / (g.lat.getD (m + 1) 0 - g.lat.getD m 0), zeta, n, m, zi⟩ else .error .sampling := by
    unfold searchRect
    rw [if_neg (by rw [minL_inc lonInc, maxL_inc lonInc]; rintro ⟨_, _, h | h⟩ <;> linarith)]
    rw [if_neg (by rw [minL_inc latInc, maxL_inc latInc]; rintro ⟨_, h | h⟩ <;> linarith)]
    simp only [e1, e2, e3, ux, uy, Bool.and_self, Bool.true_and]
    rcases searchZ g.depth false z with e | ⟨i, r⟩ <;> rfl
  obtain ⟨c1, c2, c3⟩ := C25_z_levels_scipy g.depth hd h3d z
  refine ⟨?_, ?_, ?_⟩
  · intro h; rw [hstart, c1 h]
  · intro h; rw [hstart, c2 h]
  · intro h1 h2
    obtain ⟨i, r, hr, hloc⟩ := c3 h1 h2
    have uz : inUnit r = true := by
      exact inUnit_of_locates hloc
    rw [hstart, hr]
    simp only [uz, if_true]
    exact ⟨_, rfl, hlx, hly, hloc⟩

example : searchRect { exGrid with depth := [0, 10, 30] } 2 0 20 = .ok ⟨1 / 2, 1 / 2, 1 / 2, 1, 0, 1⟩ := by
  decide +kernel

theorem cAxis_locates {l : List ℚ} (hl : Increasing l) (hlen : 2 ≤ l.length) {v : ℚ} {s : Nat} (hs : s + 1 < l.length)
    (h1 : l.getD 0 0 ≤ v) (h2 : v ≤ l.getD (l.length - 1) 0) :
    Locates l v ((cAxis l v s).1 : Nat) (cAxis l v s).2 := by
  obtain ⟨w1, w2, w3, w4⟩ := cWalk_spec (lt := ltB) hlen s (by omega) (x := v) (by simpa [ltB] using h1)
    (fun i hi => by simpa [ltB] using inc_lt hl (Nat.lt_succ_self i) hi)
    (fun a b c h1 h2 => by simp only [ltB, decide_eq_true_eq] at *; linarith)
    (fun a => by simp [ltB])
  have hw := w4 (by omega) (by simpa [ltB] using h2)
  unfold cAxis
  rw [if_neg (by omega)]
  simp only [ltB, decide_eq_false_iff_not, not_lt] at w2 w3
  exact locates_of_cell hl (by omega) w2 (w3 hw)

/-- C24 (JIT): the C search, started from any cell of the grid, locates every position inside and reports the
others as out of bounds. -/
theorem C24_jit (g : RGrid) (hg : FlatGrid g) (h2d : g.depth.length ≤ 1) (x y z : ℚ) (xi yi zi : Nat)
    (hxi : xi + 1 < g.lon.length) (hyi : yi + 1 < g.lat.length) :
    (InRange g.lon x ∧ InRange g.lat y → ∃ p, cSearchRect g x y z xi yi zi = .ok p ∧
      Locates g.lon x p.xi p.xsi ∧ Locates g.lat y p.yi p.eta) ∧
    (¬ (InRange g.lon x ∧ InRange g.lat y) → cSearchRect g x y z xi yi zi = .error .outOfBounds) := by
  obtain ⟨hf, hz, lonInc, lonLen, latInc, latLen⟩ := hg
  rw [inRange_inc lonInc lonLen, inRange_inc latInc latLen]
  constructor
  · rintro ⟨⟨x1, x2⟩, y1, y2⟩
    have hlx := cAxis_locates lonInc lonLen hxi x1 x2
    have hly := cAxis_locates latInc latLen hyi y1 y2
    have ux : inUnit (cAxis g.lon x xi).2 = true := by
      exact inUnit_of_locates hlx
    have uy : inUnit (cAxis g.lat y yi).2 = true := by
      exact inUnit_of_locates hly
    have u0 : inUnit 0 = true := by decide +kernel
    unfold cSearchRect
    rw [if_neg (by rw [minL_inc lonInc, maxL_inc lonInc]; rintro ⟨_, _, h | h⟩ <;> linarith)]
    rw [if_neg (by rw [minL_inc latInc, maxL_inc latInc]; rintro ⟨_, h | h⟩ <;> linarith)]
    have e1 : cSearchX g x xi = .ok (((cAxis g.lon x xi).1 : Nat), (cAxis g.lon x xi).2) := by
      unfold cSearchX
      rw [if_neg (by omega), hf, cond_false]
    have e3 : ¬ 1 < g.depth.length := by omega
    simp only [e1, if_neg e3, ux, uy, u0, Bool.and_self, if_true]
    exact ⟨_, rfl, hlx, hly⟩
  · intro hout
    unfold cSearchRect
    by_cases hx : g.lon.getD 0 0 ≤ x ∧ x ≤ g.lon.getD (g.lon.length - 1) 0
    · rw [if_neg (by rw [minL_inc lonInc, maxL_inc lonInc]; rintro ⟨_, _, h | h⟩ <;> linarith [hx.1, hx.2])]
      rw [if_pos]
      refine ⟨by omega, ?_⟩
      rw [minL_inc latInc, maxL_inc latInc]
      by_contra hh
      rw [not_or, not_lt, not_lt] at hh
      exact hout ⟨hx, hh⟩
    · rw [if_pos]
      refine ⟨hz, by omega, ?_⟩
      rw [minL_inc lonInc, maxL_inc lonInc]
      by_contra hh
      rw [not_or, not_lt, not_lt] at hh
      exact hx hh

/-- On a node, the C search may return the neighbouring cell: from the east, cell 2 instead of cell 1. -/
example : cSearchRect exGrid 2 (11 / 2) 0 0 0 0 = .ok ⟨1 / 2, 1 / 2, 0, 1, 1, 0⟩ ∧
    cSearchRect exGrid 3 5 0 2 1 0 = .ok ⟨0, 0, 0, 2, 1, 0⟩ ∧
    cSearchRect exGrid 11 5 0 0 0 0 = .error .outOfBounds := by decide +kernel

/-- C24 (JIT), three dimensions. -/
theorem C24_jit_3D (g : RGrid) (hg : FlatGrid g) (hd : Increasing g.depth ∨ Decreasing g.depth)
    (h3d : 2 ≤ g.depth.length) (hm5 : g.mom5 = false) (x y z : ℚ) (xi yi zi : Nat)
    (hxi : xi + 1 < g.lon.length) (hyi : yi + 1 < g.lat.length) (hzi : zi ≤ g.depth.length - 1)
    (hx : InRange g.lon x) (hy : InRange g.lat y) :
    (BeforeFirst g.depth z → cSearchRect g x y z xi yi zi = .error .throughSurface) ∧
    (BeyondLast g.depth z → cSearchRect g x y z xi yi zi = .error .outOfBounds) ∧
    (¬ BeforeFirst g.depth z → ¬ BeyondLast g.depth z → ∃ p, cSearchRect g x y z xi yi zi = .ok p ∧
      Locates g.lon x p.xi p.xsi ∧ Locates g.lat y p.yi p.eta ∧ Locates g.depth z p.zi p.zeta) := by
  obtain ⟨hf, hz, lonInc, lonLen, latInc, latLen⟩ := hg
  rw [inRange_inc lonInc lonLen] at hx
  rw [inRange_inc latInc latLen] at hy
  have hlx := cAxis_locates lonInc lonLen hxi hx.1 hx.2
  have hly := cAxis_locates latInc latLen hyi hy.1 hy.2
  have ux := inUnit_of_locates hlx
  have uy := inUnit_of_locates hly
  have e1 : cSearchX g x xi = .ok (((cAxis g.lon x xi).1 : Nat), (cAxis g.lon x xi).2) := by
    unfold cSearchX
    rw [if_neg (by omega), hf, cond_false]
  have hstart : cSearchRect g x y z xi yi zi =
      match cSearchZ g.depth false z zi with
      | .error e => .error e
      | .ok (k, zeta) =>
        if inUnit zeta then .ok ⟨(cAxis g.lon x xi).2, (cAxis g.lat y yi).2, zeta, ((cAxis g.lon x xi).1 : Nat),
          ((cAxis g.lat y yi).1 : Nat), k⟩ else .error .sampling := by
    unfold cSearchRect
    rw [if_neg (by rw [minL_inc lonInc, maxL_inc lonInc]; rintro ⟨_, _, h | h⟩ <;> linarith)]
    rw [if_neg (by rw [minL_inc latInc, maxL_inc latInc]; rintro ⟨_, h | h⟩ <;> linarith)]
    simp only [e1, if_pos (show 1 < g.depth.length by omega), hm5, ux, uy, Bool.and_self, Bool.true_and]
    rcases cSearchZ g.depth false z zi with e | ⟨i, r⟩ <;> rfl
  obtain ⟨c1, c2, c3⟩ := C25_z_levels_jit g.depth hd h3d z zi hzi
  refine ⟨?_, ?_, ?_⟩
  · intro h; rw [hstart, c1 h]
  · intro h; rw [hstart, c2 h]
  · intro h1 h2
    obtain ⟨i, r, hr, hloc⟩ := c3 h1 h2
    have uz := inUnit_of_locates hloc
    rw [hstart, hr]
    simp only [uz, if_true]
    exact ⟨_, rfl, hlx, hly, hloc⟩

example : cSearchRect { exGrid with depth := [0, 10, 30] } 2 0 20 2 0 0 = .ok ⟨1 / 2, 1 / 2, 1 / 2, 1, 0, 1⟩ := by
  decide +kernel

/-- C24: two ways of locating the same coordinate (Scipy and JIT, or JIT from two starting cells) give the same
cell and relative coordinate, or x is the node shared by two neighbouring cells. -/
theorem C24_scipy_and_jit_agree (l : List ℚ) (hl : Increasing l) (x : ℚ) (i j : ℤ) (r s : ℚ)
    (h1 : Locates l x i r) (h2 : Locates l x j s) :
    (i = j ∧ r = s) ∨ (j = i + 1 ∧ r = 1 ∧ s = 0) ∨ (i = j + 1 ∧ s = 1 ∧ r = 0) :=
  locates_agree hl h1 h2

/-- C24 is false for a flat grid that was given a zonal halo (`add_periodic_halo(zonal=True)`): the range check is
off, and in Scipy mode a position east of the axis raises IndexError instead of being reported out of bounds. -/
theorem C24_zonal_halo_index_error :
    searchRect { exGrid with zonalPeriodic := true } 11 0 0 = .error .index := by decide +kernel

end Parcels.Search
