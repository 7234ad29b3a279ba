import Verif.Proofs.SLevels

/-!
C74: sampling on terrain-following levels that may move in time; C25 for these levels in JIT mode.
-/

namespace Parcels.SLevels
open Parcels.Search Parcels.TimeInterp Parcels.Interp

/-- C25 (JIT, terrain-following levels), for the column of depths at the particle, whatever level it was in before. -/
theorem C25_s_levels_jit (d : List ℚ) (hd : Increasing d ∨ Decreasing d) (hl : 2 ≤ d.length) (z : ℚ)
    (start : Nat) (hs : start ≤ d.length - 1) :
    (BeforeFirst d z → cSearchS d z start = .error .throughSurface) ∧
    (BeyondLast d z → cSearchS d z start = .error .outOfBounds) ∧
    (¬ BeforeFirst d z → ¬ BeyondLast d z → ∃ i r, cSearchS d z start = .ok (i, r) ∧ Locates d z i r) := by
  simp only [cSearchS_eq]
  exact C25_z_levels_jit d hd hl z start hs

example : cSearchS [0, 20, 40] 25 2 = .ok (1, 1 / 4) ∧ cSearchS [0, 20, 40] 41 0 = .error .outOfBounds ∧
    cSearchS [0, -20, -40] (-40) 0 = .ok (1, 1) := by decide +kernel

/-- A column between columns that get deeper from level to level gets deeper from level to level: at every position, and at every
time between the snapshots. (Likewise for depths that count upwards.) So the levels have the order that C74 asks for. -/
theorem C74_levels_ordered (g : SGrid) (i : Nat) (w : ℚ) (m n : Nat) (s r : ℚ) (hw : 0 ≤ w ∧ w ≤ 1) (hs : 0 ≤ s ∧ s ≤ 1)
    (hr : 0 ≤ r ∧ r ≤ 1) :
    ((∀ u j c k k', k < k' → (g.depths (i + u)).v k (m + j) (n + c) < (g.depths (i + u)).v k' (m + j) (n + c)) →
      Increasing (g.levels i w m n s r)) ∧
    ((∀ u j c k k', k < k' → (g.depths (i + u)).v k' (m + j) (n + c) < (g.depths (i + u)).v k (m + j) (n + c)) →
      Decreasing (g.levels i w m n s r)) := by
  have mix : ∀ {p a b a' b' : ℚ}, 0 ≤ p → p ≤ 1 → a < a' → b < b' → lerp p a b < lerp p a' b' := by
    intro p a b a' b' h0 h1 ha hb
    unfold lerp
    rcases eq_or_lt_of_le h0 with h | h
    · subst h; linarith
    · have := mul_pos h (sub_pos.mpr hb)
      have := mul_nonneg (sub_nonneg.mpr h1) (sub_pos.mpr ha).le
      nlinarith
  unfold SGrid.levels Increasing Decreasing
  constructor <;> intro h <;> rw [List.pairwise_map] <;> refine List.Pairwise.imp ?_ (List.pairwise_lt_range) <;> intro k k' hk <;>
    unfold bilinearAt <;>
    exact mix hw.1 hw.2
      (mix hs.1 hs.2 (mix hr.1 hr.2 (by simpa using h 0 0 0 k k' hk) (by simpa using h 0 0 1 k k' hk))
        (mix hr.1 hr.2 (by simpa using h 0 1 0 k k' hk) (by simpa using h 0 1 1 k k' hk)))
      (mix hs.1 hs.2 (mix hr.1 hr.2 (by simpa using h 1 0 0 k k' hk) (by simpa using h 1 0 1 k k' hk))
        (mix hr.1 hr.2 (by simpa using h 1 1 0 k k' hk) (by simpa using h 1 1 1 k k' hk)))

/-- C74 (Scipy): on every flat grid with terrain-following levels, fixed or moving in time, for every position and time (extrapolated in
time if that is allowed), a sample is interpolated linearly in the cell, between the two levels around the particle where they are at that
time, and in time. Above the first level it is a through-surface error, below the last an out-of-bounds error.
Missing: indexing of MOM5 and POP, spherical and curvilinear grids; the other methods. -/
theorem C74_scipy_partial (g : SGrid) (hg : FlatGrid g.hor) (T : List ℚ) (hT : Increasing T) (hnd : g.z4d = true → g.ndep = T.length)
    (hz : 2 ≤ g.zdim) (extrap : Bool) (ix : Indexing) (hix : ix = .nemo ∨ ix = .mitgcm) (data : Nat → Arr) (t x y z : ℚ) (i n m : Nat)
    (w r s : ℚ) (ht : TimeAt T extrap t i w) (hx : Locates g.hor.lon x n r) (hy : Locates g.hor.lat y m s)
    (hL : Increasing (g.levels i w m n s r) ∨ Decreasing (g.levels i w m n s r)) :
    Samples (g.levels i w m n s r) z (valueAt data i w m n s r) (evalS g (TAxis.full T false extrap) ix .linear data t x y z) :=
  evalS_samples hg hT hnd hz extrap ix hix data ht hx hy hL z

/-- C74 (JIT): the same, whatever cell, level and snapshot the particle was in before. Missing: as above. -/
theorem C74_jit_partial (g : SGrid) (hg : FlatGrid g.hor) (T : List ℚ) (hT : Increasing T)
    (hz : 2 ≤ g.zdim) (extrap : Bool) (ix : Indexing) (hix : ix = .nemo ∨ ix = .mitgcm) (data : Nat → Arr) (hfit : ∀ j, FitsS (data j) g)
    (t x y z : ℚ) (i n m : Nat) (w r s : ℚ) (ht : TimeAt T extrap t i w) (hx : Locates g.hor.lon x n r) (hy : Locates g.hor.lat y m s)
    (hL : Increasing (g.levels i w m n s r) ∨ Decreasing (g.levels i w m n s r)) (xi yi zi : Nat)
    (hxi : xi + 1 < g.hor.lon.length) (hyi : yi + 1 < g.hor.lat.length) (hzi : zi < g.zdim) (fuel : Nat) (ti : ℤ) (hti : ti < T.length) :
    ∃ res, cEvalS g (TAxis.full T false extrap) ix .linear data (fuel + 1) t x y z xi yi zi ti = some res ∧
      Samples (g.levels i w m n s r) z (valueAt data i w m n s r) res :=
  cEvalS_samples hg hT hz extrap ix hix data hfit ht hx hy hL z hxi hyi hzi fuel ti hti

/-- C74: Scipy mode and JIT mode give the same value or the same error. -/
theorem C74_modes_agree (g : SGrid) (hg : FlatGrid g.hor) (T : List ℚ) (hT : Increasing T) (hnd : g.z4d = true → g.ndep = T.length)
    (hz : 2 ≤ g.zdim) (extrap : Bool) (ix : Indexing) (hix : ix = .nemo ∨ ix = .mitgcm) (data : Nat → Arr) (hfit : ∀ j, FitsS (data j) g)
    (t x y z : ℚ) (i n m : Nat) (w r s : ℚ) (ht : TimeAt T extrap t i w) (hx : Locates g.hor.lon x n r) (hy : Locates g.hor.lat y m s)
    (hL : Increasing (g.levels i w m n s r) ∨ Decreasing (g.levels i w m n s r)) (xi yi zi : Nat)
    (hxi : xi + 1 < g.hor.lon.length) (hyi : yi + 1 < g.hor.lat.length) (hzi : zi < g.zdim) (fuel : Nat) (ti : ℤ) (hti : ti < T.length) :
    cEvalS g (TAxis.full T false extrap) ix .linear data (fuel + 1) t x y z xi yi zi ti =
      some (evalS g (TAxis.full T false extrap) ix .linear data t x y z) := by
  have h1 := C74_scipy_partial g hg T hT hnd hz extrap ix hix data t x y z i n m w r s ht hx hy hL
  obtain ⟨res, hres, h2⟩ := C74_jit_partial g hg T hT hz extrap ix hix data hfit t x y z i n m w r s ht hx hy hL xi yi zi hxi hyi hzi
    fuel ti hti
  rw [hres]
  congr 1
  have hlen : 2 ≤ (g.levels i w m n s r).length := by rw [levels_length]; exact hz
  by_cases b1 : BeforeFirst (g.levels i w m n s r) z
  · rw [h1.1 b1, h2.1 b1]
  by_cases b2 : BeyondLast (g.levels i w m n s r) z
  · rw [h1.2.1 b2, h2.2.1 b2]
  obtain ⟨k, q, _, hk⟩ := (C25_s_levels_scipy _ hL hlen z).2.2 b1 b2
  obtain ⟨k', e, _⟩ := locates_nat hk
  subst e
  rw [h1.2.2 k' q hk, h2.2.2 k' q hk]

/-- C74: a field that is linear in longitude, latitude, depth and time is sampled exactly, although the levels are curved and move. In
particular the field of the depths gives the depth of the particle. -/
theorem C74_linear_exact (g : SGrid) (T : List ℚ) (data : Nat → Arr) (a b c d e : ℚ)
    (hd : ∀ j k v u tj lat lon, T[j]? = some tj → g.hor.lat[v]? = some lat → g.hor.lon[u]? = some lon →
      (data j).v k v u = a + b * lon + c * lat + d * (g.depths j).v k v u + e * tj)
    (t x y z : ℚ) (i n m k : Nat) (w r s q : ℚ) (ht : Locates T t i w) (hx : Locates g.hor.lon x n r) (hy : Locates g.hor.lat y m s)
    (hz : Locates (g.levels i w m n s r) z k q) :
    valueAt data i w m n s r k q = a + b * x + c * y + d * z + e * t := by
  obtain ⟨i', t0, t1, hi, ht0, ht1, _, _, et⟩ := ht
  obtain ⟨n', u0, u1, hn, hu0, hu1, _, _, ex⟩ := hx
  obtain ⟨m', v0, v1, hm, hv0, hv1, _, _, ey⟩ := hy
  obtain ⟨k', z0, z1, hk, hz0, hz1, _, _, ez⟩ := hz
  obtain rfl : i = i' := by exact_mod_cast hi
  obtain rfl : n = n' := by exact_mod_cast hn
  obtain rfl : m = m' := by exact_mod_cast hm
  obtain rfl : k = k' := by exact_mod_cast hk
  have lev : ∀ k z, (g.levels i w m n s r)[k]? = some z →
      z = lerp w (bilinearAt (g.depths i) k m n s r) (bilinearAt (g.depths (i + 1)) k m n s r) := by
    intro k z h
    unfold SGrid.levels at h
    rw [List.getElem?_map, Option.map_eq_some_iff] at h
    obtain ⟨k', hk', rfl⟩ := h
    obtain ⟨h1, h2⟩ := List.getElem?_eq_some_iff.mp hk'
    rw [List.getElem_range] at h2
    rw [h2]
  have l0 := lev k z0 hz0
  have l1 := lev (k + 1) z1 hz1
  rw [ez, l0, l1, ex, ey, et]
  unfold valueAt trilinearAt bilinearAt lerp
  rw [hd _ k _ _ _ _ _ ht0 hv0 hu0, hd _ k _ _ _ _ _ ht0 hv0 hu1, hd _ k _ _ _ _ _ ht0 hv1 hu0, hd _ k _ _ _ _ _ ht0 hv1 hu1,
    hd _ (k + 1) _ _ _ _ _ ht0 hv0 hu0, hd _ (k + 1) _ _ _ _ _ ht0 hv0 hu1, hd _ (k + 1) _ _ _ _ _ ht0 hv1 hu0,
    hd _ (k + 1) _ _ _ _ _ ht0 hv1 hu1,
    hd _ k _ _ _ _ _ ht1 hv0 hu0, hd _ k _ _ _ _ _ ht1 hv0 hu1, hd _ k _ _ _ _ _ ht1 hv1 hu0, hd _ k _ _ _ _ _ ht1 hv1 hu1,
    hd _ (k + 1) _ _ _ _ _ ht1 hv0 hu0, hd _ (k + 1) _ _ _ _ _ ht1 hv0 hu1, hd _ (k + 1) _ _ _ _ _ ht1 hv1 hu0,
    hd _ (k + 1) _ _ _ _ _ ht1 hv1 hu1]
  ring

/-- C74: a sample is never outside the range of the sixteen values around it in space and time. -/
theorem C74_between (data : Nat → Arr) (i m n k : Nat) (w s r q lo hi : ℚ) (hw : 0 ≤ w ∧ w ≤ 1) (hs : 0 ≤ s ∧ s ≤ 1)
    (hr : 0 ≤ r ∧ r ≤ 1) (hq : 0 ≤ q ∧ q ≤ 1)
    (h : ∀ p c j u, p ≤ 1 → c ≤ 1 → j ≤ 1 → u ≤ 1 → lo ≤ (data (i + p)).v (k + c) (m + j) (n + u) ∧ (data (i + p)).v (k + c) (m + j) (n + u) ≤ hi) :
    lo ≤ valueAt data i w m n s r k q ∧ valueAt data i w m n s r k q ≤ hi := by
  obtain ⟨a1, a2⟩ := C29_between_3D (data i) k m n q s r lo hi hq hs hr (fun c j u h1 h2 h3 => h 0 c j u (by omega) h1 h2 h3)
  obtain ⟨b1, b2⟩ := C29_between_3D (data (i + 1)) k m n q s r lo hi hq hs hr (fun c j u h1 h2 h3 => h 1 c j u (by omega) h1 h2 h3)
  unfold valueAt lerp
  constructor <;> nlinarith

/-- Levels that follow the bottom and sink: the depth of level `k` at snapshot `j` is `k (10 + 2 i) + j`. -/
def exS : SGrid :=
  { hor := { lon := [0, 1, 3], lat := [0, 2], depth := [], spherical := false, zonalPeriodic := false, mom5 := false }
    zdim := 3, z4d := true, ndep := 3
    dep := fun j => { nz := 3, ny := 2, nx := 3, v := fun k _ i => k * (10 + 2 * i) + j } }
/-- The field of the depths. -/
def exDepth (j : Nat) : Arr := exS.dep j

example : exS.levels 0 (1 / 2) 0 1 0 (1 / 2) = [1 / 2, 27 / 2, 53 / 2] ∧
    evalS exS (TAxis.full [0, 10, 20] false true) .nemo .linear exDepth 5 2 0 20 = .ok 20 ∧
    cEvalS exS (TAxis.full [0, 10, 20] false true) .nemo .linear exDepth 1 5 2 0 20 0 0 2 2 = some (.ok 20) ∧
    evalS exS (TAxis.full [0, 10, 20] false true) .nemo .linear exDepth 5 2 0 0 = .error (.space .throughSurface) ∧
    cEvalS exS (TAxis.full [0, 10, 20] false true) .nemo .linear exDepth 1 5 2 0 27 0 0 0 (-1) = some (.error (.space .outOfBounds)) ∧
    evalS exS (TAxis.full [0, 10, 20] false true) .nemo .linear exDepth 99 2 0 20 = .ok 20 := by decide +kernel
example : FlatGrid exS.hor ∧ Locates [0, 10, 20] 5 (0 : Nat) (1 / 2) ∧ Locates exS.hor.lon 2 (1 : Nat) (1 / 2) ∧
    Increasing (exS.levels 0 (1 / 2) 0 1 0 (1 / 2)) ∧ FitsS (exDepth 2) exS := by
  refine ⟨⟨rfl, rfl, by unfold Increasing exS; decide +kernel, by decide, by unfold Increasing exS; decide +kernel, by decide⟩,
    ⟨0, 0, 10, rfl, rfl, rfl, by norm_num, by norm_num, by norm_num⟩, ⟨1, 1, 3, rfl, rfl, rfl, by norm_num, by norm_num, by norm_num⟩, ?_,
    ⟨rfl, rfl, rfl⟩⟩
  unfold Increasing; decide +kernel

/-- C74 is false for a periodic field on moving levels whose series is shorter than the period: the constructor appends a time and a
snapshot of the data, but no depths, so that every sample from the last snapshot on until the end of the period is an IndexError in Scipy mode. -/
theorem C74_periodic_fails (g : SGrid) (hg : FlatGrid g.hor) (hz4 : g.z4d = true) (T : List ℚ) (hT : Increasing T) (hne : T ≠ [])
    (hnd : g.ndep = T.length) (P : ℚ) (hP : T.getLastD 0 < T.headD 0 + P) (extrap : Bool) (ix : Indexing) (m : Method)
    (data : Nat → Arr) (t x y z : ℚ) (ht : T.getLastD 0 ≤ t ∧ t < T.headD 0 + P) (hx : InRange g.hor.lon x) (hy : InRange g.hor.lat y) :
    evalS g (TAxis.periodicOf T.length (T ++ [T.headD 0 + P]) extrap) ix m data t x y z = .error .index := by
  have hlen : 1 ≤ T.length := List.length_pos_iff.mpr hne
  have hAl : (T ++ [T.headD 0 + P]).length = T.length + 1 := by simp
  have hA : Increasing (T ++ [T.headD 0 + P]) := by
    unfold Increasing
    rw [List.pairwise_append]
    refine ⟨hT, by simp, ?_⟩
    intro a ha b hb
    rw [List.mem_singleton] at hb
    subst hb
    obtain ⟨j, hj, rfl⟩ := List.getElem_of_mem ha
    have := inc_le hT (show j ≤ T.length - 1 by omega) (by omega)
    rw [List.getD_eq_getElem T 0 hj, ← getLastD_getD] at this
    linarith
  have hAn : (T ++ [T.headD 0 + P]).getD (T.length - 1) 0 = T.getLastD 0 := by
    rw [getLastD_getD, List.getD_append _ _ _ _ (by omega)]
  have hAlast : (T ++ [T.headD 0 + P]).getD T.length 0 = T.headD 0 + P := by
    rw [List.getD_append_right _ _ _ _ (le_refl _)]; simp
  have h0 : (T ++ [T.headD 0 + P]).getD 0 0 ≤ t := by
    refine le_trans (inc_le hA (Nat.zero_le (T.length - 1)) (by omega)) ?_
    rw [hAn]; exact ht.1
  obtain ⟨n0, hidx, hn1, h1, h2⟩ := timeIndex_inside hA true extrap h0 (by rw [hAl, Nat.add_sub_cancel, hAlast]; exact ht.2)
  have hn0 : n0 = T.length - 1 := by
    rcases Nat.lt_trichotomy n0 (T.length - 1) with h | h | h
    · have := inc_le hA (show n0 + 1 ≤ T.length - 1 by omega) (by omega)
      rw [hAn] at this
      linarith [ht.1]
    · exact h
    · omega
  have hidx' : timeIndex (TAxis.periodicOf T.length (T ++ [T.headD 0 + P]) extrap) t = .ok ((n0 : ℤ), 0) := hidx
  have et : (TAxis.periodicOf T.length (T ++ [T.headD 0 + P]) extrap).time = T ++ [T.headD 0 + P] := rfl
  have ed : (TAxis.periodicOf T.length (T ++ [T.headD 0 + P]) extrap).tdim = T.length := rfl
  unfold evalS
  rw [hidx']
  simp only [et, ed, wrapIdx_nat]
  rw [if_neg (by rintro ⟨h, _⟩; omega)]
  have hxr := (inRange_inc hg.lonInc hg.lonLen x).mp hx
  have hyr := (inRange_inc hg.latInc hg.latLen y).mp hy
  obtain ⟨n', _, _, _, hs⟩ := axisSearch_found hg.lonInc hg.lonLen hxr.1 hxr.2
  obtain ⟨m', _, _, _, hs'⟩ := axisSearch_found hg.latInc hg.latLen hyr.1 hyr.2
  have e1 : searchX g.hor x = some ((n' : ℤ), (x - g.hor.lon.getD n' 0) / (g.hor.lon.getD (n' + 1) 0 - g.hor.lon.getD n' 0)) := by
    have := hg.lonLen
    simp only [searchX, if_pos (show 1 < g.hor.lon.length by omega), hg.flat, cond_false, hs]
  have e2 : searchY g.hor y = some ((m' : ℤ), (y - g.hor.lat.getD m' 0) / (g.hor.lat.getD (m' + 1) 0 - g.hor.lat.getD m' 0)) := by
    have := hg.latLen
    simp only [searchY, if_pos (show 1 < g.hor.lat.length by omega), hs']
  have ec : ∀ xi yi xsi eta, pyColumn g (T ++ [T.headD 0 + P]) m n0 ((T ++ [T.headD 0 + P]).getD n0 0) xi yi xsi eta = .error .index := by
    intro xi yi xsi eta
    unfold pyColumn
    simp only [wrapIdx_nat, if_neg (lt_irrefl _), hz4, if_true]
    rw [if_neg (by omega), if_neg (by rintro ⟨_, h⟩; omega)]
  unfold sampleS searchRectS
  rw [if_neg (by rw [minL_inc hg.lonInc, maxL_inc hg.lonInc]; rintro ⟨_, _, h | h⟩ <;> linarith)]
  rw [if_neg (by rw [minL_inc hg.latInc, maxL_inc hg.latInc]; rintro ⟨_, h | h⟩ <;> linarith)]
  simp only [e1, e2, ec]

/-- A series of three snapshots in a period of 30, at the time of the last. -/
example : periodicAxis [0, 10, 20] 30 = some ([0, 10, 20, 30], true) ∧
    evalS exS (TAxis.periodicOf 3 [0, 10, 20, 30] true) .nemo .linear exDepth 20 2 0 20 = .error .index ∧
    evalS exS (TAxis.periodicOf 3 [0, 10, 20, 30] true) .nemo .linear exDepth 15 2 0 20 = .ok 20 := by decide +kernel

end Parcels.SLevels
