import Verif.Spec.SLevels
import Verif.Props.Interp
import Verif.Proofs.TimeInterp

/-!
Lemmas for C74.
-/

namespace Parcels.SLevels
open Parcels.Search Parcels.TimeInterp Parcels.Interp

theorem locates_neg {l : List ℚ} {x : ℚ} {n : Nat} {r : ℚ} (h : Locates l x n r) :
    Locates (l.map fun v => -v) (-x) n r := by
  obtain ⟨k, a, b, e, ha, hb, h0, h1, hx⟩ := h
  refine ⟨k, -a, -b, e, ?_, ?_, h0, h1, ?_⟩
  · rw [List.getElem?_map, ha]; rfl
  · rw [List.getElem?_map, hb]; rfl
  · rw [hx]; ring

theorem inc_neg {l : List ℚ} (h : Decreasing l) : Increasing (l.map fun v => -v) := by
  unfold Increasing
  rw [List.pairwise_map]
  exact List.Pairwise.imp (fun h => by simpa using h) h

theorem lin_unique_mono {l : List ℚ} (hl : Increasing l ∨ Decreasing l) {x : ℚ} {n m : Nat} {r s : ℚ}
    (h1 : Locates l x n r) (h2 : Locates l x m s) (f : Nat → ℚ) :
    (1 - r) * f n + r * f (n + 1) = (1 - s) * f m + s * f (m + 1) := by
  rcases hl with hl | hl
  · exact lin_unique hl h1 h2 f
  · exact lin_unique (inc_neg hl) (locates_neg h1) (locates_neg h2) f

theorem mono_cases {L : List ℚ} (hL : Increasing L ∨ Decreasing L) {z : ℚ} {k : Nat} {q : ℚ} (h : Locates L z k q) :
    ¬ BeforeFirst L z ∧ ¬ BeyondLast L z := by
  rcases hL with h' | h'
  · exact dep_cases h' h
  · have hlen : 2 ≤ L.length := by obtain ⟨_, _, _⟩ := locates_nat h; omega
    have hni : ¬ Increasing L := by
      intro hh; exact absurd (last_lt_first h' hlen) (not_lt.mpr (first_lt_last hh hlen).le)
    have hneg := (inRange_inc (inc_neg h') (by simpa using hlen) (-z)).mp
      (locates_inRange (inc_neg h') (locates_neg h))
    have e : ∀ j, j < L.length → (L.map fun v => -v).getD j 0 = -(L.getD j 0) := by
      intro j hj
      rw [List.getD_eq_getElem _ 0 (by simpa using hj), List.getD_eq_getElem _ 0 hj, List.getElem_map]
    rw [List.length_map, e 0 (by omega), e _ (by omega)] at hneg
    constructor
    · rintro (⟨h1, _⟩ | ⟨_, h1⟩)
      · exact hni h1
      · rw [headD_getD] at h1; linarith [hneg.1]
    · rintro (⟨h1, _⟩ | ⟨_, h1⟩)
      · exact hni h1
      · rw [getLastD_getD] at h1; linarith [hneg.2]

/-- The C search between s-levels is the C search between z-levels. -/
theorem cSearchS_eq (d : List ℚ) (z : ℚ) (start : Nat) : cSearchS d z start = cSearchZ d false z start := by
  unfold cSearchS cSearchZ
  simp only [Bool.and_false, Bool.false_and, Bool.false_eq_true, if_false]

theorem levels_length (g : SGrid) (i : Nat) (w : ℚ) (m n : Nat) (s r : ℚ) : (g.levels i w m n s r).length = g.zdim := by
  unfold SGrid.levels; simp

/-- A column of one snapshot, in Python. -/
theorem pyCol_eq {g : SGrid} (hg : FlatGrid g.hor) {x y : ℚ} {n n' m m' : Nat} {r r' s s' : ℚ}
    (h1 : Locates g.hor.lon x n' r') (h2 : Locates g.hor.lon x n r) (h3 : Locates g.hor.lat y m' s') (h4 : Locates g.hor.lat y m s)
    (j : Nat) :
    pyCol g .linear n' m' r' s' j = (List.range g.zdim).map fun k => bilinearAt (g.dep j) k m n s r := by
  unfold pyCol column
  apply List.map_congr_left
  intro k _
  rw [← bilinearAt_unique (g.dep j) k hg.lonInc hg.latInc h1 h2 h3 h4, ← bilin_eq]
  unfold bilin
  simp only [cornerColumn, Bool.false_eq_true, if_false, Arr.py, wrap_nat_add, wrap_nat]

theorem cCol_eq {g : SGrid} (hg : FlatGrid g.hor) {x y : ℚ} {n n' m m' : Nat} {r r' s s' : ℚ}
    (h1 : Locates g.hor.lon x n' r') (h2 : Locates g.hor.lon x n r) (h3 : Locates g.hor.lat y m' s') (h4 : Locates g.hor.lat y m s)
    (j : Nat) :
    cCol g .linear n' m' r' s' j = (List.range g.zdim).map fun k => bilinearAt (g.dep j) k m n s r := by
  unfold cCol column
  apply List.map_congr_left
  intro k _
  rw [← bilinearAt_unique (g.dep j) k hg.lonInc hg.latInc h1 h2 h3 h4, ← bilin_eq]
  unfold bilin
  simp only [cornerColumn, Bool.false_eq_true, if_false]

theorem zipWith_range (n : Nat) (f : ℚ → ℚ → ℚ) (a b : Nat → ℚ) :
    List.zipWith f ((List.range n).map a) ((List.range n).map b) = (List.range n).map fun k => f (a k) (b k) := by
  rw [List.zipWith_map, List.zipWith_self]

/-- The search with the column at hand. -/
theorem sampleS_col {g : SGrid} (hg : FlatGrid g.hor) (T : List ℚ) (ix : Indexing) (hix : ix = .nemo ∨ ix = .mitgcm) (data : Arr)
    {x y : ℚ} {n m : Nat} {r s : ℚ} (hx : Locates g.hor.lon x n r) (hy : Locates g.hor.lat y m s) {L : List ℚ}
    (hL : Increasing L ∨ Decreasing L) (hlen : 2 ≤ L.length) (ti : ℤ) (time z : ℚ)
    (hcol : ∀ (n' m' : Nat) (r' s' : ℚ), Locates g.hor.lon x n' r' → Locates g.hor.lat y m' s' →
      pyColumn g T .linear ti time n' m' r' s' = .ok L) :
    Samples L z (fun k q => trilinearAt data k m n q s r) (sampleS g T ix .linear data x y z ti time) := by
  have hxr := (inRange_inc hg.lonInc hg.lonLen x).mp (locates_inRange hg.lonInc hx)
  have hyr := (inRange_inc hg.latInc hg.latLen y).mp (locates_inRange hg.latInc hy)
  obtain ⟨n', hn', ha, hb, hs⟩ := axisSearch_found hg.lonInc hg.lonLen hxr.1 hxr.2
  obtain ⟨m', hm', hc, hd, ht⟩ := axisSearch_found hg.latInc hg.latLen hyr.1 hyr.2
  have hlx := locates_of_cell hg.lonInc hn' ha hb
  have hly := locates_of_cell hg.latInc hm' hc hd
  have ux := inUnit_of_locates hlx
  have uy := inUnit_of_locates hly
  have e1 : searchX g.hor x = some ((n' : ℤ), (x - g.hor.lon.getD n' 0) / (g.hor.lon.getD (n' + 1) 0 - g.hor.lon.getD n' 0)) := by
    have := hg.lonLen
    simp only [searchX, if_pos (show 1 < g.hor.lon.length by omega), hg.flat, cond_false, hs]
  have e2 : searchY g.hor y = some ((m' : ℤ), (y - g.hor.lat.getD m' 0) / (g.hor.lat.getD (m' + 1) 0 - g.hor.lat.getD m' 0)) := by
    have := hg.latLen
    simp only [searchY, if_pos (show 1 < g.hor.lat.length by omega), ht]
  have ec := hcol _ _ _ _ hlx hly
  generalize (x - g.hor.lon.getD n' 0) / (g.hor.lon.getD (n' + 1) 0 - g.hor.lon.getD n' 0) = r' at *
  generalize (y - g.hor.lat.getD m' 0) / (g.hor.lat.getD (m' + 1) 0 - g.hor.lat.getD m' 0) = s' at *
  have hstart : searchRectS g T .linear x y z ti time =
      match searchS L z with
      | .error e => .error (.space e)
      | .ok (zi, zeta) => if inUnit zeta then .ok ⟨r', s', zeta, n', m', zi⟩ else .error (.space .sampling) := by
    unfold searchRectS
    rw [if_neg (by rw [minL_inc hg.lonInc, maxL_inc hg.lonInc]; rintro ⟨_, _, h | h⟩ <;> linarith)]
    rw [if_neg (by rw [minL_inc hg.latInc, maxL_inc hg.latInc]; rintro ⟨_, h | h⟩ <;> linarith)]
    simp only [e1, e2, ec, ux, uy, Bool.and_self, Bool.true_and]
    rcases searchS L z with e | ⟨i, r⟩ <;> rfl
  obtain ⟨c1, c2, c3⟩ := C25_s_levels_scipy L hL hlen z
  refine ⟨?_, ?_, ?_⟩
  · intro h; unfold sampleS; rw [hstart, c1 h]
  · intro h; unfold sampleS; rw [hstart, c2 h]
  · intro k q hk
    obtain ⟨b1, b2⟩ := mono_cases hL hk
    obtain ⟨k', q', hr, hloc⟩ := c3 b1 b2
    have uz := inUnit_of_locates hloc
    obtain ⟨k'', e3, _⟩ := locates_nat hloc
    subst e3
    unfold sampleS
    rw [hstart, hr]
    simp only [uz, if_true]
    have n1 : ¬ (ix = Indexing.pop ∧ (g.zdim : ℤ) - 2 ≤ (k'' : ℤ)) := by
      rintro ⟨h, _⟩; rcases hix with h' | h' <;> rw [h'] at h <;> exact absurd h (by decide)
    have hc : ∀ p : Nat, pyCell3 data ⟨r', s', q', n', m', k''⟩ p = fun j i => data.v (k'' + p) (m' + j) (n' + i) := by
      intro p
      funext j i
      unfold pyCell3 Arr.py
      simp only [wrap_nat_add]
    simp only [interp3D, linear3D, if_neg n1, reduceCtorEq, if_false, false_and]
    rw [hc 0, hc 1, bilin_eq, bilin_eq]
    simp only [Nat.add_zero]
    rw [bilinearAt_unique data k'' hg.lonInc hg.latInc hlx hx hly hy, bilinearAt_unique data (k'' + 1) hg.lonInc hg.latInc hlx hx hly hy]
    have e := lin_unique_mono hL hloc hk (fun k => bilinearAt data k m n s r)
    congr 1
    unfold trilinearAt lerp
    linear_combination e

/-- What `timeIndex` returns for a time at hand, and what interpolation in time then is. -/
theorem time_found {T : List ℚ} (hT : Increasing T) {extrap : Bool} {t : ℚ} {i : Nat} {w : ℚ} (h : TimeAt T extrap t i w) :
    ∃ n0 : Nat, n0 < T.length ∧ timeIndex (TAxis.full T false extrap) t = .ok ((n0 : ℤ), 0) ∧
      ((n0 + 1 < T.length ∧ T.getD n0 0 < t ∧ t < T.getD (n0 + 1) 0 ∧ ∀ v : Nat → ℚ, lerp w (v i) (v (i + 1)) =
          lerp ((t - T.getD n0 0) / (T.getD (n0 + 1) 0 - T.getD n0 0)) (v n0) (v (n0 + 1))) ∨
        (¬ (n0 + 1 < T.length ∧ T.getD n0 0 < t) ∧ ∀ v : Nat → ℚ, lerp w (v i) (v (i + 1)) = v n0)) := by
  rcases h with h | ⟨he, hne, hw, h | h⟩
  · obtain ⟨hlen, h1, h2⟩ := locates_range hT h
    have hne : T ≠ [] := by intro h; rw [h] at hlen; simp at hlen
    rcases lt_or_eq_of_le h2 with h3 | h3
    · obtain ⟨n, hn, hn1, ha, hb⟩ := timeIndex_inside hT false extrap h1 h3
      refine ⟨n, by omega, hn, ?_⟩
      rcases lt_or_eq_of_le ha with h4 | h4
      · left
        refine ⟨hn1, h4, hb, fun v => ?_⟩
        have := (pick hT (v := v) (show n < T.length by omega) ha (fun _ => hb.le) h).1 hn1 h4
        unfold lerp
        linear_combination -this
      · right
        have hc : ¬ (n + 1 < T.length ∧ T.getD n 0 < t) := by rintro ⟨_, h'⟩; linarith
        refine ⟨hc, fun v => ?_⟩
        have := (pick hT (v := v) (show n < T.length by omega) ha (fun _ => hb.le) h).2 hc
        unfold lerp
        linear_combination -this
    · refine ⟨T.length - 1, by omega, timeIndex_last hT extrap hne h3.ge (Or.inr h3), Or.inr ?_⟩
      have hc : ¬ (T.length - 1 + 1 < T.length ∧ T.getD (T.length - 1) 0 < t) := by rintro ⟨_, h'⟩; linarith
      refine ⟨hc, fun v => ?_⟩
      have := (pick hT (v := v) (show T.length - 1 < T.length by omega) h3.ge (fun h' => by omega) h).2 hc
      unfold lerp
      linear_combination -this
  · obtain ⟨h1, h2⟩ := h
    subst h2; subst hw
    have hlen : 1 ≤ T.length := List.length_pos_iff.mpr hne
    have hv : ∀ v : Nat → ℚ, lerp 0 (v 0) (v (0 + 1)) = v 0 := fun v => by unfold lerp; ring
    rw [headD_getD] at h1
    by_cases hl : T.getD (T.length - 1) 0 ≤ t
    · have h0 : T.length - 1 = 0 := by
        by_contra hh
        have := inc_lt hT (show 0 < T.length - 1 by omega) (by omega)
        linarith
      refine ⟨0, by omega, ?_, Or.inr ⟨by rintro ⟨h', _⟩; omega, hv⟩⟩
      have := timeIndex_last hT extrap hne hl (Or.inl he)
      rwa [h0] at this
    · rcases lt_or_eq_of_le h1 with h3 | h3
      · refine ⟨0, by omega, ?_, Or.inr ⟨by rintro ⟨_, h'⟩; linarith, hv⟩⟩
        have c1 : (T.all fun v => decide (v ≤ t)) = false := by
          rw [Bool.eq_false_iff]; intro h; rw [all_le_iff hT hne] at h; exact hl h
        have c2 := (all_gt_iff hT hne t).mpr h3
        unfold timeIndex TAxis.full
        simp only [he, c1, c2, Bool.true_eq_false, false_and, and_false, if_false, Bool.false_eq_true, if_true]
        rfl
      · obtain ⟨n, hn, hn1, ha, hb⟩ := timeIndex_inside hT false extrap h3.ge (not_le.mp hl)
        have : n = 0 := by
          by_contra hh
          have := inc_lt hT (show 0 < n by omega) (by omega)
          linarith
        subst this
        exact ⟨0, by omega, hn, Or.inr ⟨by rintro ⟨_, h'⟩; linarith, hv⟩⟩
  · obtain ⟨h1, h2⟩ := h
    have hlen : 1 ≤ T.length := List.length_pos_iff.mpr hne
    rw [getLastD_getD] at h1
    refine ⟨T.length - 1, by omega, timeIndex_last hT extrap hne h1 (Or.inl he), Or.inr ⟨by rintro ⟨h', _⟩; omega, fun v => ?_⟩⟩
    subst h2; subst hw
    unfold lerp; ring

/-- Two snapshots, one after the other. -/
def twoSnap (ra rb : Except Fail ℚ) (w : ℚ) : Except Fail ℚ :=
  match ra with
  | .error e => .error e
  | .ok f0 => match rb with
    | .error e => .error e
    | .ok f1 => .ok (f0 + (f1 - f0) * w)

/-- Combining two snapshots with the same levels. -/
theorem samples_two {L : List ℚ} {z : ℚ} {A B V : Nat → ℚ → ℚ} {w : ℚ}
    {ra rb : Except Fail ℚ} (ha : Samples L z A ra) (hb : Samples L z B rb) (hV : ∀ k q, V k q = lerp w (A k q) (B k q)) :
    Samples L z V (twoSnap ra rb w) := by
  refine ⟨?_, ?_, ?_⟩
  · intro h; rw [ha.1 h]; rfl
  · intro h; rw [ha.2.1 h]; rfl
  · intro k q h
    rw [ha.2.2 k q h, hb.2.2 k q h]
    simp only [hV, twoSnap]
    congr 1
    unfold lerp; ring

theorem samples_congr {L : List ℚ} {z : ℚ} {A V : Nat → ℚ → ℚ} {ra : Except Fail ℚ} (ha : Samples L z A ra)
    (hV : ∀ k q, V k q = A k q) : Samples L z V ra := by
  have : V = A := by funext k q; exact hV k q
  rw [this]; exact ha

/-- The columns that Scipy mode computes. -/
theorem pyColumn_two {g : SGrid} (hg : FlatGrid g.hor) {T : List ℚ} (hnd : g.z4d = true → g.ndep = T.length) {t : ℚ} {n0 : Nat}
    (hn1 : n0 + 1 < T.length) (h1 : T.getD n0 0 < t) (h2 : t < T.getD (n0 + 1) 0) (ti : ℤ) (hti : ti = n0 ∨ ti = n0 + 1)
    {x y : ℚ} {n n' m m' : Nat} {r r' s s' : ℚ} (hx' : Locates g.hor.lon x n' r') (hx : Locates g.hor.lon x n r)
    (hy' : Locates g.hor.lat y m' s') (hy : Locates g.hor.lat y m s) :
    pyColumn g T .linear ti t n' m' r' s' =
      .ok (g.levels n0 ((t - T.getD n0 0) / (T.getD (n0 + 1) 0 - T.getD n0 0)) m n s r) := by
  unfold pyColumn SGrid.levels SGrid.depths
  have eti : (if t < T.getD (wrapIdx T.length ti) 0 then ti - 1 else ti) = (n0 : ℤ) := by
    rcases hti with h | h
    · rw [h, wrapIdx_nat, if_neg (not_lt.mpr h1.le)]
    · rw [h, show ((n0 : ℤ) + 1) = ((n0 + 1 : Nat) : ℤ) by push_cast; rfl, wrapIdx_nat, if_pos h2]; push_cast; ring
  simp only [eti]
  cases hz : g.z4d with
  | true =>
    have hd := hnd hz
    have hb := rel_bounds (h1.trans h2) h1.le h2.le
    rw [if_pos rfl, if_neg (by omega), if_pos ⟨by omega, by omega⟩, Int.toNat_natCast, if_pos ⟨hb.1, hb.2.1⟩,
      pyCol_eq hg hx' hx hy' hy, pyCol_eq hg hx' hx hy' hy, zipWith_range]
    congr 1
    apply List.map_congr_left
    intro k _
    simp only [if_true]
    unfold lerp
    ring
  | false =>
    rw [if_neg (by decide), pyCol_eq hg hx' hx hy' hy]
    congr 1
    apply List.map_congr_left
    intro k _
    simp only [Bool.false_eq_true, if_false]
    unfold lerp
    ring

theorem pyColumn_one {g : SGrid} (hg : FlatGrid g.hor) {T : List ℚ} (hT : Increasing T) (hnd : g.z4d = true → g.ndep = T.length) {n0 : Nat}
    (hn : n0 < T.length) {x y : ℚ} {n n' m m' : Nat} {r r' s s' : ℚ} (hx' : Locates g.hor.lon x n' r') (hx : Locates g.hor.lon x n r)
    (hy' : Locates g.hor.lat y m' s') (hy : Locates g.hor.lat y m s) :
    pyColumn g T .linear n0 (T.getD n0 0) n' m' r' s' =
      .ok ((List.range g.zdim).map fun k => bilinearAt (g.depths n0) k m n s r) := by
  unfold pyColumn SGrid.depths
  simp only [wrapIdx_nat, if_neg (lt_irrefl _)]
  cases hz : g.z4d with
  | true =>
    have hd := hnd hz
    simp only [if_true]
    by_cases hlast : n0 = T.length - 1
    · rw [if_pos (by omega), pyCol_eq hg hx' hx hy' hy, hd, hlast]
    · rw [if_neg (by omega), if_pos ⟨by omega, by omega⟩, Int.toNat_natCast, sub_self, zero_div, if_pos ⟨le_refl _, by norm_num⟩,
        pyCol_eq hg hx' hx hy' hy, pyCol_eq hg hx' hx hy' hy, zipWith_range]
      congr 1
      apply List.map_congr_left
      intro k _
      ring
  | false =>
    rw [if_neg (by decide), pyCol_eq hg hx' hx hy' hy]
    simp

/-- Scipy mode. -/
theorem evalS_samples {g : SGrid} (hg : FlatGrid g.hor) {T : List ℚ} (hT : Increasing T) (hnd : g.z4d = true → g.ndep = T.length)
    (hz : 2 ≤ g.zdim) (extrap : Bool) (ix : Indexing) (hix : ix = .nemo ∨ ix = .mitgcm) (data : Nat → Arr) {t x y : ℚ} {i n m : Nat}
    {w r s : ℚ} (ht : TimeAt T extrap t i w) (hx : Locates g.hor.lon x n r) (hy : Locates g.hor.lat y m s)
    (hL : Increasing (g.levels i w m n s r) ∨ Decreasing (g.levels i w m n s r)) (z : ℚ) :
    Samples (g.levels i w m n s r) z (valueAt data i w m n s r) (evalS g (TAxis.full T false extrap) ix .linear data t x y z) := by
  obtain ⟨n0, hn0, hidx, hcase⟩ := time_found hT ht
  have e0 : t - ((0 : ℤ) : ℚ) * ((TAxis.full T false extrap).fullMax - (TAxis.full T false extrap).fullMin) = t := by
    push_cast; ring
  have et : (TAxis.full T false extrap).time = T := rfl
  have ed : (TAxis.full T false extrap).tdim = T.length := rfl
  have hlen : 2 ≤ (g.levels i w m n s r).length := by rw [levels_length]; exact hz
  unfold evalS
  rw [hidx]
  simp only [e0, et, ed, wrapIdx_nat]
  rcases hcase with ⟨hn1, h1, h2, hv⟩ | ⟨hc, hv⟩
  · have e1 : wrapIdx T.length ((n0 : ℤ) + 1) = n0 + 1 := by
      rw [show ((n0 : ℤ) + 1) = ((n0 + 1 : Nat) : ℤ) by push_cast; rfl, wrapIdx_nat]
    rw [if_pos ⟨by omega, h1⟩, e1]
    have eL : g.levels i w m n s r = g.levels n0 ((t - T.getD n0 0) / (T.getD (n0 + 1) 0 - T.getD n0 0)) m n s r := by
      unfold SGrid.levels
      apply List.map_congr_left
      intro k _
      exact hv fun j => bilinearAt (g.depths j) k m n s r
    have key : ∀ (ti : ℤ) (j : Nat), (ti = n0 ∨ ti = n0 + 1) → Samples (g.levels i w m n s r) z (fun k q => trilinearAt (data j) k m n q s r)
        (sampleS g T ix .linear (data j) x y z ti t) := by
      intro ti j hti
      apply sampleS_col hg T ix hix (data j) hx hy hL hlen
      intro n' m' r' s' hx' hy'
      rw [eL]
      exact pyColumn_two hg hnd hn1 h1 h2 ti hti hx' hx hy' hy
    exact samples_two (key _ n0 (Or.inl rfl)) (key _ (n0 + 1) (Or.inr rfl))
      (fun k q => hv fun j => trilinearAt (data j) k m n q s r)
  · rw [if_neg (by rintro ⟨h', h''⟩; exact hc ⟨by omega, h''⟩)]
    have eL : g.levels i w m n s r = (List.range g.zdim).map fun k => bilinearAt (g.depths n0) k m n s r := by
      unfold SGrid.levels
      apply List.map_congr_left
      intro k _
      exact hv fun j => bilinearAt (g.depths j) k m n s r
    refine samples_congr (A := fun k q => trilinearAt (data n0) k m n q s r) ?_ (fun k q => hv fun j => trilinearAt (data j) k m n q s r)
    apply sampleS_col hg T ix hix (data n0) hx hy hL hlen
    intro n' m' r' s' hx' hy'
    rw [eL]
    exact pyColumn_one hg hT hnd hn0 hx' hx hy' hy

/-! ### JIT -/

theorem cTime_found {T : List ℚ} (hT : Increasing T) {extrap : Bool} {t : ℚ} {i : Nat} {w : ℚ} (h : TimeAt T extrap t i w) (st : Nat)
    (hst : st < T.length) :
    cWalk ltB T t st < T.length ∧ (extrap = true ∨ (T.getD 0 0 ≤ t ∧ t ≤ T.getD (T.length - 1) 0)) ∧
      ((cWalk ltB T t st + 1 < T.length ∧ T.getD (cWalk ltB T t st) 0 < t ∧ ∀ v : Nat → ℚ, lerp w (v i) (v (i + 1)) =
          lerp ((t - T.getD (cWalk ltB T t st) 0) / (T.getD (cWalk ltB T t st + 1) 0 - T.getD (cWalk ltB T t st) 0))
            (v (cWalk ltB T t st)) (v (cWalk ltB T t st + 1))) ∨
        (¬ (cWalk ltB T t st + 1 < T.length ∧ T.getD (cWalk ltB T t st) 0 < t) ∧
          ∀ v : Nat → ℚ, lerp w (v i) (v (i + 1)) = v (cWalk ltB T t st))) := by
  rcases h with h | ⟨he, hne, hw, h | h⟩
  · obtain ⟨hlen, h1, h2⟩ := locates_range hT h
    obtain ⟨w1, w2, w3⟩ := walk_in hT st hst h1
    refine ⟨w1, Or.inr ⟨h1, h2⟩, ?_⟩
    by_cases hc : cWalk ltB T t st + 1 < T.length ∧ T.getD (cWalk ltB T t st) 0 < t
    · left
      refine ⟨hc.1, hc.2, fun v => ?_⟩
      have := (pick hT (v := v) w1 w2 w3 h).1 hc.1 hc.2
      unfold lerp
      linear_combination -this
    · right
      refine ⟨hc, fun v => ?_⟩
      have := (pick hT (v := v) w1 w2 w3 h).2 hc
      unfold lerp
      linear_combination -this
  · obtain ⟨h1, h2⟩ := h
    subst h2; subst hw
    rw [headD_getD] at h1
    have hv : ∀ v : Nat → ℚ, lerp 0 (v 0) (v (0 + 1)) = v 0 := fun v => by unfold lerp; ring
    rcases lt_or_eq_of_le h1 with h3 | h3
    · have e := walk_before hT st hst h3
      rw [e]
      exact ⟨by omega, Or.inl he, Or.inr ⟨by rintro ⟨_, h'⟩; linarith, hv⟩⟩
    · obtain ⟨w1, w2, w3⟩ := walk_in hT st hst h3.ge
      have e : cWalk ltB T t st = 0 := by
        by_contra hh
        have := inc_lt hT (show 0 < cWalk ltB T t st by omega) w1
        linarith
      rw [e]
      exact ⟨by omega, Or.inl he, Or.inr ⟨by rintro ⟨_, h'⟩; linarith, hv⟩⟩
  · obtain ⟨h1, h2⟩ := h
    subst h2; subst hw
    have hlen : 1 ≤ T.length := List.length_pos_iff.mpr hne
    rw [getLastD_getD] at h1
    have hv : ∀ v : Nat → ℚ, lerp 0 (v (T.length - 1)) (v (T.length - 1 + 1)) = v (T.length - 1) := fun v => by unfold lerp; ring
    have hfirst : T.getD 0 0 ≤ t := le_trans (inc_le hT (Nat.zero_le _) (by omega)) h1
    obtain ⟨w1, w2, w3⟩ := walk_in hT st hst hfirst
    refine ⟨w1, Or.inl he, ?_⟩
    by_cases e : cWalk ltB T t st = T.length - 1
    · rw [e]
      exact Or.inr ⟨by rintro ⟨h', _⟩; omega, hv⟩
    · have hn1 : cWalk ltB T t st + 1 < T.length := by omega
      have h3 := w3 hn1
      have h4 := inc_lt hT (Nat.lt_succ_self (cWalk ltB T t st)) hn1
      rw [Nat.succ_eq_add_one] at h4
      have h5 : cWalk ltB T t st + 1 = T.length - 1 := by
        by_contra hh
        have := inc_lt hT (show cWalk ltB T t st + 1 < T.length - 1 by omega) (by omega)
        linarith
      have h6 : t = T.getD (cWalk ltB T t st + 1) 0 := by rw [← h5] at h1; linarith
      left
      refine ⟨hn1, by linarith, fun v => ?_⟩
      rw [hv v]
      have e1 : (t - T.getD (cWalk ltB T t st) 0) / (T.getD (cWalk ltB T t st + 1) 0 - T.getD (cWalk ltB T t st) 0) = 1 := by
        rw [← h6]; exact div_self (by linarith)
      rw [e1, ← h5]
      unfold lerp; ring

/-- The search in C with the column at hand. -/
theorem cSearchRectS_col {g : SGrid} (hg : FlatGrid g.hor) (tdim : Nat) {x y : ℚ} {xi yi zi : Nat} (hxi : xi + 1 < g.hor.lon.length)
    (hyi : yi + 1 < g.hor.lat.length) {n m : Nat} {r s : ℚ} (hx : Locates g.hor.lon x n r) (hy : Locates g.hor.lat y m s) {L : List ℚ}
    (hL : Increasing L ∨ Decreasing L) (hlen : 2 ≤ L.length) (hzi : zi < L.length) (ti : Nat) (time t0 t1 z : ℚ)
    (hcol : ∀ (n' m' : Nat) (r' s' : ℚ), Locates g.hor.lon x n' r' → Locates g.hor.lat y m' s' →
      cColumn g tdim .linear ti time t0 t1 n' m' r' s' = L) :
    (BeforeFirst L z → cSearchRectS g tdim .linear x y z xi yi zi ti time t0 t1 = .error (.space .throughSurface)) ∧
    (BeyondLast L z → cSearchRectS g tdim .linear x y z xi yi zi ti time t0 t1 = .error (.space .outOfBounds)) ∧
    (¬ BeforeFirst L z → ¬ BeyondLast L z → ∃ (n' m' k' : Nat) (r' s' q' : ℚ),
      cSearchRectS g tdim .linear x y z xi yi zi ti time t0 t1 = .ok ⟨r', s', q', n', m', k'⟩ ∧
      Locates g.hor.lon x n' r' ∧ Locates g.hor.lat y m' s' ∧ Locates L z k' q') := by
  have hxr := (inRange_inc hg.lonInc hg.lonLen x).mp (locates_inRange hg.lonInc hx)
  have hyr := (inRange_inc hg.latInc hg.latLen y).mp (locates_inRange hg.latInc hy)
  have hlx := cAxis_locates hg.lonInc hg.lonLen hxi hxr.1 hxr.2
  have hly := cAxis_locates hg.latInc hg.latLen hyi hyr.1 hyr.2
  have ux := inUnit_of_locates hlx
  have uy := inUnit_of_locates hly
  have ec := hcol _ _ _ _ hlx hly
  have e1 : cSearchX g.hor x xi = .ok (((cAxis g.hor.lon x xi).1 : Nat), (cAxis g.hor.lon x xi).2) := by
    unfold cSearchX
    rw [if_neg (by have := hg.lonLen; omega), hg.flat, cond_false]
  have hstart : cSearchRectS g tdim .linear x y z xi yi zi ti time t0 t1 =
      match cSearchZ L false z zi with
      | .error e => .error (.space e)
      | .ok (k, zeta) =>
        if inUnit zeta then .ok ⟨(cAxis g.hor.lon x xi).2, (cAxis g.hor.lat y yi).2, zeta, ((cAxis g.hor.lon x xi).1 : Nat),
          ((cAxis g.hor.lat y yi).1 : Nat), k⟩ else .error (.space .sampling) := by
    unfold cSearchRectS
    rw [if_neg (by rw [minL_inc hg.lonInc, maxL_inc hg.lonInc]; rintro ⟨_, _, h | h⟩ <;> linarith)]
    rw [if_neg (by rw [minL_inc hg.latInc, maxL_inc hg.latInc]; rintro ⟨_, h | h⟩ <;> linarith)]
    simp only [e1, Int.toNat_natCast, ec, cSearchS_eq, ux, uy, Bool.and_self, Bool.true_and]
    rcases cSearchZ L false z zi with e | ⟨i, r⟩ <;> rfl
  obtain ⟨c1, c2, c3⟩ := C25_z_levels_jit L hL hlen z zi (by omega)
  refine ⟨?_, ?_, ?_⟩
  · intro h; rw [hstart, c1 h]
  · intro h; rw [hstart, c2 h]
  · intro h1 h2
    obtain ⟨i, q', hr, hloc⟩ := c3 h1 h2
    have uz := inUnit_of_locates hloc
    obtain ⟨k', e3, _⟩ := locates_nat hloc
    subst e3
    refine ⟨_, _, k', _, _, q', ?_, hlx, hly, hloc⟩
    rw [hstart, hr]
    simp only [uz, if_true]

theorem cColumn_two {g : SGrid} (hg : FlatGrid g.hor) {T : List ℚ} {t : ℚ} {n0 : Nat} (hn1 : n0 + 1 < T.length)
    {x y : ℚ} {n n' m m' : Nat} {r r' s s' : ℚ} (hx' : Locates g.hor.lon x n' r') (hx : Locates g.hor.lon x n r)
    (hy' : Locates g.hor.lat y m' s') (hy : Locates g.hor.lat y m s) (t0 t1 : ℚ) :
    cColumn g T.length .linear n0 t t0 t1 n' m' r' s' = g.levels n0 ((t - t0) / (t1 - t0)) m n s r := by
  unfold cColumn SGrid.levels SGrid.depths
  cases hz : g.z4d with
  | true =>
    simp only [if_true, if_pos (show n0 < T.length - 1 by omega)]
    rw [cCol_eq hg hx' hx hy' hy, cCol_eq hg hx' hx hy' hy, zipWith_range]
    apply List.map_congr_left
    intro k _
    unfold lerp
    ring
  | false =>
    rw [if_neg (by decide), cCol_eq hg hx' hx hy' hy]
    apply List.map_congr_left
    intro k _
    simp only [Bool.false_eq_true, if_false]
    unfold lerp
    ring

theorem cColumn_one {g : SGrid} (hg : FlatGrid g.hor) {T : List ℚ} {n0 : Nat}
    {x y : ℚ} {n n' m m' : Nat} {r r' s s' : ℚ} (hx' : Locates g.hor.lon x n' r') (hx : Locates g.hor.lon x n r)
    (hy' : Locates g.hor.lat y m' s') (hy : Locates g.hor.lat y m s) (t0 t1 : ℚ) :
    cColumn g T.length .linear n0 t0 t0 t1 n' m' r' s' = (List.range g.zdim).map fun k => bilinearAt (g.depths n0) k m n s r := by
  unfold cColumn SGrid.depths
  cases hz : g.z4d with
  | true =>
    simp only [if_true, sub_self, zero_div, mul_zero, add_zero]
    rw [cCol_eq hg hx' hx hy' hy, cCol_eq hg hx' hx hy' hy, zipWith_range]
  | false =>
    rw [if_neg (by decide), cCol_eq hg hx' hx hy' hy]
    simp

/-- Data with the shape of the grid. -/
def FitsS (d : Arr) (g : SGrid) : Prop := d.nx = g.hor.lon.length ∧ d.ny = g.hor.lat.length ∧ d.nz = g.zdim

/-- JIT mode. -/
theorem cEvalS_samples {g : SGrid} (hg : FlatGrid g.hor) {T : List ℚ} (hT : Increasing T)
    (hz : 2 ≤ g.zdim) (extrap : Bool) (ix : Indexing) (hix : ix = .nemo ∨ ix = .mitgcm) (data : Nat → Arr) (hfit : ∀ j, FitsS (data j) g)
    {t x y : ℚ} {i n m : Nat}
    {w r s : ℚ} (ht : TimeAt T extrap t i w) (hx : Locates g.hor.lon x n r) (hy : Locates g.hor.lat y m s)
    (hL : Increasing (g.levels i w m n s r) ∨ Decreasing (g.levels i w m n s r)) (z : ℚ) {xi yi zi : Nat}
    (hxi : xi + 1 < g.hor.lon.length) (hyi : yi + 1 < g.hor.lat.length) (hzi : zi < g.zdim) (f : Nat) (ti : ℤ) (hti : ti < T.length) :
    ∃ res, cEvalS g (TAxis.full T false extrap) ix .linear data (f + 1) t x y z xi yi zi ti = some res ∧
      Samples (g.levels i w m n s r) z (valueAt data i w m n s r) res := by
  have hne : 0 < T.length := by
    rcases ht with h | ⟨_, h, _⟩
    · have := (locates_range hT h).1; omega
    · exact List.length_pos_iff.mpr h
  have hst : startIdx ti < T.length := by unfold startIdx; split_ifs <;> omega
  obtain ⟨hn0, hok, hcase⟩ := cTime_found hT ht (startIdx ti) hst
  have hidx := cSearch_direct (T := T) false (TAxis.full T false extrap).fullMin (TAxis.full T false extrap).fullMax f t ti 0 (Or.inl rfl)
  have hlen : 2 ≤ (g.levels i w m n s r).length := by rw [levels_length]; exact hz
  have hzi' : zi < (g.levels i w m n s r).length := by rw [levels_length]; exact hzi
  have hok' : ¬ ((TAxis.full T false extrap).periodic = false ∧ (TAxis.full T false extrap).extrap = false ∧
      (t < (TAxis.full T false extrap).time.headD 0 ∨ (TAxis.full T false extrap).time.getD ((TAxis.full T false extrap).tdim - 1) 0 < t)) := by
    rintro ⟨_, h2, h3⟩
    have h2' : extrap = false := h2
    rcases hok with h | h
    · rw [h] at h2'; exact absurd h2' (by decide)
    · have h3' : t < T.headD 0 ∨ T.getD (T.length - 1) 0 < t := h3
      rw [headD_getD] at h3'
      rcases h3' with h' | h' <;> linarith [h.1, h.2]
  have et : (TAxis.full T false extrap).time = T := rfl
  have ed : (TAxis.full T false extrap).tdim = T.length := rfl
  have ep : (TAxis.full T false extrap).periodic = false := rfl
  unfold cEvalS
  rw [if_neg hok', ed, et, ep, List.take_length, hidx]
  generalize cWalk ltB T t (startIdx ti) = c at *
  have i1 : decide (ix = Indexing.mom5) = false := by rcases hix with h | h <;> rw [h] <;> decide
  have i2 : decide (ix = Indexing.pop) = false := by rcases hix with h | h <;> rw [h] <;> decide
  -- the value of a snapshot in the cell found
  have hval : ∀ (n' m' k' : Nat) (r' s' q' : ℚ), Locates g.hor.lon x n' r' → Locates g.hor.lat y m' s' → ∀ j,
      cInterp3D .linear ix false false r' s' q' (cCell3 (data j) n' m' k') = trilinearAt (data j) k' m n q' s r := by
    intro n' m' k' r' s' q' hx' hy' j
    have hf := hfit j
    have nx : (data j).nx ≠ 1 := by have := hg.lonLen; have := hf.1; omega
    have ny : (data j).ny ≠ 1 := by have := hg.latLen; have := hf.2.1; omega
    have nz : (data j).nz ≠ 1 := by have := hf.2.2; omega
    have hc : ∀ p : Nat, cCell3 (data j) n' m' (k' : ℤ) p = fun j' i' => (data j).v (k' + p) (m' + j') (n' + i') := by
      intro p
      funext j' i'
      unfold cCell3
      rw [if_neg nx, if_neg ny, if_neg nz, Int.toNat_natCast]
    simp only [cInterp3D, cLinear3D, reduceCtorEq, or_self, if_false, Bool.false_eq_true, trilin]
    rw [hc 0, hc 1, bilin_eq, bilin_eq, bilinearAt_unique (data j) (k' + 0) hg.lonInc hg.latInc hx' hx hy' hy,
      bilinearAt_unique (data j) (k' + 1) hg.lonInc hg.latInc hx' hx hy' hy]
    unfold trilinearAt lerp
    simp only [Nat.add_zero]
    ring
  -- the levels do not depend on the choice of the layer
  have hlayer : ∀ (k k' : Nat) (q q' : ℚ), Locates (g.levels i w m n s r) z k q → Locates (g.levels i w m n s r) z k' q' →
      valueAt data i w m n s r k' q' = valueAt data i w m n s r k q := by
    intro k k' q q' hk hk'
    have e1 := lin_unique_mono hL hk' hk (fun k => bilinearAt (data i) k m n s r)
    have e2 := lin_unique_mono hL hk' hk (fun k => bilinearAt (data (i + 1)) k m n s r)
    unfold valueAt trilinearAt lerp
    linear_combination (1 - w) * e1 + w * e2
  rcases hcase with ⟨hn1, h1, hv⟩ | ⟨hc, hv⟩
  · have two : (decide (c < T.length - 1) && decide (T.getD c 0 < t)) = true := by
      rw [Bool.and_eq_true]; exact ⟨decide_eq_true (by omega), decide_eq_true h1⟩
    have eL : g.levels i w m n s r = g.levels c ((t - T.getD c 0) / (T.getD (c + 1) 0 - T.getD c 0)) m n s r := by
      unfold SGrid.levels
      apply List.map_congr_left
      intro k _
      exact hv fun j => bilinearAt (g.depths j) k m n s r
    obtain ⟨c1, c2, c3⟩ := cSearchRectS_col (zi := zi) hg T.length hxi hyi hx hy hL hlen hzi' c t (T.getD c 0) (T.getD (c + 1) 0) z
      (fun n' m' r' s' hx' hy' => by rw [eL]; exact cColumn_two hg hn1 hx' hx hy' hy _ _)
    simp only [two, cond_true, i1, i2, Bool.false_and, Bool.false_eq_true, if_false]
    refine ⟨(cSearchRectS g T.length .linear x y z xi yi zi c t (T.getD c 0) (T.getD (c + 1) 0)).map fun p => cInterp3D Method.linear ix false false p.xsi p.eta p.zeta (cCell3 (data c) p.xi.toNat p.yi.toNat p.zi) +
        (cInterp3D Method.linear ix false false p.xsi p.eta p.zeta (cCell3 (data (c + 1)) p.xi.toNat p.yi.toNat p.zi) - cInterp3D Method.linear ix false false p.xsi p.eta p.zeta (cCell3 (data c) p.xi.toNat p.yi.toNat p.zi)) *
        ((t - T.getD c 0) / (T.getD (c + 1) 0 - T.getD c 0)), ?_, ?_, ?_, ?_⟩
    · rcases cSearchRectS g T.length .linear x y z xi yi zi c t (T.getD c 0) (T.getD (c + 1) 0) with e | p <;> rfl
    · intro h; rw [c1 h]; rfl
    · intro h; rw [c2 h]; rfl
    · intro k q hk
      obtain ⟨b1, b2⟩ := mono_cases hL hk
      obtain ⟨n', m', k', r', s', q', hp, hx', hy', hk'⟩ := c3 b1 b2
      rw [hp]
      simp only [Except.map, Int.toNat_natCast]
      rw [hval n' m' k' r' s' q' hx' hy', hval n' m' k' r' s' q' hx' hy', ← hlayer k k' q q' hk hk']
      have := hv fun j => trilinearAt (data j) k' m n q' s r
      congr 1
      unfold valueAt
      rw [this]
      unfold lerp
      ring
  · have two : (decide (c < T.length - 1) && decide (T.getD c 0 < t)) = false := by
      rw [Bool.and_eq_false_iff]
      by_cases h : c < T.length - 1
      · right; exact decide_eq_false fun h' => hc ⟨by omega, h'⟩
      · left; exact decide_eq_false h
    have eL : g.levels i w m n s r = (List.range g.zdim).map fun k => bilinearAt (g.depths c) k m n s r := by
      unfold SGrid.levels
      apply List.map_congr_left
      intro k _
      exact hv fun j => bilinearAt (g.depths j) k m n s r
    obtain ⟨c1, c2, c3⟩ := cSearchRectS_col (zi := zi) hg T.length hxi hyi hx hy hL hlen hzi' c (T.getD c 0) (T.getD c 0) (T.getD c 0 + 1) z
      (fun n' m' r' s' hx' hy' => by rw [eL]; exact cColumn_one hg hx' hx hy' hy _ _)
    simp only [two, cond_false, i1, i2, Bool.false_and, Bool.false_eq_true, if_false]
    refine ⟨(cSearchRectS g T.length .linear x y z xi yi zi c (T.getD c 0) (T.getD c 0) (T.getD c 0 + 1)).map fun p => cInterp3D Method.linear ix false false p.xsi p.eta p.zeta (cCell3 (data c) p.xi.toNat p.yi.toNat p.zi) +
        (0 - cInterp3D Method.linear ix false false p.xsi p.eta p.zeta (cCell3 (data c) p.xi.toNat p.yi.toNat p.zi)) *
        ((T.getD c 0 - T.getD c 0) / (T.getD c 0 + 1 - T.getD c 0)), ?_, ?_, ?_, ?_⟩
    · rcases cSearchRectS g T.length .linear x y z xi yi zi c (T.getD c 0) (T.getD c 0) (T.getD c 0 + 1) with e | p <;> rfl
    · intro h; rw [c1 h]; rfl
    · intro h; rw [c2 h]; rfl
    · intro k q hk
      obtain ⟨b1, b2⟩ := mono_cases hL hk
      obtain ⟨n', m', k', r', s', q', hp, hx', hy', hk'⟩ := c3 b1 b2
      rw [hp]
      simp only [Except.map, Int.toNat_natCast]
      rw [hval n' m' k' r' s' q' hx' hy', ← hlayer k k' q q' hk hk']
      have := hv fun j => trilinearAt (data j) k' m n q' s r
      congr 1
      unfold valueAt
      rw [this, sub_self, zero_div, mul_zero, add_zero]

end Parcels.SLevels
