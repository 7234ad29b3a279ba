import Verif.Proofs.FloatSample
import Verif.Proofs.TimeInterp

/-!
C96: rounding does not make sampling fail, and changes sampled values by a few roundings of the largest value in the cell.
-/

namespace Parcels.FloatSample
open Parcels.Search Parcels.Interp Parcels.TimeInterp
open FloatAdvect (Rounds)

/-! ### The arithmetics of the program -/

/-- The arithmetics of both modes, with coordinates in single or in double precision, have relative errors at most 2^-24. -/
theorem C96_precisions : jit32.Within (1 / 2 ^ 24) ∧ jit64.Within (1 / 2 ^ 24) ∧ scipy32.Within (1 / 2 ^ 24) ∧ scipy64.Within (1 / 2 ^ 24) := by
  have s := f32_nearest
  have d : Nearest FloatTime.f64 (1 / 2 ^ 24) := f64_nearest.mono_err (by norm_num)
  have i : Rounds id (1 / 2 ^ 24) := id_rounds (by norm_num)
  exact ⟨⟨s, s, d.rounds, s.rounds, d.rounds, s.rounds, s.rounds⟩, ⟨d, s, d.rounds, s.rounds, d.rounds, s.rounds, s.rounds⟩,
    ⟨s, s, s.rounds, i, d.rounds, s.rounds, d.rounds⟩, ⟨d, s, d.rounds, i, d.rounds, d.rounds, d.rounds⟩⟩

/-- `Fits` holds on every axis if coordinates are in single precision; in double precision, if the widths of the cells are single-precision numbers. -/
theorem C96_fits (l : List ℚ) : Fits jit32 l ∧ Fits scipy32 l ∧
    ((∀ (n : Nat) (a b : ℚ), l[n]? = some a → l[n + 1]? = some b → FloatAdvect.f32 (b - a) = b - a) → Fits jit64 l ∧ Fits scipy64 l) := by
  refine ⟨fits_self _ _ rfl, fits_self _ _ rfl, fun h => ?_⟩
  have key : ∀ w : ℚ, FloatAdvect.f32 w = w → FloatTime.f64 w = w := f64_of_f32
  constructor <;>
  · intro n a b ha hb
    have e := h n a b ha hb
    have e' := key _ e
    show |FloatTime.f64 (b - a)| ≤ |FloatAdvect.f32 (b - a)|
    rw [e, e']

/-! ### The search -/

/-- C96, search in Scipy mode: on every ordinary grid (flat or spherical), at every position, the search in floating-point arithmetic gives the same error
as in exact arithmetic, or the same cell with relative coordinates in [0, 1] that differ by at most four roundings. -/
theorem C96_search_scipy_partial (r : Arith) (ε : ℚ) (hr : r.Within ε) (hε : 0 ≤ ε ∧ ε ≤ 1 / 2) (g : RGrid) (hg : Ordinary g)
    (hlon : Fits r g.lon) (hlat : Fits r g.lat) (x y z : ℚ) (hz : r.nd z = z) :
    SameCell (err ε 4) (Search.searchRect g x y z) (searchRect r g x y z) :=
  (rect_agree hr hε.1 hε.2 hg hlon hlat x y z hz).same

/-- C96, search in JIT mode, from any cell of a flat grid. -/
theorem C96_search_jit_partial (r : Arith) (ε : ℚ) (hr : r.Within ε) (hε : 0 ≤ ε ∧ ε ≤ 1 / 2) (g : RGrid) (hg : Ordinary g) (hf : g.spherical = false)
    (hlon : Fits r g.lon) (hlat : Fits r g.lat) (hdep : Fits r g.depth) (x y z : ℚ) (xi yi zi : Nat)
    (hxi : xi + 1 < g.lon.length) (hyi : yi + 1 < g.lat.length) (hzi : zi ≤ g.depth.length - 1) :
    SameCell (err ε 4) (Search.cSearchRect g x y z xi yi zi) (cSearchRect r g x y z xi yi zi) :=
  (c_rect_agree hr hε.1 hε.2 hg hf hlon hlat hdep x y z hxi hyi hzi).same

/-- A grid whose nodes are single-precision numbers but not round ones. -/
def exGrid : RGrid :=
  { lon := [FloatAdvect.f32 (1 / 10), 1, 3], lat := [0, FloatAdvect.f32 (1 / 3), 1], depth := [0, FloatAdvect.f32 (1 / 7), 30], spherical := false,
    zonalPeriodic := false, mom5 := false }

theorem exGrid_ordinary : Ordinary exGrid where
  lon := ⟨by unfold Increasing; decide +kernel, by decide⟩
  lat := ⟨by unfold Increasing; decide +kernel, by decide⟩
  depth := Or.inr (Or.inl (by unfold Increasing; decide +kernel))
  noHalo := rfl
  notMom5 := rfl

/-- The relative coordinates are really rounded: 0.7 in single precision is not where exact arithmetic puts it. -/
example : FloatAdvect.f32 (5 : ℚ) = 5 ∧
    (match searchRect scipy32 exGrid (FloatAdvect.f32 (7 / 10)) (1 / 2) 5, Search.searchRect exGrid (FloatAdvect.f32 (7 / 10)) (1 / 2) 5 with
      | .ok p, .ok q => decide (p.xi = 0 ∧ q.xi = 0 ∧ p.xsi ≠ q.xsi)
      | _, _ => false) = true := by decide +kernel

/-! ### One snapshot -/

/-- C96, sampling of one snapshot in Scipy mode, two and three dimensions: the same error, or a value within `sampleErr ε D`, if the data are at most `D`. -/
theorem C96_sample_scipy_partial (r : Arith) (ε : ℚ) (hr : r.Within ε) (hε : 0 ≤ ε ∧ ε ≤ 1 / 2) (g : RGrid) (hg : Ordinary g)
    (hlon : Fits r g.lon) (hlat : Fits r g.lat) (d : Arr) (D : ℚ) (hd : ∀ k j i, |d.v k j i| ≤ D) (x y z : ℚ) (hz : r.nd z = z) :
    Close (sampleErr ε D) (exactScipy g d x y z) (sample r g d x y z) := by
  have hD : 0 ≤ D := le_trans (abs_nonneg _) (hd 0 0 0)
  unfold exactScipy Interp.sample sample
  rcases rect_agree hr hε.1 hε.2 hg hlon hlat x y z hz with ⟨e, h1, h2⟩ | ⟨p, q, h1, h2, i1, i2, i3, ⟨b1, r1⟩, ⟨b2, r2⟩, ⟨b3, r3⟩⟩
  · rw [h1, h2]; rfl
  · rw [h1, h2]
    by_cases c : g.depth.length ≤ 1
    · simp only [if_pos c]
      have e : pyCell2 d q = pyCell2 d p := by unfold pyCell2; rw [i1, i2]
      rw [e]
      exact le_trans (bilin_err hr hε.1 b1 r1 r2 (fun j i => hd _ _ _)) (two_le hε.1 hD)
    · simp only [if_neg c]
      have e : pyCell3 d q = pyCell3 d p := by unfold pyCell3; rw [i1, i2, i3]
      rw [e]
      exact trilin_err hr hε.1 b1 b2 b3 r1 r2 r3 (fun k j i => hd _ _ _)

/-- C96, sampling of one snapshot in JIT mode, from any previous cell of the particle. -/
theorem C96_sample_jit_partial (r : Arith) (ε : ℚ) (hr : r.Within ε) (hε : 0 ≤ ε ∧ ε ≤ 1 / 2) (g : RGrid) (hg : Ordinary g) (hf : g.spherical = false)
    (hlon : Fits r g.lon) (hlat : Fits r g.lat) (hdep : Fits r g.depth) (d : Arr) (D : ℚ) (hd : ∀ k j i, |d.v k j i| ≤ D) (x y z : ℚ) (xi yi zi : Nat)
    (hxi : xi + 1 < g.lon.length) (hyi : yi + 1 < g.lat.length) (hzi : zi ≤ g.depth.length - 1) :
    Close (sampleErr ε D) (exactJit g d x y z xi yi zi) (cSample r g d x y z xi yi zi) := by
  have hD : 0 ≤ D := le_trans (abs_nonneg _) (hd 0 0 0)
  unfold exactJit Interp.cSample cSample
  rcases c_rect_agree hr hε.1 hε.2 hg hf hlon hlat hdep x y z hxi hyi hzi with
    ⟨e, h1, h2⟩ | ⟨p, q, h1, h2, i1, i2, i3, ⟨b1, r1⟩, ⟨b2, r2⟩, ⟨b3, r3⟩⟩
  · rw [h1, h2]; rfl
  · rw [h1, h2]
    by_cases c : g.depth.length ≤ 1
    · simp only [if_pos c, i1, i2]
      exact le_trans (bilin_err hr hε.1 b1 r1 r2 (fun j i => hd _ _ _)) (two_le hε.1 hD)
    · simp only [if_neg c, i1, i2, i3]
      exact trilin_err hr hε.1 b1 b2 b3 r1 r2 r3 (fun k j i => hd _ _ _)

/-- In single precision the error is less than 37 roundings of the largest value. -/
example (D : ℚ) (hD : 0 ≤ D) : sampleErr (1 / 2 ^ 24) D ≤ 37 / 2 ^ 24 * D := by
  unfold sampleErr err
  exact mul_le_mul_of_nonneg_right (by norm_num) hD

/-- The hypotheses are met by a sample whose value is really changed by rounding, in both modes. -/
example : (∀ k j i, |(⟨3, 3, 3, fun k j i => if k = 1 ∧ j = 1 ∧ i = 1 then 1 / 2 else 1⟩ : Arr).v k j i| ≤ 1) ∧
    (match sample scipy32 exGrid ⟨3, 3, 3, fun k j i => if k = 1 ∧ j = 1 ∧ i = 1 then 1 / 2 else 1⟩ (FloatAdvect.f32 (7 / 10)) (1 / 2) 5,
      cSample jit32 exGrid ⟨3, 3, 3, fun k j i => if k = 1 ∧ j = 1 ∧ i = 1 then 1 / 2 else 1⟩ (FloatAdvect.f32 (7 / 10)) (1 / 2) 5 1 0 2,
      exactScipy exGrid ⟨3, 3, 3, fun k j i => if k = 1 ∧ j = 1 ∧ i = 1 then 1 / 2 else 1⟩ (FloatAdvect.f32 (7 / 10)) (1 / 2) 5 with
    | .ok v, .ok w, .ok q => decide (v ≠ q ∧ w ≠ q)
    | _, _, _ => false) = true := by
  refine ⟨fun k j i => ?_, by decide +kernel⟩
  simp only
  split <;> norm_num

/-! ### Between two snapshots -/

theorem time_err_ge {ε η D : ℚ} (hε : 0 ≤ ε) (h : 0 ≤ D + η) : η ≤ timeErr ε η D := by
  unfold timeErr
  have := mul_nonneg (mul_nonneg (by norm_num : (0 : ℚ) ≤ 3) (err_nonneg hε 9)) h
  linarith

/-- C96, interpolation in time in Scipy mode: if the samples of all snapshots are within `η`, then so is the value at every time, up to a few roundings. -/
theorem C96_time_scipy_partial (r : Arith) (ε : ℚ) (hr : r.Within ε) (hε : 0 ≤ ε ∧ ε ≤ 1 / 2) (T : List ℚ) (hT : Increasing T) (hne : T ≠ [])
    (extrap : Bool) (snap snap' : Nat → Except Err ℚ) (η D : ℚ) (hη : 0 ≤ η) (hclose : ∀ j, Close η (snap j) (snap' j))
    (hD : ∀ j v, snap j = .ok v → |v| ≤ D) (hD0 : 0 ≤ D) (t : ℚ) (ht : r.tm t = t) :
    Close (timeErr ε η D) (TimeInterp.evalTime (TAxis.full T false extrap) snap t) (evalTime r (TAxis.full T false extrap) snap' t) := by
  have hlen : 1 ≤ T.length := List.length_pos_iff.mpr hne
  have one : ∀ j, Close (timeErr ε η D)
      (match snap j with
        | .error e => (.error (.space e) : Except SErr ℚ)
        | .ok f0 => .ok f0)
      (match snap' j with
        | .error e => (.error (.space e) : Except SErr ℚ)
        | .ok f0 => .ok f0) := by
    intro j
    have := hclose j
    generalize snap j = A at this ⊢
    generalize snap' j = B at this ⊢
    rcases A with e | v <;> rcases B with e' | v' <;> simp only [Close] at this ⊢
    · rw [this]
    · exact le_trans this (time_err_ge hε.1 (by linarith))
  unfold TimeInterp.evalTime evalTime
  rcases hI : timeIndex (TAxis.full T false extrap) t with e | ⟨ti, periods⟩
  · rfl
  simp only
  -- what the index is
  have hidx : periods = 0 ∧ ∃ n : Nat, ti = n ∧ n < T.length ∧ (n + 1 < T.length → T.getD n 0 < t → t ≤ T.getD (n + 1) 0) := by
    unfold timeIndex TAxis.full at hI
    simp only [Bool.false_eq_true, if_false] at hI
    split at hI
    · cases hI
    split at hI
    · simp only [Except.ok.injEq, Prod.mk.injEq] at hI
      exact ⟨hI.2.symm, T.length - 1, by omega, by omega, fun h => by omega⟩
    rename_i c2
    split at hI
    · rename_i c3
      simp only [Except.ok.injEq, Prod.mk.injEq] at hI
      refine ⟨hI.2.symm, 0, by rw [← hI.1]; rfl, by omega, fun _ h => ?_⟩
      have := (all_gt_iff hT hne t).mp c3
      linarith
    · rename_i c3
      simp only [Except.ok.injEq, Prod.mk.injEq] at hI
      have g1 : T.getD 0 0 ≤ t := by
        by_contra hh; exact c3 ((all_gt_iff hT hne t).mpr (not_le.mp hh))
      have g2 : t < T.getD (T.length - 1) 0 := by
        by_contra hh; exact c2 ((all_le_iff hT hne t).mpr (not_lt.mp hh))
      obtain ⟨n, a, b, _, d⟩ := argminIdx_spec hT g1 g2
      exact ⟨hI.2.symm, n, by rw [← hI.1, a], by omega, fun _ _ => d.le⟩
  obtain ⟨rfl, n, rfl, hn, hle⟩ := hidx
  have e1 : r.tm (t - r.tm (((0 : ℤ) : ℚ) * r.tm ((TAxis.full T false extrap).fullMax - (TAxis.full T false extrap).fullMin))) = t := by
    rw [Int.cast_zero, zero_mul, fl_zero' hr.tm, sub_zero, ht]
  have e2 : t - ((0 : ℤ) : ℚ) * ((TAxis.full T false extrap).fullMax - (TAxis.full T false extrap).fullMin) = t := by
    rw [Int.cast_zero, zero_mul, sub_zero]
  have e3 : (TAxis.full T false extrap).time = T := rfl
  have e4 : (TAxis.full T false extrap).tdim = T.length := rfl
  rw [e1, e2, e3, e4]
  have w0 : wrapIdx T.length (n : ℤ) = n := wrapIdx_nat _ _
  have w1 : wrapIdx T.length ((n : ℤ) + 1) = n + 1 := by
    have := wrapIdx_nat T.length (n + 1)
    push_cast at this
    exact this
  rw [w0, w1]
  by_cases c : (n : ℤ) < (T.length : ℤ) - 1 ∧ T.getD n 0 < t
  · simp only [if_pos c]
    have h0 := hclose n
    have h1 := hclose (n + 1)
    have d0 := hD n
    have d1 := hD (n + 1)
    generalize snap n = A at h0 d0 ⊢
    generalize snap' n = B at h0 ⊢
    generalize snap (n + 1) = A' at h1 d1 ⊢
    generalize snap' (n + 1) = B' at h1 ⊢
    rcases A with e | v <;> rcases B with e' | v' <;> simp only [Close] at h0
    · subst h0; rfl
    · rcases A' with e | w <;> rcases B' with e' | w' <;> simp only [Close] at h1
      · subst h1; rfl
      · have hlt := inc_lt hT (Nat.lt_succ_self n) (by omega)
        exact blend_err hr hε.1 hε.2 hlt c.2.le (hle (by omega) c.2) (d0 v rfl) (d1 w rfl) h0 h1
  · simp only [if_neg c]
    exact one n

/-- C96, interpolation in time in JIT mode, from any stored time index. -/
theorem C96_time_jit_partial (r : Arith) (ε : ℚ) (hr : r.Within ε) (hε : 0 ≤ ε ∧ ε ≤ 1 / 2) (T : List ℚ) (hT : Increasing T) (hne : T ≠ [])
    (extrap : Bool) (snap snap' : Nat → Except Err ℚ) (η D : ℚ) (hη : 0 ≤ η) (hclose : ∀ j, Close η (snap j) (snap' j))
    (hD : ∀ j v, snap j = .ok v → |v| ≤ D) (hD0 : 0 ≤ D) (t : ℚ) (ti : ℤ) (hti : ti < T.length) (fuel : Nat) :
    ∃ A B, TimeInterp.cEvalTime (TAxis.full T false extrap) snap (fuel + 1) t ti = some A ∧
      cEvalTime r (TAxis.full T false extrap) snap' (fuel + 1) t ti = some B ∧ Close (timeErr ε η D) A B := by
  have hlen : 1 ≤ T.length := List.length_pos_iff.mpr hne
  unfold TimeInterp.cEvalTime cEvalTime
  have e3 : (TAxis.full T false extrap).time = T := rfl
  have e4 : (TAxis.full T false extrap).tdim = T.length := rfl
  have e5 : (TAxis.full T false extrap).periodic = false := rfl
  by_cases c : (TAxis.full T false extrap).periodic = false ∧ (TAxis.full T false extrap).extrap = false ∧
      (t < (TAxis.full T false extrap).time.headD 0 ∨ (TAxis.full T false extrap).time.getD ((TAxis.full T false extrap).tdim - 1) 0 < t)
  · rw [if_pos c, if_pos c]
    exact ⟨_, _, rfl, rfl, rfl⟩
  rw [if_neg c, if_neg c, e3, e4, e5, List.take_length, cSearch_direct false _ _ _ _ _ _ (Or.inl rfl)]
  simp only
  have hst : startIdx ti < T.length := by unfold startIdx; split <;> omega
  obtain ⟨hn, hle⟩ : cWalk ltB T t (startIdx ti) < T.length ∧ (cWalk ltB T t (startIdx ti) + 1 < T.length →
      T.getD (cWalk ltB T t (startIdx ti)) 0 < t → t ≤ T.getD (cWalk ltB T t (startIdx ti) + 1) 0) := by
    rcases lt_or_ge t (T.getD 0 0) with h | h
    · rw [walk_before hT _ hst h]
      exact ⟨by omega, fun _ h' => by linarith⟩
    · obtain ⟨a, _, b⟩ := walk_in hT _ hst h
      exact ⟨a, fun h _ => b h⟩
  generalize cWalk ltB T t (startIdx ti) = n at hn hle
  have h0 := hclose n
  have d0 := hD n
  generalize snap n = A at h0 d0 ⊢
  generalize snap' n = B at h0 ⊢
  rcases A with e | v <;> rcases B with e' | v' <;> simp only [Close] at h0
  · subst h0; exact ⟨_, _, rfl, rfl, rfl⟩
  · rcases hb : (decide (n < T.length - 1) && decide (T.getD n 0 < t)) with _ | _
    · simp only [cond_false]
      refine ⟨_, _, rfl, rfl, ?_⟩
      have hv := d0 v rfl
      have b0 : |v'| ≤ D + η := by have := abs_add_le (v' - v) v; rw [sub_add_cancel] at this; linarith
      have z : r.tm 0 = 0 := fl_zero' hr.tm
      have zs : r.st 0 = 0 := fl_zero' hr.st
      have zb : r.bl 0 = 0 := fl_zero' hr.bl
      have e : blend r v' 0 (T.getD n 0) (T.getD n 0) (r.tm (T.getD n 0 + 1)) = r.bl v' := by
        unfold blend
        rw [sub_self, z, zero_div, z, zs, mul_zero, zb, add_zero]
      show |blend r v' 0 (T.getD n 0) (T.getD n 0) (r.tm (T.getD n 0 + 1)) - (v + (0 - v) * ((T.getD n 0 - T.getD n 0) / (T.getD n 0 + 1 - T.getD n 0)))| ≤ _
      rw [e, sub_self, zero_div, mul_zero, add_zero]
      have n1 := (((FloatAdvect.Near.refl hε.1 0 b0).round hr.bl hε.1).mono hε.1 (show 1 ≤ 9 by norm_num) le_rfl).1
      refine le_trans (abs_tri n1 h0) ?_
      have := mul_nonneg (err_nonneg hε.1 9) (show 0 ≤ D + η by linarith)
      unfold timeErr
      unfold err at this ⊢
      linarith
    · simp only [cond_true]
      rw [Bool.and_eq_true, decide_eq_true_iff, decide_eq_true_iff] at hb
      have h1 := hclose (n + 1)
      have d1 := hD (n + 1)
      generalize snap (n + 1) = A' at h1 d1 ⊢
      generalize snap' (n + 1) = B' at h1 ⊢
      rcases A' with e | w <;> rcases B' with e' | w' <;> simp only [Close] at h1
      · subst h1; exact ⟨_, _, rfl, rfl, rfl⟩
      · have hlt := inc_lt hT (Nat.lt_succ_self n) (by omega)
        exact ⟨_, _, rfl, rfl, blend_err hr hε.1 hε.2 hlt hb.2.le (hle (by omega) hb.2) (d0 v rfl) (d1 w rfl) h0 h1⟩

example : evalTime scipy32 (TAxis.full [0, 86400, 172800] false false) (fun j => .ok (j * j)) 100000 ≠
      TimeInterp.evalTime (TAxis.full [0, 86400, 172800] false false) (fun j => .ok (j * j)) 100000 ∧
    FloatTime.f64 100000 = 100000 := by decide +kernel

/-! ### Where it fails -/

/-- C96 is false if coordinates are in double precision (`lonlatdepth_dtype=np.float64`, the default on C grids), because widths of cells are computed
in single precision: on the grid `exGrid`, at longitude 1 - 10^-9 (inside the first cell), and at the node 1 itself in JIT mode, sampling fails with
a sampling error in both modes. (The first guess of the cell in Scipy mode is the same whether numpy compares in single or in double precision.) -/
theorem C96_double_fails :
    guess exGrid.lon (FloatAdvect.f32 (1 - 1 / 10 ^ 9)) = guess exGrid.lon (FloatTime.f64 (1 - 1 / 10 ^ 9)) ∧
    (∃ p, Search.searchRect exGrid (1 - 1 / 10 ^ 9) (1 / 2) 5 = .ok p) ∧
    searchRect scipy64 exGrid (FloatTime.f64 (1 - 1 / 10 ^ 9)) (1 / 2) 5 = .error .sampling ∧
    cSearchRect jit64 exGrid (FloatTime.f64 (1 - 1 / 10 ^ 9)) (1 / 2) 5 0 0 0 = .error .sampling ∧
    cSearchRect jit64 exGrid 1 (1 / 2) 5 0 0 0 = .error .sampling := by
  refine ⟨by decide +kernel, ?_, by decide +kernel, by decide +kernel, by decide +kernel⟩
  have h : (match Search.searchRect exGrid (1 - 1 / 10 ^ 9) (1 / 2) 5 with | .ok _ => true | _ => false) = true := by decide +kernel
  split at h
  · rename_i p hp; exact ⟨p, hp⟩
  · cases h

/-- C96 is false on a spherical mesh whose longitudes cross the date line, also in single precision: in Scipy mode 360 degrees are added to the
longitudes after the date line and subtracted again, both in single precision. The last longitude of the grid may come out smaller than it is, and a
particle on it raises IndexError. -/
theorem C96_dateline_fails :
    let g : RGrid := { exGrid with lon := [170, 180, -170, -120, FloatAdvect.f32 (-7001 / 100)], spherical := true }
    (∃ p, Search.searchRect g (FloatAdvect.f32 (-7001 / 100)) (1 / 2) 5 = .ok p) ∧
    searchRect scipy32 g (FloatAdvect.f32 (-7001 / 100)) (1 / 2) 5 = .error .index := by
  intro g
  refine ⟨?_, by decide +kernel⟩
  have h : (match Search.searchRect g (FloatAdvect.f32 (-7001 / 100)) (1 / 2) 5 with | .ok _ => true | _ => false) = true := by decide +kernel
  split at h
  · rename_i p hp; exact ⟨p, hp⟩
  · cases h

end Parcels.FloatSample
