import Verif.Spec.Plot
import Verif.Props.Search
import Verif.Proofs.PeriodRun

/-!
Lemmas for Props/Plot.
-/

namespace Parcels.Plot

open Search Interp TimeInterp
open GridRun (Fld Sound SpaceValue FieldValue exact_cases space_scipy)
open PeriodRun (Closed Value span)

/-- A time inside the axis: the index found for it. -/
theorem argmin_at {T : List ℚ} (hT : Increasing T) (hlen : 1 ≤ T.length) {s : ℚ} (h1 : T.getD 0 0 ≤ s) (h2 : s ≤ T.getD (T.length - 1) 0) :
    ∃ n, wrapIdx T.length (argminIdx T s) = n ∧ n < T.length ∧ T.getD n 0 ≤ s ∧ (s ≠ T.getD n 0 → argminIdx T s = n ∧ n + 1 < T.length) := by
  rcases lt_or_eq_of_le h2 with c | c
  · obtain ⟨n, e, hn, ha, hb⟩ := argminIdx_spec hT h1 c
    exact ⟨n, by rw [e, wrapIdx_nat], by omega, ha, fun _ => ⟨e, hn⟩⟩
  · have hne : T ≠ [] := List.length_pos_iff.mp hlen
    have hall := (all_le_iff hT hne s).mpr c.ge
    have hany : (T.any fun v => decide (v ≤ s)) = true := by
      rw [List.any_eq_true]
      exact ⟨T.getD 0 0, by rw [List.getD_eq_getElem T 0 (by omega)]; exact List.getElem_mem _, by simpa using h1⟩
    have e : argminIdx T s = -1 := by
      unfold argminIdx
      rw [if_pos hany, if_pos hall]
    refine ⟨T.length - 1, ?_, by omega, c.ge, fun hh => absurd c hh⟩
    rw [e]
    unfold wrapIdx
    rw [if_pos (by omega)]
    omega

/-- The index that `time_index` finds, if the time is then inside the axis. -/
theorem index_at {T : List ℚ} (hT : Increasing T) (hlen : 1 ≤ T.length) {per ex : Bool} {t : ℚ} {ti k : ℤ} (h : timeIndex (TAxis.full T per ex) t = .ok (ti, k))
    (h1 : T.getD 0 0 ≤ t - k * (T.getD (T.length - 1) 0 - T.getD 0 0)) (h2 : t - k * (T.getD (T.length - 1) 0 - T.getD 0 0) ≤ T.getD (T.length - 1) 0) :
    ∃ n, wrapIdx T.length ti = n ∧ n < T.length ∧ T.getD n 0 ≤ t - k * (T.getD (T.length - 1) 0 - T.getD 0 0) ∧
      (t - k * (T.getD (T.length - 1) 0 - T.getD 0 0) ≠ T.getD n 0 → ti = n ∧ n + 1 < T.length) := by
  have hne : T ≠ [] := List.length_pos_iff.mp hlen
  have hh := headD_getD T
  have hl := getLastD_getD T
  unfold timeIndex TAxis.full periodsOf at h
  simp only [hh, hl] at h
  split_ifs at h with c1 c2 c3 c4 c5
  · obtain ⟨rfl, rfl⟩ := Prod.mk.inj (Except.ok.inj h)
    exact argmin_at hT hlen h1 h2
  · obtain ⟨rfl, rfl⟩ := Prod.mk.inj (Except.ok.inj h)
    simp only [Int.cast_zero, zero_mul, sub_zero] at h1 h2 ⊢
    exact argmin_at hT hlen h1 h2
  · obtain ⟨rfl, rfl⟩ := Prod.mk.inj (Except.ok.inj h)
    simp only [Int.cast_zero, zero_mul, sub_zero] at h1 h2 ⊢
    have c := (all_le_iff hT hne t).mp c4
    refine ⟨T.length - 1, ?_, by omega, c, fun hh => absurd (le_antisymm h2 c) hh⟩
    unfold wrapIdx
    rw [if_neg (by omega)]
    omega
  · obtain ⟨rfl, rfl⟩ := Prod.mk.inj (Except.ok.inj h)
    simp only [Int.cast_zero, zero_mul, sub_zero] at h1 h2 ⊢
    have c := (all_gt_iff hT hne t).mp c5
    linarith
  · obtain ⟨rfl, rfl⟩ := Prod.mk.inj (Except.ok.inj h)
    simp only [Int.cast_zero, zero_mul, sub_zero] at h1 h2 ⊢
    exact argmin_at hT hlen h1 h2

/-- What is displayed and what is sampled are the same combination of the snapshots. -/
theorem combine {per : Bool} {f : Fld} (hT : Increasing f.time) (hlen : 1 ≤ f.time.length) {t t' : ℚ} {ti : ℤ} (h : shownAt per f t = .ok (ti, t')) :
    ∃ g, levels f ti t' = .ok g ∧ ∃ n n' : Nat, ∃ c : ℚ, n < f.time.length ∧ n' < f.time.length ∧
      (∀ k j i, g k j i = (f.data n).v k j i + ((f.data n').v k j i - (f.data n).v k j i) * c) ∧
      ∀ (sn : Nat → Except Err ℚ) (v : Nat → ℚ), (∀ m, m < f.time.length → sn m = .ok (v m)) →
        evalTime (TAxis.full f.time per f.extrap) sn t = .ok (v n + (v n' - v n) * c) := by
  have hh := headD_getD f.time
  have hl := getLastD_getD f.time
  unfold shownAt at h
  rw [hh, hl] at h
  cases hti : timeIndex (TAxis.full f.time per f.extrap) t with
  | error e => rw [hti] at h; cases h
  | ok a =>
    obtain ⟨i0, k⟩ := a
    rw [hti] at h
    simp only at h
    split_ifs at h with hc
    obtain ⟨rfl, rfl⟩ := Prod.mk.inj (Except.ok.inj h)
    push Not at hc
    obtain ⟨n, e1, e2, e3, e4⟩ := index_at hT hlen hti hc.2 hc.1
    have hev : ∀ (sn : Nat → Except Err ℚ) (v : Nat → ℚ), (∀ m, m < f.time.length → sn m = .ok (v m)) →
        t - k * (f.time.getD (f.time.length - 1) 0 - f.time.getD 0 0) = f.time.getD n 0 → evalTime (TAxis.full f.time per f.extrap) sn t = .ok (v n) := by
      intro sn v hv he
      unfold evalTime
      rw [hti]
      have : ¬ (i0 < ((TAxis.full f.time per f.extrap).tdim : ℤ) - 1 ∧ f.time.getD (wrapIdx f.time.length i0) 0 < t - k * (f.time.getLastD 0 - f.time.headD 0)) := by
        rw [e1, hh, hl, he]
        rintro ⟨_, c⟩
        exact lt_irrefl _ c
      refine (if_neg this).trans ?_
      show (match sn (wrapIdx f.time.length i0) with | .error e => _ | .ok f0 => _) = _
      rw [e1, hv n e2]
    by_cases c1 : 1 < f.time.length
    · unfold levels
      rw [if_pos c1]
      unfold fullfield
      simp only [e1]
      by_cases c2 : t - k * (f.time.getD (f.time.length - 1) 0 - f.time.getD 0 0) = f.time.getD n 0
      · rw [if_pos c2]
        exact ⟨_, rfl, n, n, 0, e2, e2, fun k j i => by ring, fun sn v hv => by rw [hev sn v hv c2]; congr 1; ring⟩
      · obtain ⟨e5, e6⟩ := e4 c2
        rw [if_neg c2, if_neg (by omega), e5, show ((n : ℤ) + 1) = ((n + 1 : Nat) : ℤ) by push_cast; ring, wrapIdx_nat]
        refine ⟨_, rfl, n, n + 1, _, e2, e6, fun k j i => rfl, fun sn v hv => ?_⟩
        unfold evalTime
        rw [hti]
        have : (i0 < ((TAxis.full f.time per f.extrap).tdim : ℤ) - 1 ∧ f.time.getD (wrapIdx f.time.length i0) 0 < t - k * (f.time.getLastD 0 - f.time.headD 0)) := by
          rw [e1, hh, hl, e5]
          refine ⟨?_, lt_of_le_of_ne e3 (Ne.symm c2)⟩
          simp only [TAxis.full]
          omega
        refine (if_pos this).trans ?_
        simp only [TAxis.full]
        rw [e1, hv n e2, e5, show ((n : ℤ) + 1) = ((n + 1 : Nat) : ℤ) by push_cast; ring, wrapIdx_nat, hv (n + 1) e6, hh, hl]
    · unfold levels
      rw [if_neg c1]
      have en : n = 0 := by omega
      subst en
      refine ⟨_, rfl, 0, 0, 0, e2, e2, fun k j i => by ring, fun sn v hv => ?_⟩
      rw [hev sn v hv (by by_contra hne; have := (e4 hne).2; omega)]
      congr 1; ring

/-- When the time can be displayed. -/
theorem shown_iff {per : Bool} {f : Fld} (hf : Sound f) (hp : per = true → Closed f) (t : ℚ) :
    (∃ a, shownAt per f t = .ok a) ↔ (per = true ∨ InRange f.time t) := by
  have hT := hf.timeInc
  have hne : f.time ≠ [] := List.length_pos_iff.mp hf.timeLen
  have hh := headD_getD f.time
  have hl := getLastD_getD f.time
  have hr : InRange f.time t ↔ f.time.getD 0 0 ≤ t ∧ t ≤ f.time.getD (f.time.length - 1) 0 := by
    constructor
    · rintro ⟨a, b, ha, hb, h1, h2⟩
      obtain ⟨i, hi, rfl⟩ := List.getElem_of_mem ha
      obtain ⟨j, hj, rfl⟩ := List.getElem_of_mem hb
      have e1 := inc_le hT (Nat.zero_le i) hi
      have e2 := inc_le hT (show j ≤ f.time.length - 1 by omega) (by omega)
      rw [List.getD_eq_getElem f.time 0 hi] at e1
      rw [List.getD_eq_getElem f.time 0 hj] at e2
      exact ⟨by linarith, by linarith⟩
    · have := hf.timeLen
      rintro ⟨h1, h2⟩
      refine ⟨_, _, ?_, ?_, h1, h2⟩
      · rw [List.getD_eq_getElem f.time 0 (by omega)]; exact List.getElem_mem _
      · rw [List.getD_eq_getElem f.time 0 (by omega)]; exact List.getElem_mem _
  rw [hr]
  unfold shownAt timeIndex TAxis.full periodsOf
  simp only [hh, hl, all_le_iff hT hne, all_gt_iff hT hne, Bool.or_eq_true]
  cases per with
  | false =>
    simp only [Bool.false_eq_true, if_false, true_and, false_or]
    constructor
    · rintro ⟨a, h⟩
      by_contra hc
      have hc' : f.time.getD (f.time.length - 1) 0 < t ∨ t < f.time.getD 0 0 := by
        by_contra h3; push Not at h3; exact hc ⟨h3.2, h3.1⟩
      split_ifs at h <;> simp only [Int.cast_zero, zero_mul, sub_zero] at h <;> first | cases h | (rw [if_pos hc'] at h; cases h)
    · rintro ⟨h1, h2⟩
      have hc : ¬ (f.time.getD (f.time.length - 1) 0 < t ∨ t < f.time.getD 0 0) := by push Not; exact ⟨h2, h1⟩
      have hc2 : ¬ (f.extrap = false ∧ (t < f.time.getD 0 0 ∨ f.time.getD (f.time.length - 1) 0 < t)) := fun h => hc h.2.symm
      rw [if_neg hc2]
      split_ifs <;> simp only [Int.cast_zero, zero_mul, sub_zero] <;> rw [if_neg hc] <;> exact ⟨_, rfl⟩
  | true =>
    have h2 := (hp rfl).two
    have hP := inc_lt hT (show 0 < f.time.length - 1 by omega) (by omega)
    have hP' : 0 < f.time.getD (f.time.length - 1) 0 - f.time.getD 0 0 := by linarith
    simp only [Bool.true_eq_false, false_and, if_false, if_true, true_or, iff_true]
    generalize f.time.getD (f.time.length - 1) 0 = b at *
    generalize f.time.getD 0 0 = a at *
    by_cases c : b ≤ t ∨ t < a
    · rw [if_pos c]
      have f1 := Int.floor_le ((t - a) / (b - a))
      have f2 := Int.lt_floor_add_one ((t - a) / (b - a))
      rw [le_div_iff₀ hP'] at f1
      rw [div_lt_iff₀ hP'] at f2
      simp only
      rw [if_neg (by push Not; constructor <;> nlinarith)]
      exact ⟨_, rfl⟩
    · rw [if_neg c]
      push Not at c
      simp only [Int.cast_zero, zero_mul, sub_zero]
      rw [if_neg (by push Not; exact ⟨c.1.le, c.2⟩)]
      exact ⟨_, rfl⟩

/-- A node of an axis, and the interpolation there. -/
theorem node {l : List ℚ} (hl : 2 ≤ l.length) {i : Nat} (hi : i < l.length) :
    ∃ j : Nat, ∃ r : ℚ, Locates l (l.getD i 0) j r ∧ ∀ v : Nat → ℚ, lerp r (v j) (v (j + 1)) = v i := by
  rcases exact_cases (getD_some hi) with ⟨c, -⟩ | h
  · omega
  · exact h

/-- The interpolation in space at a node is the value at the node. -/
theorem space_node {f : Fld} (hf : Sound f) (d : Arr) {k j i : Nat} (hi : i < f.grid.lon.length) (hj : j < f.grid.lat.length) (hk : 2 ≤ f.grid.depth.length → k < f.grid.depth.length)
    {z : ℚ} (hz : 2 ≤ f.grid.depth.length → z = f.grid.depth.getD k 0) :
    SpaceValue f.grid d z (f.grid.lat.getD j 0) (f.grid.lon.getD i 0) (d.v (if 1 < f.grid.depth.length then k else 0) j i) := by
  obtain ⟨n, r, h1, h2⟩ := node hf.lonLen hi
  obtain ⟨m, s, h3, h4⟩ := node hf.latLen hj
  have hb : ∀ q, bilinearAt d q m n s r = d.v q j i := by
    intro q
    unfold bilinearAt
    rw [h2 (fun a => d.v q m a), h2 (fun a => d.v q (m + 1) a)]
    exact h4 fun a => d.v q a i
  refine ⟨n, m, r, s, h1, h3, fun c => by rw [if_neg (by omega), hb], fun c => ?_⟩
  obtain ⟨p, q, h5, h6⟩ := node c (hk c)
  refine ⟨p, q, by rw [hz c]; exact h5, ?_⟩
  unfold trilinearAt
  rw [if_pos (by omega), hb, hb]
  exact (h6 fun a => d.v a j i).symm

theorem lerp_half (a b : ℚ) : lerp (1 / 2) a b = (a + b) / 2 := by unfold lerp; ring

theorem mid_locates {l : List ℚ} {i : Nat} (hi : i + 1 < l.length) : Locates l ((l.getD i 0 + l.getD (i + 1) 0) / 2) i (1 / 2) :=
  ⟨i, _, _, rfl, getD_some (by omega), getD_some hi, by norm_num, by norm_num, by ring⟩

/-- The interpolation in space in the middle of four nodes. -/
theorem space_mid {f : Fld} (d : Arr) {k j i : Nat} (hi : i + 1 < f.grid.lon.length) (hj : j + 1 < f.grid.lat.length) (hk : 2 ≤ f.grid.depth.length → k < f.grid.depth.length)
    {z : ℚ} (hz : 2 ≤ f.grid.depth.length → z = f.grid.depth.getD k 0) {kk : Nat} (hkk : kk = if 1 < f.grid.depth.length then k else 0) :
    SpaceValue f.grid d z ((f.grid.lat.getD j 0 + f.grid.lat.getD (j + 1) 0) / 2) ((f.grid.lon.getD i 0 + f.grid.lon.getD (i + 1) 0) / 2)
      ((d.v kk j i + d.v kk (j + 1) i + d.v kk j (i + 1) + d.v kk (j + 1) (i + 1)) / 4) := by
  have hb : ∀ q, bilinearAt d q j i (1 / 2) (1 / 2) = (d.v q j i + d.v q (j + 1) i + d.v q j (i + 1) + d.v q (j + 1) (i + 1)) / 4 := by
    intro q
    unfold bilinearAt
    rw [lerp_half, lerp_half, lerp_half]
    ring
  refine ⟨i, j, 1 / 2, 1 / 2, mid_locates hi, mid_locates hj, fun c => by rw [hkk, if_neg (by omega), hb], fun c => ?_⟩
  obtain ⟨p, q, h5, h6⟩ := node c (hk c)
  refine ⟨p, q, by rw [hz c]; exact h5, ?_⟩
  unfold trilinearAt
  rw [hkk, if_pos (by omega), hb, hb]
  exact (h6 fun a => (d.v a j i + d.v a (j + 1) i + d.v a j (i + 1) + d.v a (j + 1) (i + 1)) / 4).symm

/-- Sampling a position where every snapshot has the given value. -/
theorem value_at {per : Bool} {f : Fld} (hf : Sound f) (hp : per = true → Closed f) {t z y x w : ℚ} {v : Nat → ℚ} (hs : ∀ m, SpaceValue f.grid (f.data m) z y x (v m))
    (he : evalTime (TAxis.full f.time per f.extrap) (GridRun.snap f z y x) t = .ok w) : Value per f t z y x w := by
  rw [← PeriodRun.eval_iff hf hp]
  unfold PeriodRun.eval
  rw [he]

theorem snap_ok {f : Fld} (hf : Sound f) {z y x : ℚ} {v : Nat → ℚ} (hs : ∀ m, SpaceValue f.grid (f.data m) z y x (v m)) (m : Nat) : GridRun.snap f z y x m = .ok (v m) := by
  unfold GridRun.snap
  rw [space_scipy hf _ (hs m)]

theorem slice_get {l : List ℚ} {a b i : Nat} {x : ℚ} (h : (slice l a b)[i]? = some x) : a + i < l.length ∧ a + i < b ∧ l.getD (a + i) 0 = x := by
  have hi := (List.getElem?_eq_some_iff.mp h).1
  unfold slice at h hi
  rw [List.length_take, List.length_drop] at hi
  have h1 : a + i < l.length := by omega
  refine ⟨h1, by omega, ?_⟩
  rw [List.getElem?_take, if_pos (by omega), List.getElem?_drop, getD_some h1] at h
  exact Option.some.inj h

theorem slice_of {l : List ℚ} {a b n : Nat} (h1 : a ≤ n) (h2 : n < b) (h3 : n < l.length) : (slice l a b)[n - a]? = some (l.getD n 0) := by
  unfold slice
  rw [List.getElem?_take, if_pos (by omega), List.getElem?_drop, show a + (n - a) = n by omega, getD_some h3]

theorem slice_all (l : List ℚ) : slice l 0 l.length = l := by simp [slice]

/-- The parts of a display. -/
theorem plot_parts {per : Bool} {f : Fld} {dom : Option Domain} {level : Nat} {t : ℚ} {m : Img} (h : plotOne per f dom level t = .ok m) :
    ∃ ti latN latS lonE lonW g, shownAt per f t = .ok (ti, m.time) ∧ parsedomain dom f.grid = .ok (latN, latS, lonE, lonW) ∧ levels f ti m.time = .ok g ∧
      ¬ (1 < f.grid.depth.length ∧ f.grid.depth.length ≤ level) ∧ m.x = slice f.grid.lon lonW.toNat lonE.toNat ∧ m.y = slice f.grid.lat latS.toNat latN.toNat ∧
      ∀ j i, m.v j i = g (if 1 < f.grid.depth.length then level else 0) (latS.toNat + j) (lonW.toNat + i) := by
  unfold plotOne at h
  cases h1 : shownAt per f t with
  | error e => rw [h1] at h; cases h
  | ok a =>
    obtain ⟨ti, t'⟩ := a
    rw [h1] at h
    cases h2 : parsedomain dom f.grid with
    | error e => rw [h2] at h; cases h
    | ok b =>
      obtain ⟨latN, latS, lonE, lonW⟩ := b
      rw [h2] at h
      cases h3 : levels f ti t' with
      | error e => simp only [h3] at h; cases h
      | ok g =>
        simp only [h3] at h
        by_cases c : 1 < f.grid.depth.length ∧ f.grid.depth.length ≤ level
        · rw [if_pos c] at h; cases h
        rw [if_neg c] at h
        have e := Except.ok.inj h
        subst e
        exact ⟨ti, latN, latS, lonE, lonW, g, rfl, rfl, h3, c, rfl, rfl, fun _ _ => rfl⟩

/-- The cell found on an axis: the coordinate is beyond its first node, unless it is the first one of the axis. -/
theorem axis_strict {l : List ℚ} (h : Increasing l) (hl : 2 ≤ l.length) {x : ℚ} (h1 : l.getD 0 0 ≤ x) (h2 : x ≤ l.getD (l.length - 1) 0) :
    ∃ n : Nat, ∃ r : ℚ, axisSearch l x = some ((n : ℤ), r) ∧ n + 1 < l.length ∧ inUnit r = true ∧ x ≤ l.getD (n + 1) 0 ∧ (l.getD 0 0 < x → l.getD n 0 < x) ∧ l.getD n 0 ≤ x := by
  obtain ⟨n, hn, ha, hb, hg⟩ := guess_found h hl h1 h2
  obtain ⟨r1, r2, r3⟩ := rel_bounds (inc_lt h (Nat.lt_succ_self n) hn) ha hb
  refine ⟨n, (x - l.getD n 0) / (l.getD (n + 1) 0 - l.getD n 0), ?_, hn, ?_, hb, ?_, ha⟩
  · unfold axisSearch
    rw [hg, rel_nat hn]
    simp only
    rw [if_neg (not_lt.mpr r1), if_neg (not_lt.mpr r2)]
  · unfold inUnit
    rw [decide_eq_true r1, decide_eq_true r2]
    rfl
  · intro h0
    by_contra hc
    have hx : x = l.getD n 0 := le_antisymm (not_lt.mp hc) ha
    have hmem : l.getD (l.length - 1) 0 ∈ l := by rw [List.getD_eq_getElem l 0 (by omega)]; exact List.getElem_mem _
    unfold guess at hg
    have c1 : ¬ (l.all fun v => decide (v < x)) = true := by
      rw [List.all_eq_true]
      intro hall
      have := hall _ hmem
      simp only [decide_eq_true_eq] at this
      linarith
    have c2 : (l.any fun v => decide (v < x)) = true := by
      rw [List.any_eq_true]
      exact ⟨l.getD 0 0, by rw [List.getD_eq_getElem l 0 (by omega)]; exact List.getElem_mem _, by simpa using h0⟩
    rw [if_neg c1, if_pos c2] at hg
    obtain ⟨k1, k2, k3⟩ := findIdx_spec l (fun v => !decide (v < x)) ⟨_, hmem, by simpa using h2⟩
    have := k3 n (by omega)
    simp only [Bool.not_eq_false', decide_eq_true_eq] at this
    exact hc this

theorem flat2 {f : Fld} (hf : Sound f) : FlatGrid { f.grid with depth := [] } := ⟨hf.flat, hf.noHalo, hf.lonInc, hf.lonLen, hf.latInc, hf.latLen⟩

/-- The search of a corner of the domain. -/
theorem corner {f : Fld} (hf : Sound f) {x y : ℚ} (hx : InRange f.grid.lon x) (hy : InRange f.grid.lat y) :
    ∃ p, ∃ n m : Nat, searchRect { f.grid with depth := [] } x y 0 = .ok p ∧ p.xi = n ∧ p.yi = m ∧ n + 1 < f.grid.lon.length ∧ m + 1 < f.grid.lat.length ∧
      x ≤ f.grid.lon.getD (n + 1) 0 ∧ (f.grid.lon.getD 0 0 < x → f.grid.lon.getD n 0 < x) ∧ f.grid.lon.getD n 0 ≤ x ∧
      y ≤ f.grid.lat.getD (m + 1) 0 ∧ (f.grid.lat.getD 0 0 < y → f.grid.lat.getD m 0 < y) ∧ f.grid.lat.getD m 0 ≤ y := by
  have lonLen := hf.lonLen
  have latLen := hf.latLen
  rw [inRange_inc hf.lonInc hf.lonLen] at hx
  rw [inRange_inc hf.latInc hf.latLen] at hy
  obtain ⟨n, r, a1, a2, a3, a4, a5, a6⟩ := axis_strict hf.lonInc hf.lonLen hx.1 hx.2
  obtain ⟨m, s, b1, b2, b3, b4, b5, b6⟩ := axis_strict hf.latInc hf.latLen hy.1 hy.2
  have e1 : searchX { f.grid with depth := [] } x = some ((n : ℤ), r) := by
    simp only [searchX, if_pos (show 1 < f.grid.lon.length by omega), hf.flat, cond_false, a1]
  have e2 : searchY { f.grid with depth := [] } y = some ((m : ℤ), s) := by
    simp only [searchY, if_pos (show 1 < f.grid.lat.length by omega), b1]
  have e3 : searchDepth { f.grid with depth := [] } 0 = .ok (-1, 0) := rfl
  have u0 : inUnit 0 = true := by decide +kernel
  refine ⟨⟨r, s, 0, n, m, -1⟩, n, m, ?_, rfl, rfl, a2, b2, a4, a5, a6, b4, b5, b6⟩
  unfold searchRect
  rw [if_neg (by simp only [minL_inc hf.lonInc, maxL_inc hf.lonInc]; rintro ⟨_, _, h | h⟩ <;> linarith)]
  rw [if_neg (by simp only [minL_inc hf.latInc, maxL_inc hf.latInc]; rintro ⟨_, h | h⟩ <;> linarith)]
  simp only [e1, e2, e3, a3, b3, u0, Bool.and_self, if_true]

/-- When the domain can be displayed. -/
theorem domain_iff {f : Fld} (hf : Sound f) (dom : Option Domain) : (∃ b, parsedomain dom f.grid = .ok b) ↔ Inside dom f := by
  cases dom with
  | none => exact ⟨fun _ d h => (by cases h), fun _ => ⟨_, rfl⟩⟩
  | some d =>
    have hs := fun x y => (C24_scipy { f.grid with depth := [] } (flat2 hf) (by simp) x y 0).2
    simp only at hs
    constructor
    · rintro ⟨b, hb⟩ d' hd
      cases hd
      unfold parsedomain at hb
      have h1 : InRange f.grid.lon d.W ∧ InRange f.grid.lat d.S := by
        by_contra hc
        simp only [hs _ _ hc] at hb
        cases hb
      have h2 : InRange f.grid.lon d.E ∧ InRange f.grid.lat d.N := by
        by_contra hc
        simp only [hs _ _ hc] at hb
        split at hb
        · next heq => cases heq
        · cases hb
      exact ⟨h1.1, h2.1, h1.2, h2.2⟩
    · intro h
      obtain ⟨h1, h2, h3, h4⟩ := h d rfl
      obtain ⟨p, -, -, e, -⟩ := corner hf h1 h3
      obtain ⟨q, -, -, e', -⟩ := corner hf h2 h4
      unfold parsedomain
      simp only [e, e']
      exact ⟨_, rfl⟩

/-- A position inside a cell is in no other one. -/
theorem cell_unique {l : List ℚ} (hl : Increasing l) {x r a b : ℚ} {i : Nat} {k : ℤ} (h : Locates l x k r) (ha : l[i]? = some a) (hb : l[i + 1]? = some b) (h1 : a < x) (h2 : x < b) : k = i := by
  obtain ⟨n, u, v, rfl, hu, hv, r0, r1, hx⟩ := h
  have hi := (List.getElem?_eq_some_iff.mp hb).1
  have hn := (List.getElem?_eq_some_iff.mp hv).1
  rw [getD_some (by omega)] at ha hu
  rw [getD_some hi] at hb
  rw [getD_some hn] at hv
  obtain rfl := Option.some.inj ha
  obtain rfl := Option.some.inj hb
  obtain rfl := Option.some.inj hu
  obtain rfl := Option.some.inj hv
  have hlt := inc_lt hl (Nat.lt_succ_self n) hn
  have b1 : l.getD n 0 ≤ x := by rw [hx]; nlinarith
  have b2 : x ≤ l.getD (n + 1) 0 := by rw [hx]; nlinarith
  rcases Nat.lt_trichotomy n i with c | c | c
  · have := inc_le hl (show n + 1 ≤ i by omega) (by omega); linarith
  · rw [c]
  · have := inc_le hl (show i + 1 ≤ n by omega) (by omega); linarith

end Parcels.Plot
