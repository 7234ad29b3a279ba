import Verif.Spec.Analytical
import Verif.Proofs.CGrid
import Mathlib.Analysis.SpecialFunctions.ExpDeriv

/-!
Lemmas about analytical advection.
-/

namespace Parcels.Analytical

theorem tol_pos : 0 < tol := by unfold tol; norm_num

theorem slope_small {F0 F1 : ℝ} (h : |F0 - F1| < tol) : slope F0 F1 = 0 := if_pos h
theorem slope_large {F0 F1 : ℝ} (h : tol ≤ |F0 - F1|) : slope F0 F1 = F0 - F1 := if_neg (not_lt.mpr h)

theorem rs_small {F0 F1 : ℝ} (h : |F0 - F1| < tol) (r s : ℝ) : computeRs F0 F1 r s = F0 * s + r := by
  unfold computeRs
  simp only [slope_small h]
  rw [if_pos (by rw [abs_zero]; exact tol_pos)]
  ring

theorem rs_large {F0 F1 : ℝ} (h : tol ≤ |F0 - F1|) (r s : ℝ) :
    computeRs F0 F1 r s = (r - F0 / (F0 - F1)) * Real.exp (-(F0 - F1) * s) + F0 / (F0 - F1) := by
  unfold computeRs
  simp only [slope_large h]
  rw [if_neg (not_lt.mpr h)]
  ring

theorem cut_some {d e : ℝ} (h : cut d = some e) : e = d ∧ tol ≤ |d| := by
  unfold cut at h
  split at h
  · cases h
  · next hd => injection h with h; exact ⟨h.symm, not_lt.mp hd⟩

theorem speed_zero {F0 F1 z : ℝ} (hB : F0 - F1 ≠ 0) (h : speed F0 F1 z = 0) : z = F0 / (F0 - F1) := by
  rw [eq_div_iff hB]
  unfold speed at h
  linear_combination -h

theorem target_cases (F0 F1 r : ℝ) :
    (0 ≤ speed F0 F1 r ∧ target 1 F0 F1 r = 1) ∨ (speed F0 F1 r < 0 ∧ target 1 F0 F1 r = 0) := by
  unfold target speed
  rw [one_mul]
  by_cases h : F0 * (1 - r) + F1 * r ≥ 0
  · left; exact ⟨h, if_pos h⟩
  · right; exact ⟨not_le.mp h, if_neg h⟩

/-- Between a and b = a e with e between 1 and b / a. -/
theorem between {a b e : ℝ} (he : (1 ≤ e ∧ e ≤ b / a) ∨ (b / a ≤ e ∧ e ≤ 1)) (ha : a ≠ 0) :
    (a ≤ a * e ∧ a * e ≤ b) ∨ (b ≤ a * e ∧ a * e ≤ a) := by
  have hb : a * (b / a) = b := by field_simp
  rcases lt_or_gt_of_ne ha with h | h
  · rcases he with ⟨h1, h2⟩ | ⟨h1, h2⟩
    · right
      constructor
      · rw [← hb]; exact mul_le_mul_of_nonpos_left h2 h.le
      · nlinarith
    · left
      constructor
      · nlinarith
      · rw [← hb]; exact mul_le_mul_of_nonpos_left h1 h.le
  · rcases he with ⟨h1, h2⟩ | ⟨h1, h2⟩
    · left
      constructor
      · nlinarith
      · calc a * e ≤ a * (b / a) := mul_le_mul_of_nonneg_left h2 h.le
          _ = b := hb
    · right
      constructor
      · calc b = a * (b / a) := hb.symm
          _ ≤ a * e := mul_le_mul_of_nonneg_left h1 h.le
      · nlinarith

/-- One direction, forward in time, with finite travel time. -/
theorem axis_finite {F0 F1 r d : ℝ} (h0 : 0 ≤ r) (h1 : r ≤ 1) (h : computeDs 1 F0 F1 r = some (some d)) :
    tol ≤ d ∧ computeRs F0 F1 r d = target 1 F0 F1 r ∧ ∀ s, 0 ≤ s → s ≤ d → 0 ≤ computeRs F0 F1 r s ∧ computeRs F0 F1 r s ≤ 1 := by
  have ht := tol_pos
  unfold computeDs at h
  simp only at h
  split_ifs at h with c1 c2 c3 c4
  · injection h with h
    cases h
  · -- no slope
    injection h with h
    obtain ⟨rfl, hd⟩ := cut_some h
    have hB : |F0 - F1| < tol := by
      by_contra hc
      rw [slope_large (not_lt.mp hc)] at c2
      rw [c2, abs_zero] at hc
      exact hc ht
    have hF : tol ≤ |F0| := by
      by_contra hc
      apply c1
      rw [c2, abs_zero, abs_neg]
      exact ⟨ht, not_le.mp hc⟩
    have hF0 : F0 ≠ 0 := by
      intro hc; rw [hc, abs_zero] at hF; linarith
    have hde : -(target 1 F0 F1 r - r) / -F0 = (target 1 F0 F1 r - r) / F0 := neg_div_neg_eq _ _
    rw [hde] at hd ⊢
    have hsign : (0 < F0 ∧ target 1 F0 F1 r = 1) ∨ (F0 < 0 ∧ target 1 F0 F1 r = 0) := by
      rw [abs_lt] at hB
      have hr : |(F0 - F1) * r| < tol := by
        rw [abs_lt]
        rcases eq_or_lt_of_le h0 with h | h
        · rw [← h]; constructor <;> linarith
        · constructor <;> nlinarith
      rw [abs_lt] at hr
      have hs : speed F0 F1 r = F0 - (F0 - F1) * r := by unfold speed; ring
      rcases lt_or_gt_of_ne hF0 with hn | hp
      · right
        rw [abs_of_neg hn] at hF
        rcases target_cases F0 F1 r with ⟨k, _⟩ | ⟨_, k⟩
        · rw [hs] at k; linarith [hr.1]
        · exact ⟨hn, k⟩
      · left
        rw [abs_of_pos hp] at hF
        rcases target_cases F0 F1 r with ⟨_, k⟩ | ⟨k, _⟩
        · exact ⟨hp, k⟩
        · rw [hs] at k; linarith [hr.2]
    have hnn : 0 ≤ (target 1 F0 F1 r - r) / F0 := by
      rcases hsign with ⟨hp, hk⟩ | ⟨hn, hk⟩
      · rw [hk]; exact div_nonneg (by linarith) hp.le
      · rw [hk]; exact div_nonneg_of_nonpos (by linarith) hn.le
    rw [abs_of_nonneg hnn] at hd
    refine ⟨hd, ?_, ?_⟩
    · rw [rs_small hB]; field_simp; ring
    · intro s hs0 hs1
      rw [rs_small hB]
      rcases hsign with ⟨hp, hk⟩ | ⟨hn, hk⟩
      · rw [hk, le_div_iff₀ hp] at hs1
        constructor
        · nlinarith
        · linarith [mul_comm s F0]
      · rw [hk, le_div_iff_of_neg hn] at hs1
        constructor
        · linarith [mul_comm s F0]
        · nlinarith
  · injection h with h
    cases h
  · -- slope
    injection h with h
    have hB : tol ≤ |F0 - F1| := by
      by_contra hc
      exact c2 (slope_small (not_le.mp hc))
    rw [slope_large hB] at h c4 c3
    have hB0 : F0 - F1 ≠ 0 := by
      intro hc; rw [hc, abs_zero] at hB; linarith
    generalize hBe : F0 - F1 = B at *
    have e1 : target 1 F0 F1 r + -F0 / B = target 1 F0 F1 r - F0 / B := by rw [neg_div]; ring
    have e2 : r + -F0 / B = r - F0 / B := by rw [neg_div]; ring
    rw [e1, e2] at h c4
    obtain ⟨rfl, hd⟩ := cut_some h
    set b := target 1 F0 F1 r - F0 / B with hb
    set a := r - F0 / B with ha
    have hab : 0 < b * a := lt_of_lt_of_le ht (not_lt.mp c4)
    have ha0 : a ≠ 0 := by intro hc; rw [hc, mul_zero] at hab; exact lt_irrefl _ hab
    have hq : 0 < b / a := by
      have : b / a = b * a / (a * a) := by field_simp
      rw [this]
      exact div_pos hab (mul_self_pos.mpr ha0)
    have hsp : speed F0 F1 r = -(B * a) := by
      rw [ha, mul_sub, mul_div_cancel₀ _ hB0, ← hBe]
      unfold speed; ring
    have hrs : ∀ s, computeRs F0 F1 r s = a * Real.exp (-B * s) + F0 / B := by
      intro s
      rw [rs_large (by rw [hBe]; exact hB), hBe]
    -- the sign of the travel time
    have hcase : (0 < B ∧ b / a ≤ 1) ∨ (B < 0 ∧ 1 ≤ b / a) := by
      rcases target_cases F0 F1 r with ⟨k1, k2⟩ | ⟨k1, k2⟩
      · have hle : a ≤ b := by rw [ha, hb, k2]; linarith
        rw [hsp] at k1
        rcases lt_or_gt_of_ne ha0 with hn | hp
        · left
          refine ⟨?_, ?_⟩
          · by_contra hc
            have : B < 0 := lt_of_le_of_ne (not_lt.mp hc) hB0
            nlinarith
          · rw [div_le_one_of_neg hn]; exact hle
        · right
          refine ⟨?_, ?_⟩
          · by_contra hc
            have : 0 < B := lt_of_le_of_ne (not_lt.mp hc) (Ne.symm hB0)
            nlinarith
          · rw [one_le_div hp]; exact hle
      · have hle : b ≤ a := by rw [ha, hb, k2]; linarith
        rw [hsp] at k1
        rcases lt_or_gt_of_ne ha0 with hn | hp
        · right
          refine ⟨?_, ?_⟩
          · by_contra hc
            have : 0 < B := lt_of_le_of_ne (not_lt.mp hc) (Ne.symm hB0)
            nlinarith
          · rw [one_le_div_of_neg hn]; exact hle
        · left
          refine ⟨?_, ?_⟩
          · by_contra hc
            have : B < 0 := lt_of_le_of_ne (not_lt.mp hc) hB0
            nlinarith
          · rw [div_le_one hp]; exact hle
    have hnn : 0 ≤ -1 / B * Real.log (b / a) := by
      rcases hcase with ⟨k1, k2⟩ | ⟨k1, k2⟩
      · have := Real.log_nonpos hq.le k2
        have h3 : -1 / B ≤ 0 := div_nonpos_of_nonpos_of_nonneg (by norm_num) k1.le
        nlinarith
      · have := Real.log_nonneg k2
        have h3 : 0 ≤ -1 / B := div_nonneg_of_nonpos (by norm_num) k1.le
        positivity
    rw [abs_of_nonneg hnn] at hd
    have hexp : Real.exp (-B * (-1 / B * Real.log (b / a))) = b / a := by
      have : -B * (-1 / B * Real.log (b / a)) = Real.log (b / a) := by field_simp
      rw [this, Real.exp_log hq]
    refine ⟨hd, ?_, ?_⟩
    · rw [hrs, hexp, mul_div_cancel₀ _ ha0, hb]; ring
    · intro s hs0 hs1
      rw [hrs]
      have hbt : (1 ≤ Real.exp (-B * s) ∧ Real.exp (-B * s) ≤ b / a) ∨ (b / a ≤ Real.exp (-B * s) ∧ Real.exp (-B * s) ≤ 1) := by
        rcases hcase with ⟨k1, k2⟩ | ⟨k1, k2⟩
        · right
          constructor
          · rw [← hexp]
            apply Real.exp_le_exp.mpr
            nlinarith
          · rw [Real.exp_le_one_iff]; nlinarith
        · left
          constructor
          · rw [Real.one_le_exp_iff]; nlinarith
          · rw [← hexp]
            apply Real.exp_le_exp.mpr
            nlinarith
      have hte : target 1 F0 F1 r = 1 ∨ target 1 F0 F1 r = 0 := by
        rcases target_cases F0 F1 r with h | h
        · exact Or.inl h.2
        · exact Or.inr h.2
      have hbe : b + F0 / B = target 1 F0 F1 r := by rw [hb]; ring
      have hae : a + F0 / B = r := by rw [ha]; ring
      rcases between hbt ha0 with ⟨k1, k2⟩ | ⟨k1, k2⟩
      · constructor
        · linarith
        · rcases hte with h | h <;> rw [h] at hbe <;> linarith
      · constructor
        · rcases hte with h | h <;> rw [h] at hbe <;> linarith
        · linarith

/-- One direction, forward in time, blocked. -/
theorem axis_blocked {F0 F1 r : ℝ} (h0 : 0 ≤ r) (h1 : r ≤ 1) (h : Blocked F0 F1 r) :
    computeDs 1 F0 F1 r = some none ∧ ∀ s, 0 ≤ s → 0 ≤ computeRs F0 F1 r s ∧ computeRs F0 F1 r s ≤ 1 := by
  have ht := tol_pos
  rcases h with ⟨rfl, rfl⟩ | ⟨hB, z, hz, hcase⟩
  · have hs : |(0 : ℝ) - 0| < tol := by rw [sub_self, abs_zero]; exact ht
    refine ⟨?_, ?_⟩
    · unfold computeDs
      simp only
      rw [if_pos]
      rw [slope_small hs, neg_zero, abs_zero]
      exact ⟨ht, ht⟩
    · intro s _
      rw [rs_small hs, zero_mul, zero_add]
      exact ⟨h0, h1⟩
  · have hB0 : F0 - F1 ≠ 0 := by
      intro hc; rw [hc, abs_zero] at hB; linarith
    have hze := speed_zero hB0 hz
    have hsp : speed F0 F1 r = -((F0 - F1) * (r - z)) := by
      unfold speed at *; linear_combination hz
    have hrs : ∀ s, computeRs F0 F1 r s = (r - z) * Real.exp (-(F0 - F1) * s) + z := by
      intro s
      rw [rs_large hB.le, ← hze]
    -- where the zero is not at the particle, the flow converges
    have hconv : r = z ∨ 0 < F0 - F1 := by
      by_cases hrz : r = z
      · exact Or.inl hrz
      · right
        rw [hsp] at hcase
        by_contra hc
        have hneg : F0 - F1 < 0 := lt_of_le_of_ne (not_lt.mp hc) hB0
        rcases hcase with ⟨k1, k2, _⟩ | ⟨k1, _, k2⟩
        · have : r < z := lt_of_le_of_ne k2 hrz
          nlinarith
        · have : z < r := lt_of_le_of_ne k2 (Ne.symm hrz)
          nlinarith
    have hz01 : 0 ≤ z ∧ z ≤ 1 := by
      rcases hcase with ⟨_, k1, k2⟩ | ⟨_, k1, k2⟩ <;> constructor <;> linarith
    refine ⟨?_, ?_⟩
    · unfold computeDs
      simp only
      rw [slope_large hB.le]
      rw [if_neg (by rintro ⟨k, _⟩; linarith), if_neg hB0, if_pos hB]
      rw [if_pos]
      have e1 : target 1 F0 F1 r + -F0 / (F0 - F1) = target 1 F0 F1 r - z := by rw [hze, neg_div]; ring
      have e2 : r + -F0 / (F0 - F1) = r - z := by rw [hze, neg_div]; ring
      rw [e1, e2]
      have : (target 1 F0 F1 r - z) * (r - z) ≤ 0 := by
        rcases target_cases F0 F1 r with ⟨k1, k2⟩ | ⟨k1, k2⟩
        · rcases hcase with ⟨_, j1, j2⟩ | ⟨j, _, _⟩
          · rw [k2]; nlinarith
          · linarith
        · rcases hcase with ⟨j, _, _⟩ | ⟨_, j1, j2⟩
          · linarith
          · rw [k2]; nlinarith
      linarith
    · intro s hs
      rw [hrs]
      rcases hconv with rfl | hp
      · rw [sub_self, zero_mul, zero_add]; exact ⟨h0, h1⟩
      · have he1 : Real.exp (-(F0 - F1) * s) ≤ 1 := by rw [Real.exp_le_one_iff]; nlinarith
        have he0 := Real.exp_pos (-(F0 - F1) * s)
        constructor
        · nlinarith [hz01.1]
        · nlinarith [hz01.2]

/-- The minimum of the travel times. -/
theorem minTime_le (ds : List (Option ℝ)) (last : ℝ) :
    0 ≤ minTime ds last ∧ minTime ds last ≤ |last| ∧ (∀ d, some d ∈ ds → minTime ds last ≤ |d|) ∧
    (minTime ds last = |last| ∨ ∃ d, some d ∈ ds ∧ minTime ds last = |d|) := by
  unfold minTime
  have key : ∀ (l : List (Option ℝ)) (a : ℝ), 0 ≤ a →
      0 ≤ l.foldl (fun s d => match d with | none => s | some d => min s |d|) a ∧
      l.foldl (fun s d => match d with | none => s | some d => min s |d|) a ≤ a ∧
      (∀ d, some d ∈ l → l.foldl (fun s d => match d with | none => s | some d => min s |d|) a ≤ |d|) ∧
      (l.foldl (fun s d => match d with | none => s | some d => min s |d|) a = a ∨
        ∃ d, some d ∈ l ∧ l.foldl (fun s d => match d with | none => s | some d => min s |d|) a = |d|) := by
    intro l
    induction l with
    | nil => intro a ha; exact ⟨ha, le_refl _, by simp, Or.inl rfl⟩
    | cons e l ih =>
      intro a ha
      cases e with
      | none =>
        obtain ⟨i1, i2, i3, i4⟩ := ih a ha
        refine ⟨i1, i2, ?_, ?_⟩
        · intro d hd
          rcases List.mem_cons.mp hd with h | h
          · cases h
          · exact i3 d h
        · rcases i4 with h | ⟨d, h1, h2⟩
          · exact Or.inl h
          · exact Or.inr ⟨d, List.mem_cons_of_mem _ h1, h2⟩
      | some e =>
        obtain ⟨i1, i2, i3, i4⟩ := ih (min a |e|) (le_min ha (abs_nonneg _))
        refine ⟨i1, le_trans i2 (min_le_left _ _), ?_, ?_⟩
        · intro d hd
          rcases List.mem_cons.mp hd with h | h
          · injection h with h
            subst h
            exact le_trans i2 (min_le_right _ _)
          · exact i3 d h
        · rcases i4 with h | ⟨d, h1, h2⟩
          · rcases le_total a |e| with k | k
            · left
              exact h.trans (min_eq_left k)
            · right
              exact ⟨e, List.mem_cons_self, h.trans (min_eq_right k)⟩
          · exact Or.inr ⟨d, List.mem_cons_of_mem _ h1, h2⟩
  exact key ds |last| (abs_nonneg _)

/-- A direction of either kind. -/
theorem axis_ok {F0 F1 r : ℝ} (h0 : 0 ≤ r) (h1 : r ≤ 1) (h : AxisOk F0 F1 r) :
    ∃ ds, computeDs 1 F0 F1 r = some ds ∧
      (∀ s, 0 ≤ s → (∀ d, ds = some d → s ≤ |d|) → 0 ≤ computeRs F0 F1 r s ∧ computeRs F0 F1 r s ≤ 1) ∧
      (∀ d, ds = some d → tol ≤ |d| ∧ (computeRs F0 F1 r |d| = 0 ∨ computeRs F0 F1 r |d| = 1)) := by
  rcases h with ⟨d, hd⟩ | hb
  · obtain ⟨k1, k2, k3⟩ := axis_finite h0 h1 hd
    have hab : |d| = d := abs_of_nonneg (le_trans tol_pos.le k1)
    refine ⟨some d, hd, ?_, ?_⟩
    · intro s hs hle
      exact k3 s hs (by have := hle d rfl; rwa [hab] at this)
    · intro e he
      injection he with he
      subst he
      rw [hab, k2]
      refine ⟨k1, ?_⟩
      rcases target_cases F0 F1 r with h | h
      · exact Or.inr h.2
      · exact Or.inl h.2
  · obtain ⟨k1, k2⟩ := axis_blocked h0 h1 hb
    refine ⟨none, k1, fun s hs _ => k2 s hs, ?_⟩
    intro d hd
    cases hd

theorem fluxes_flat (m : CGrid.Metric ℝ) (c : Curvilinear.Cell ℝ) (lat dz xsi eta : ℝ) (f : CGrid.Faces ℝ) :
    fluxes m false c lat 1 dz xsi eta f =
      { U0 := through m.sqrt f.west (c.x3 - c.x0) (c.y3 - c.y0) dz, U1 := through m.sqrt f.east (c.x2 - c.x1) (c.y2 - c.y1) dz,
        V0 := through m.sqrt f.south (c.x1 - c.x0) (c.y1 - c.y0) dz, V1 := through m.sqrt f.north (c.x2 - c.x3) (c.y2 - c.y3) dz,
        dxdy := Curvilinear.jacobian c xsi eta } := by
  unfold fluxes through
  simp only [cond_false, mul_one, one_mul, CGrid.jac_eq, CGrid.dist_flat]
  rw [CGrid.length_comm m.sqrt c.x3, CGrid.length_comm m.sqrt c.x2]

/-- New time step: same sign, not longer, and not shorter than the smallest travel time. -/
theorem dt_facts {s dt V : ℝ} (hdt : 0 < dt) (hV : 0 < V) (hs0 : 0 ≤ s) (hs : s ≤ |dt / V|)
    (hmin : s = |dt / V| ∨ tol ≤ s) :
    min dt (tol * V) ≤ 1 * s * V ∧ 1 * s * V ≤ dt ∧ (1 * s * V < dt → s < |dt / V|) := by
  have hq : |dt / V| = dt / V := abs_of_pos (div_pos hdt hV)
  rw [hq] at hs hmin ⊢
  rw [one_mul]
  refine ⟨?_, ?_, ?_⟩
  · rcases hmin with h | h
    · rw [h, div_mul_cancel₀ _ hV.ne']; exact min_le_left _ _
    · exact le_trans (min_le_right _ _) (mul_le_mul_of_nonneg_right h hV.le)
  · rwa [le_div_iff₀ hV] at hs
  · intro h; rwa [lt_div_iff₀ hV]

theorem travel_2D {c : Curvilinear.Cell ℝ} {direction dt dz xsi eta : ℝ} {F : Fluxes} {dx dy : Option ℝ}
    (ex : computeDs direction F.U0 F.U1 xsi = some dx) (ey : computeDs direction F.V0 F.V1 eta = some dy) :
    travel c direction dt dz xsi eta F none =
      some { lon := CGrid.dotPhi (computeRs F.U0 F.U1 xsi (minTime [dx, dy] (dt / (F.dxdy * dz))))
                      (computeRs F.V0 F.V1 eta (minTime [dx, dy] (dt / (F.dxdy * dz)))) c.x0 c.x1 c.x2 c.x3,
             lat := CGrid.dotPhi (computeRs F.U0 F.U1 xsi (minTime [dx, dy] (dt / (F.dxdy * dz))))
                      (computeRs F.V0 F.V1 eta (minTime [dx, dy] (dt / (F.dxdy * dz)))) c.y0 c.y1 c.y2 c.y3,
             depth := none, dt := direction * minTime [dx, dy] (dt / (F.dxdy * dz)) * (F.dxdy * dz) } := by
  unfold travel
  simp only [ex, ey]

theorem travel_3D {c : Curvilinear.Cell ℝ} {direction dt dz xsi eta : ℝ} {F : Fluxes} {v : Vert} {dx dy dv : Option ℝ}
    (ex : computeDs direction F.U0 F.U1 xsi = some dx) (ey : computeDs direction F.V0 F.V1 eta = some dy)
    (ez : computeDs direction (direction * v.w0 * F.dxdy) (direction * v.w1 * F.dxdy) v.zeta = some dv) :
    travel c direction dt dz xsi eta F (some v) =
      some { lon := CGrid.dotPhi (computeRs F.U0 F.U1 xsi (minTime [dx, dy, dv] (dt / (F.dxdy * dz))))
                      (computeRs F.V0 F.V1 eta (minTime [dx, dy, dv] (dt / (F.dxdy * dz)))) c.x0 c.x1 c.x2 c.x3,
             lat := CGrid.dotPhi (computeRs F.U0 F.U1 xsi (minTime [dx, dy, dv] (dt / (F.dxdy * dz))))
                      (computeRs F.V0 F.V1 eta (minTime [dx, dy, dv] (dt / (F.dxdy * dz)))) c.y0 c.y1 c.y2 c.y3,
             depth := some
               ((1 - computeRs (direction * v.w0 * F.dxdy) (direction * v.w1 * F.dxdy) v.zeta
                    (minTime [dx, dy, dv] (dt / (F.dxdy * dz)))) * v.z0 +
                computeRs (direction * v.w0 * F.dxdy) (direction * v.w1 * F.dxdy) v.zeta
                    (minTime [dx, dy, dv] (dt / (F.dxdy * dz))) * v.z1),
             dt := direction * minTime [dx, dy, dv] (dt / (F.dxdy * dz)) * (F.dxdy * dz) } := by
  unfold travel
  simp only [ex, ey, ez]

theorem advect_flat {m : CGrid.Metric ℝ} {c : Curvilinear.Cell ℝ} {lon lat dt xsi eta : ℝ} {limit : Option ℝ}
    {f : CGrid.Faces ℝ} {vert : Option Vert} (hdt : 0 < dt) :
    advect m false c lon lat dt limit xsi eta f vert =
      travel c 1 (timeLeft dt limit) (match vert with | none => 1 | some v => v.z1 - v.z0) xsi eta
        (fluxes m false c lat 1 (match vert with | none => 1 | some v => v.z1 - v.z0) xsi eta f) vert := by
  unfold advect corners
  simp only [cond_false, if_pos hdt]
  rfl

theorem timeLeft_pos {dt : ℝ} {limit : Option ℝ} (hdt : 0 < dt) (hl : ∀ l, limit = some l → 0 < l) :
    0 < timeLeft dt limit ∧ timeLeft dt limit ≤ dt := by
  cases limit with
  | none => exact ⟨hdt, le_refl _⟩
  | some l => exact ⟨lt_min hdt (hl l rfl), min_le_left _ _⟩

/-- Uniform velocity. -/
theorem ds_uniform (direction v r : ℝ) (hv : tol ≤ |v|) :
    computeDs direction v v r = some (cut ((target direction v v r - r) / v)) := by
  have hs : |v - v| < tol := by rw [sub_self, abs_zero]; exact tol_pos
  unfold computeDs
  simp only
  rw [slope_small hs, if_neg (by rw [abs_neg]; rintro ⟨_, h⟩; linarith), if_pos rfl, neg_div_neg_eq]

theorem ds_rest (direction r : ℝ) : computeDs direction 0 0 r = some none := by
  have hs : |(0 : ℝ) - 0| < tol := by rw [sub_self, abs_zero]; exact tol_pos
  unfold computeDs
  simp only
  rw [slope_small hs, if_pos]
  rw [neg_zero, abs_zero]
  exact ⟨tol_pos, tol_pos⟩

theorem rs_uniform (v r s : ℝ) : computeRs v v r s = v * s + r :=
  rs_small (by rw [sub_self, abs_zero]; exact tol_pos) r s

theorem cut_large {d : ℝ} (h : tol ≤ |d|) : cut d = some d := if_neg (not_lt.mpr h)

end Parcels.Analytical
