import Verif.Proofs.Analytical

/-!
C57: analytical advection.
-/

namespace Parcels.Analytical

open Parcels.Curvilinear (Cell bilinX bilinY jacobian)
open Parcels.CGrid (Faces Metric)

/-- C57, one direction, forward in time: with a finite travel time d the relative coordinate stays between the two faces up
to d, and at d it is exactly on the face towards which the particle moves. -/
theorem C57_exit_partial (F0 F1 r d : ℝ) (h0 : 0 ≤ r) (h1 : r ≤ 1) (h : computeDs 1 F0 F1 r = some (some d)) :
    0 < d ∧ (∀ s, 0 ≤ s → s ≤ d → 0 ≤ computeRs F0 F1 r s ∧ computeRs F0 F1 r s ≤ 1) ∧
    computeRs F0 F1 r d = if 0 ≤ speed F0 F1 r then 1 else 0 := by
  obtain ⟨k1, k2, k3⟩ := axis_finite h0 h1 h
  refine ⟨lt_of_lt_of_le tol_pos k1, k3, ?_⟩
  rw [k2]
  rcases target_cases F0 F1 r with ⟨a, b⟩ | ⟨a, b⟩
  · rw [b, if_pos a]
  · rw [b, if_neg (not_le.mpr a)]

/-- C57, one direction: a particle that cannot reach a face gets no finite travel time and stays between the faces. -/
theorem C57_blocked (F0 F1 r : ℝ) (h0 : 0 ≤ r) (h1 : r ≤ 1) (h : Blocked F0 F1 r) :
    computeDs 1 F0 F1 r = some none ∧ ∀ s, 0 ≤ s → 0 ≤ computeRs F0 F1 r s ∧ computeRs F0 F1 r s ≤ 1 :=
  axis_blocked h0 h1 h

/-- The path is the exact one: the derivative of the relative coordinate is the velocity there, and it starts at r. -/
theorem C57_path (F0 F1 r : ℝ) (hB : F0 = F1 ∨ tol ≤ |F0 - F1|) :
    computeRs F0 F1 r 0 = r ∧ ∀ s, HasDerivAt (computeRs F0 F1 r) (speed F0 F1 (computeRs F0 F1 r s)) s := by
  rcases hB with rfl | hB
  · have hs : |F0 - F0| < tol := by rw [sub_self, abs_zero]; exact tol_pos
    have he : computeRs F0 F0 r = fun s => F0 * s + r := funext (rs_small hs r)
    refine ⟨by rw [he]; simp, ?_⟩
    intro s
    have hd : HasDerivAt (fun s => F0 * s + r) (F0 * 1) s := ((hasDerivAt_id s).const_mul F0).add_const r
    rw [he]
    convert hd using 1
    unfold speed; ring
  · have hB0 : F0 - F1 ≠ 0 := by
      intro hc; rw [hc, abs_zero] at hB; linarith [tol_pos]
    have he : computeRs F0 F1 r = fun s => (r - F0 / (F0 - F1)) * Real.exp (-(F0 - F1) * s) + F0 / (F0 - F1) :=
      funext (rs_large hB r)
    refine ⟨by rw [he]; simp, ?_⟩
    intro s
    have h1 : HasDerivAt (fun s : ℝ => -(F0 - F1) * s) (-(F0 - F1) * 1) s := (hasDerivAt_id s).const_mul _
    have hd := (h1.exp.const_mul (r - F0 / (F0 - F1))).add_const (F0 / (F0 - F1))
    have hv : (r - F0 / (F0 - F1)) * (Real.exp (-(F0 - F1) * s) * (-(F0 - F1) * 1)) =
        speed F0 F1 (computeRs F0 F1 r s) := by
      rw [he]
      unfold speed
      beta_reduce
      generalize Real.exp (-(F0 - F1) * s) = e
      field_simp
      ring
    rw [hv] at hd
    rw [he] at hd ⊢
    exact hd

/-- C57 in two dimensions on a flat mesh, forward in time: the particle ends in its cell or on its boundary, and if the time
step was cut short it ends exactly on a face of the cell. Its position is that on the exact path at the time by which its
clock is advanced. The new time step is positive, not longer than the given one, and
bounded from below. `limit` is the intermediate time step of fields that change in time. Missing: backward in time,
particles on a face from which they move out, velocities below the tolerance, and spherical meshes. -/
theorem C57_cell_2D_partial (m : Metric ℝ) (c : Cell ℝ) (lon lat dt xsi eta : ℝ) (limit : Option ℝ) (f : Faces ℝ)
    (hdt : 0 < dt) (hl : ∀ l, limit = some l → 0 < l) (hx : 0 ≤ xsi ∧ xsi ≤ 1) (hy : 0 ≤ eta ∧ eta ≤ 1) (hJ : 0 < jacobian c xsi eta)
    (hok : HorizontalOk m.sqrt c f 1 xsi eta) :
    ∃ p a b, advect m false c lon lat dt limit xsi eta f none = some p ∧ p.depth = none ∧
      InCellAt c p.lon p.lat a b ∧ (p.dt < timeLeft dt limit → a = 0 ∨ a = 1 ∨ b = 0 ∨ b = 1) ∧
      p.dt ≤ dt ∧ min (timeLeft dt limit) (tol * jacobian c xsi eta) ≤ p.dt ∧
      OnPaths m.sqrt c f 1 xsi eta (p.dt / jacobian c xsi eta) a b := by
  obtain ⟨okx, oky⟩ := hok
  obtain ⟨hT, hTle⟩ := timeLeft_pos hdt hl
  obtain ⟨dx, ex, inx, onx⟩ := axis_ok hx.1 hx.2 okx
  obtain ⟨dy, ey, iny, ony⟩ := axis_ok hy.1 hy.2 oky
  have hV : 0 < jacobian c xsi eta * 1 := by rw [mul_one]; exact hJ
  obtain ⟨m1, m2, m3, m4⟩ := minTime_le [dx, dy] (timeLeft dt limit / (jacobian c xsi eta * 1))
  have hmin : minTime [dx, dy] (timeLeft dt limit / (jacobian c xsi eta * 1)) = |timeLeft dt limit / (jacobian c xsi eta * 1)| ∨
      tol ≤ minTime [dx, dy] (timeLeft dt limit / (jacobian c xsi eta * 1)) := by
    rcases m4 with h | ⟨d, hd, h⟩
    · exact Or.inl h
    · right
      rw [h]
      simp only [List.mem_cons, List.not_mem_nil, or_false] at hd
      rcases hd with e | e
      · exact (onx d e.symm).1
      · exact (ony d e.symm).1
  obtain ⟨t1, t2, t3⟩ := dt_facts hT hV m1 m2 hmin
  obtain ⟨x0, x1⟩ := inx _ m1 (fun d hd => m3 d (by simp [hd]))
  obtain ⟨y0, y1⟩ := iny _ m1 (fun d hd => m3 d (by simp [hd]))
  have hadv := advect_flat (m := m) (c := c) (lon := lon) (lat := lat) (xsi := xsi) (eta := eta) (f := f) (limit := limit) (vert := none) hdt
  simp only [fluxes_flat] at hadv
  rw [travel_2D ex ey] at hadv
  refine ⟨_, _, _, hadv, rfl, ⟨x0, x1, y0, y1, rfl, rfl⟩, ?_, ?_, ?_, ?_⟩
  · intro hlt
    have hs := t3 hlt
    rcases m4 with h | ⟨d, hd, h⟩
    · rw [h] at hs; exact absurd hs (lt_irrefl _)
    · rw [h]
      simp only [List.mem_cons, List.not_mem_nil, or_false] at hd
      rcases hd with e | e
      · rcases (onx d e.symm).2 with k | k
        · exact Or.inl k
        · exact Or.inr (Or.inl k)
      · rcases (ony d e.symm).2 with k | k
        · exact Or.inr (Or.inr (Or.inl k))
        · exact Or.inr (Or.inr (Or.inr k))
  · exact le_trans t2 hTle
  · have e : tol * (jacobian c xsi eta * 1) = tol * jacobian c xsi eta := by ring
    rw [e] at t1
    exact t1
  · unfold OnPaths
    rw [one_mul, mul_one, mul_div_assoc, div_self hJ.ne', mul_one]
    exact ⟨rfl, rfl⟩

/-- C57 in three dimensions on a flat mesh, forward in time. -/
theorem C57_cell_3D_partial (m : Metric ℝ) (c : Cell ℝ) (lon lat dt xsi eta : ℝ) (limit : Option ℝ) (f : Faces ℝ) (v : Vert)
    (hdt : 0 < dt) (hl : ∀ l, limit = some l → 0 < l) (hx : 0 ≤ xsi ∧ xsi ≤ 1) (hy : 0 ≤ eta ∧ eta ≤ 1) (hz : 0 ≤ v.zeta ∧ v.zeta ≤ 1)
    (hJ : 0 < jacobian c xsi eta) (hzz : v.z0 < v.z1) (hok : HorizontalOk m.sqrt c f (v.z1 - v.z0) xsi eta)
    (hokz : AxisOk (v.w0 * jacobian c xsi eta) (v.w1 * jacobian c xsi eta) v.zeta) :
    ∃ p a b z, advect m false c lon lat dt limit xsi eta f (some v) = some p ∧ p.depth = some z ∧
      InCellAt c p.lon p.lat a b ∧ v.z0 ≤ z ∧ z ≤ v.z1 ∧
      (p.dt < timeLeft dt limit → a = 0 ∨ a = 1 ∨ b = 0 ∨ b = 1 ∨ z = v.z0 ∨ z = v.z1) ∧
      p.dt ≤ dt ∧ min (timeLeft dt limit) (tol * (jacobian c xsi eta * (v.z1 - v.z0))) ≤ p.dt ∧
      OnPaths m.sqrt c f (v.z1 - v.z0) xsi eta (p.dt / (jacobian c xsi eta * (v.z1 - v.z0))) a b ∧
      z = v.z0 + (v.z1 - v.z0) * computeRs (v.w0 * jacobian c xsi eta) (v.w1 * jacobian c xsi eta) v.zeta
            (p.dt / (jacobian c xsi eta * (v.z1 - v.z0))) := by
  obtain ⟨okx, oky⟩ := hok
  obtain ⟨hT, hTle⟩ := timeLeft_pos hdt hl
  obtain ⟨dx, ex, inx, onx⟩ := axis_ok hx.1 hx.2 okx
  obtain ⟨dy, ey, iny, ony⟩ := axis_ok hy.1 hy.2 oky
  obtain ⟨dz, ez, inz, onz⟩ := axis_ok hz.1 hz.2 hokz
  have hV : 0 < jacobian c xsi eta * (v.z1 - v.z0) := mul_pos hJ (by linarith)
  obtain ⟨m1, m2, m3, m4⟩ := minTime_le [dx, dy, dz] (timeLeft dt limit / (jacobian c xsi eta * (v.z1 - v.z0)))
  have hmin : minTime [dx, dy, dz] (timeLeft dt limit / (jacobian c xsi eta * (v.z1 - v.z0))) = |timeLeft dt limit / (jacobian c xsi eta * (v.z1 - v.z0))| ∨
      tol ≤ minTime [dx, dy, dz] (timeLeft dt limit / (jacobian c xsi eta * (v.z1 - v.z0))) := by
    rcases m4 with h | ⟨d, hd, h⟩
    · exact Or.inl h
    · right
      rw [h]
      simp only [List.mem_cons, List.not_mem_nil, or_false] at hd
      rcases hd with e | e | e
      · exact (onx d e.symm).1
      · exact (ony d e.symm).1
      · exact (onz d e.symm).1
  obtain ⟨t1, t2, t3⟩ := dt_facts hT hV m1 m2 hmin
  obtain ⟨x0, x1⟩ := inx _ m1 (fun d hd => m3 d (by simp [hd]))
  obtain ⟨y0, y1⟩ := iny _ m1 (fun d hd => m3 d (by simp [hd]))
  obtain ⟨z0, z1⟩ := inz _ m1 (fun d hd => m3 d (by simp [hd]))
  have hadv := advect_flat (m := m) (c := c) (lon := lon) (lat := lat) (xsi := xsi) (eta := eta) (f := f) (limit := limit) (vert := some v) hdt
  simp only [fluxes_flat] at hadv
  rw [travel_3D ex ey (by rw [one_mul, one_mul]; exact ez)] at hadv
  simp only [one_mul] at hadv t1 t2 t3
  refine ⟨_, _, _, _, hadv, rfl, ⟨x0, x1, y0, y1, rfl, rfl⟩, ?_, ?_, ?_, ?_, ?_, ?_, ?_⟩
  · nlinarith
  · nlinarith
  · intro hlt
    have hs := t3 hlt
    rcases m4 with h | ⟨d, hd, h⟩
    · rw [h] at hs; exact absurd hs (lt_irrefl _)
    · rw [h]
      simp only [List.mem_cons, List.not_mem_nil, or_false] at hd
      rcases hd with e | e | e
      · rcases (onx d e.symm).2 with k | k
        · exact Or.inl k
        · exact Or.inr (Or.inl k)
      · rcases (ony d e.symm).2 with k | k
        · exact Or.inr (Or.inr (Or.inl k))
        · exact Or.inr (Or.inr (Or.inr (Or.inl k)))
      · rcases (onz d e.symm).2 with k | k
        · right; right; right; right; left
          rw [k]; ring
        · right; right; right; right; right
          rw [k]; ring
  · exact le_trans t2 hTle
  · exact t1
  · unfold OnPaths
    rw [mul_div_assoc, div_self hV.ne', mul_one]
    exact ⟨rfl, rfl⟩
  · rw [mul_div_assoc, div_self hV.ne', mul_one]
    ring

/-- The flat metric, and the unit square. -/
noncomputable def flat : Metric ℝ := { sqrt := Real.sqrt, cos := Real.cos }
def square : Cell ℝ := { x0 := 0, x1 := 1, x2 := 1, x3 := 0, y0 := 0, y1 := 0, y2 := 1, y3 := 1 }

theorem square_fluxes (lat direction xsi eta : ℝ) (f : Faces ℝ) :
    fluxes flat false square lat direction 1 xsi eta f =
      { U0 := direction * f.west, U1 := direction * f.east, V0 := direction * f.south, V1 := direction * f.north, dxdy := 1 } := by
  unfold fluxes
  simp only [cond_false, CGrid.dist_flat, CGrid.length, square, flat, CGrid.jac]
  norm_num

/-- The hypotheses of the theorems: accelerating towards the east (1 to 2), converging in y (1 to -1). -/
example : HorizontalOk Real.sqrt square { west := 1, east := 2, south := 1, north := -1 } 1 (1/4) (1/4) ∧
    0 < jacobian square (1/4) (1/4) := by
  have hU : through Real.sqrt 1 (square.x3 - square.x0) (square.y3 - square.y0) 1 = 1 ∧
      through Real.sqrt 2 (square.x2 - square.x1) (square.y2 - square.y1) 1 = 2 ∧
      through Real.sqrt 1 (square.x1 - square.x0) (square.y1 - square.y0) 1 = 1 ∧
      through Real.sqrt (-1) (square.x2 - square.x3) (square.y2 - square.y3) 1 = -1 := by
    simp [through, CGrid.length, square]
  unfold HorizontalOk
  simp only [hU.1, hU.2.1, hU.2.2.1, hU.2.2.2]
  refine ⟨⟨?_, ?_⟩, ?_⟩
  · left
    have ht : target 1 1 2 (1/4) = 1 := by unfold target; norm_num
    have hsl : slope 1 2 = -1 := by unfold slope tol; norm_num
    have hlog : (3 : ℝ) / 8 ≤ Real.log (8 / 5) := by
      have := Real.one_sub_inv_le_log_of_pos (show (0 : ℝ) < 8 / 5 by norm_num)
      norm_num at this ⊢
      linarith
    refine ⟨Real.log (8 / 5), ?_⟩
    unfold computeDs
    simp only [ht, hsl]
    have e : (-1 : ℝ) / -1 * Real.log ((1 + -1 / -1) / (1 / 4 + -1 / -1)) = Real.log (8 / 5) := by norm_num
    have hc : cut (Real.log (8 / 5)) = some (Real.log (8 / 5)) :=
      cut_large (by rw [abs_of_nonneg (by linarith)]; unfold tol; linarith)
    rw [e, hc]
    rw [if_neg, if_neg, if_pos, if_neg] <;> norm_num [tol]
  · right; right
    refine ⟨by unfold tol; norm_num, 1/2, by unfold speed; norm_num, Or.inl ⟨by unfold speed; norm_num, by norm_num, by norm_num⟩⟩
  · unfold jacobian square; norm_num

/-- C57 does not hold backward in time: the direction of time is applied twice, to the fluxes and to the target. In the unit
square with velocity 1 to the east, a particle at 1/4 is taken 3/4 to the west, through the face, to -1/2. -/
theorem C57_backward_fails :
    ∃ p, advect flat false square (1/4) (1/2) (-10) none (1/4) (1/2) { west := 1, east := 1, south := 0, north := 0 } none =
      some p ∧ p.lon = -1/2 := by
  have hsgn : ¬ ((-10 : ℝ) > 0) := by norm_num
  have ht : target (-1) (-1) (-1) (1/4) = 1 := by unfold target; norm_num
  have hd : computeDs (-1) (-1) (-1) (1/4) = some (some (-3/4)) := by
    rw [ds_uniform _ _ _ (by unfold tol; norm_num), ht]
    have e : ((1 : ℝ) - 1/4) / -1 = -3/4 := by norm_num
    rw [e, cut_large (by unfold tol; norm_num)]
  unfold advect corners timeLeft
  simp only [cond_false, if_neg hsgn, square_fluxes, mul_one, mul_zero]
  rw [travel_2D hd (ds_rest _ _)]
  refine ⟨_, rfl, ?_⟩
  have hm : minTime [some (-3/4 : ℝ), none] (-10 / (1 * 1)) = 3/4 := by
    unfold minTime; norm_num [List.foldl]
  simp only [hm, rs_uniform, CGrid.dotPhi, square]
  norm_num

/-- C57 does not hold for a particle on the western face moving out: its travel time zero is taken for infinite, and it goes
on with the velocity of this cell for the whole time step. (Only the upper faces are treated, in lines 130-152.) -/
theorem C57_on_face_fails :
    ∃ p, advect flat false square 0 (1/2) 10 none 0 (1/2) { west := -1, east := -1, south := 0, north := 0 } none =
      some p ∧ p.lon = -10 ∧ p.dt = 10 := by
  have hsgn : (10 : ℝ) > 0 := by norm_num
  have ht : target 1 (-1) (-1) 0 = 0 := by unfold target; norm_num
  have hd : computeDs 1 (-1) (-1) 0 = some none := by
    rw [ds_uniform _ _ _ (by unfold tol; norm_num), ht]
    unfold cut tol
    norm_num
  unfold advect corners timeLeft
  simp only [cond_false, if_pos hsgn, square_fluxes, one_mul]
  rw [travel_2D hd (ds_rest _ _)]
  refine ⟨_, rfl, ?_⟩
  have hm : minTime [none, none] (10 / ((1 : ℝ) * 1)) = 10 := by
    unfold minTime; norm_num [List.foldl]
  simp only [hm, rs_uniform, CGrid.dotPhi, square]
  norm_num

/-- C57 does not hold close to a line on which the velocity vanishes and from which the flow diverges: a finite travel time is
taken for infinite. -/
theorem C57_divergence_fails :
    computeDs 1 (-1/2) (1/2) (1/2 + 1/100000000000) = some none ∧
    1 < computeRs (-1/2) (1/2) (1/2 + 1/100000000000) 60 := by
  have hsl : slope (-1/2) (1/2) = -1 := by unfold slope tol; norm_num
  constructor
  · have ht : target 1 (-1/2) (1/2) (1/2 + 1/100000000000) = 1 := by unfold target; norm_num
    unfold computeDs
    simp only [ht, hsl]
    rw [if_neg, if_neg, if_pos, if_pos] <;> norm_num [tol]
  · rw [rs_large (by unfold tol; norm_num)]
    have h1 : (2 : ℝ) ≤ Real.exp 1 := by have := Real.add_one_le_exp (1 : ℝ); linarith
    have h2 : (2 : ℝ) ^ 60 ≤ Real.exp 60 := by
      have e : Real.exp 60 = Real.exp 1 ^ 60 := by rw [← Real.exp_nat_mul]; norm_num
      rw [e]
      exact pow_le_pow_left₀ (by norm_num) h1 60
    have e : -((-1 : ℝ)/2 - 1/2) * 60 = 60 := by norm_num
    rw [e]
    norm_num at h2 ⊢
    linarith

/-- C57 on the sphere: the first corner is compared with the latitude, so that east of 225 degrees a particle at rest is moved
by a full turn. -/
theorem C57_sphere_fails :
    ∃ p, advect flat true { x0 := 230, x1 := 231, x2 := 231, x3 := 230, y0 := 0, y1 := 0, y2 := 1, y3 := 1 }
      (230 + 1/2) (1/2) 10 none (1/2) (1/2) { west := 0, east := 0, south := 0, north := 0 } none =
      some p ∧ p.lon = 230 + 1/2 - 360 := by
  have hsgn : (10 : ℝ) > 0 := by norm_num
  unfold advect fluxes timeLeft
  simp only [if_pos hsgn, mul_zero, zero_mul]
  rw [travel_2D (ds_rest _ _) (ds_rest _ _)]
  refine ⟨_, rfl, ?_⟩
  simp only [rs_uniform, zero_mul, zero_add, corners, cond_true, CGrid.dotPhi, Curvilinear.near]
  norm_num

/-- A difference of fluxes of exactly 1e-10 is an error. -/
theorem C57_tolerance_fails : computeDs 1 tol 0 (1/2) = none := by
  have hs : slope tol 0 = tol := by
    rw [slope_large (by rw [sub_zero, abs_of_pos tol_pos]), sub_zero]
  unfold computeDs
  simp only [hs]
  have ha : |tol| = tol := abs_of_pos tol_pos
  rw [if_neg (by rw [ha]; rintro ⟨h, _⟩; exact lt_irrefl _ h), if_neg tol_pos.ne', if_neg (by rw [ha]; exact lt_irrefl _)]

end Parcels.Analytical
