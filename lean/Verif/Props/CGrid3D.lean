import Verif.Proofs.CGrid3D
import Mathlib.Data.Rat.Sqrt
import Mathlib.Analysis.SpecialFunctions.Pow.Real

/-!
C73: velocities on C-grids with s-levels.
-/

namespace Parcels.CGrid3D
open Parcels.Curvilinear Parcels.CGrid

variable {K : Type} [Field K] [LinearOrder K] [IsStrictOrderedRing K]

/-- C73 on the faces: for every cell that is not folded and has positive thickness at the point, on the flat and on the spherical mesh, both modes
give one velocity, and at points of a face its component normal to the face is the given one, at every point of the face. -/
theorem C73_on_faces_partial (m : Metric K) (sph : Bool) (c : Cell K) (z : V8 K) (f : Faces3 K) (xsi eta zet x y : K) (hn : NarrowCell sph x c)
    (h : At (shift sph x c) x y xsi eta) (hj : 0 < jacobian (shift sph x c) xsi eta) (ht : 0 < thickness (shift sph x c) z xsi eta)
    (hc : sph = true → 0 < m.cos y) :
    ∃ v, BothGive3 m sph c z xsi eta zet x f v ∧ Normals m sph (shift sph x c) z f (metres m sph y v) xsi eta zet := by
  refine ⟨_, both3 f hn h, ?_⟩
  have hy : bilinY (shift sph x c) xsi eta = y := h.2
  have ha : 0 < area1 m sph (bilinY (shift sph x c) xsi eta) := by
    rw [hy]; exact area1_pos hc
  have j3 := jac3_thick m sph (shift sph x c) z xsi eta zet
  have hp : 0 < jac3 m sph (hexa (shift sph x c) z) xsi eta zet := by rw [j3]; positivity
  obtain ⟨⟨hw, he⟩, ⟨hs, hnn⟩, h1, h2⟩ := face_fluxes m sph (shift sph x c) z f xsi eta zet hp.ne'
  rw [hy] at hw he hs hnn h1 h2
  rw [jac3_eq] at hp
  have hp2 : 0 < ((toLevel m sph (shift sph x c) z xsi eta zet).cross (toColumn m sph (shift sph x c) z xsi eta zet)).dot (toRow m sph (shift sph x c) z xsi eta zet) := by
    rw [cross_cycle]; exact hp
  have hp3 : 0 < ((toColumn m sph (shift sph x c) z xsi eta zet).cross (toRow m sph (shift sph x c) z xsi eta zet)).dot deeper := by
    rw [vertical_sign]; positivity
  exact ⟨fun e => (if_pos hp).trans (hw e), fun e => (if_pos hp).trans (he e), fun e => (if_pos hp2).trans (hs e), fun e => (if_pos hp2).trans (hnn e),
    fun e => (if_pos hp3).trans (h1 e), fun e => (if_pos hp3).trans (h2 e)⟩

/-- C73 fails if depths decrease with the level, as in terrain-following models that count from the bottom (the search accepts such grids): at
every point of a vertical face, in both modes, the component normal to the face is the given one with the sign reversed. The vertical
component is as given. -/
theorem C73_upside_fails (m : Metric K) (sph : Bool) (c : Cell K) (z : V8 K) (f : Faces3 K) (xsi eta zet x y : K) (hn : NarrowCell sph x c)
    (h : At (shift sph x c) x y xsi eta) (hj : 0 < jacobian (shift sph x c) xsi eta) (ht : thickness (shift sph x c) z xsi eta < 0)
    (hc : sph = true → 0 < m.cos y) :
    ∃ v, BothGive3 m sph c z xsi eta zet x f v ∧
      Normals m sph (shift sph x c) z { f with u0 := -f.u0, u1 := -f.u1, v0 := -f.v0, v1 := -f.v1 } (metres m sph y v) xsi eta zet := by
  refine ⟨_, both3 f hn h, ?_⟩
  have hy : bilinY (shift sph x c) xsi eta = y := h.2
  have ha : 0 < area1 m sph (bilinY (shift sph x c) xsi eta) := by
    rw [hy]; exact area1_pos hc
  have j3 := jac3_thick m sph (shift sph x c) z xsi eta zet
  have hp : jac3 m sph (hexa (shift sph x c) z) xsi eta zet < 0 := by
    rw [j3]; exact mul_neg_of_neg_of_pos (mul_neg_of_pos_of_neg hj ht) ha
  obtain ⟨⟨hw, he⟩, ⟨hs, hnn⟩, h1, h2⟩ := face_fluxes m sph (shift sph x c) z f xsi eta zet hp.ne
  rw [hy] at hw he hs hnn h1 h2
  rw [jac3_eq] at hp
  have hp2 : ((toLevel m sph (shift sph x c) z xsi eta zet).cross (toColumn m sph (shift sph x c) z xsi eta zet)).dot (toRow m sph (shift sph x c) z xsi eta zet) < 0 := by
    rw [cross_cycle]; exact hp
  have hp3 : 0 < ((toColumn m sph (shift sph x c) z xsi eta zet).cross (toRow m sph (shift sph x c) z xsi eta zet)).dot deeper := by
    rw [vertical_sign]; positivity
  refine ⟨fun e => (if_neg hp.not_gt).trans ?_, fun e => (if_neg hp.not_gt).trans ?_, fun e => (if_neg hp2.not_gt).trans ?_, fun e => (if_neg hp2.not_gt).trans ?_,
    fun e => (if_pos hp3).trans (h1 e), fun e => (if_pos hp3).trans (h2 e)⟩
  · rw [hw e, neg_mul]
  · rw [he e, neg_mul]
  · rw [hs e, neg_mul]
  · rw [hnn e, neg_mul]

/-- A cell across the date line on the sphere with sloping levels. -/
def spherical : Cell ℚ := { x0 := 178, x1 := -178, x2 := -177, x3 := 179, y0 := 10, y1 := 11, y2 := 13, y3 := 12 }
def sloping : V8 ℚ := ⟨10, 20, 30, 15, 40, 50, 70, 60⟩
def downwards : V8 ℚ := ⟨40, 50, 70, 60, 10, 20, 30, 15⟩

example : NarrowCell true (180 : ℚ) spherical ∧ At (shift true 180 spherical) 180 (91/8) (3/8) (1/2 : ℚ) := by
  unfold NarrowCell NarrowOnSphere At
  simp only [if_true]
  decide +kernel
example : 0 < jacobian (shift true 180 spherical) (3/8) (1/2 : ℚ) ∧ 0 < thickness (shift true 180 spherical) sloping (3/8) (1/2 : ℚ) ∧
    thickness (shift true 180 spherical) downwards (3/8) (1/2 : ℚ) < 0 := by
  decide +kernel

/-- C73, uniform flow on the flat mesh: if the velocities on the faces are the normal components of one velocity, at every point of each face, both
modes return this velocity at every point of the cell. The levels must be planes over the cell, sloping in any way; its sides may have
any direction. -/
theorem C73_uniform_partial (m : Metric K) (hs : Roots m.sqrt) (c : Cell K) (z : V8 K) (hu : Upright c z) (hp : Planes c z) (hn : Narrow c) (f : Faces3 K) (v : V3 K)
    (hf : ∀ xsi eta zet : K, 0 ≤ xsi → xsi ≤ 1 → 0 ≤ eta → eta ≤ 1 → 0 ≤ zet → zet ≤ 1 → Normals m false c z f v xsi eta zet)
    (xsi eta zet x y : K) (x0 : 0 ≤ xsi) (x1 : xsi ≤ 1) (e0 : 0 ≤ eta) (e1 : eta ≤ 1) (z0 : 0 ≤ zet) (z1 : zet ≤ 1) (h : At c x y xsi eta) :
    BothGive3 m false c z xsi eta zet x f v := by
  have := both3 (m := m) (sph := false) (z := z) (zet := zet) f (x := x) (c := c) (by unfold NarrowCell; simpa using hn) h
  have e : shift false x c = c := rfl
  rwa [e, uniform_velocity m c z hs hu hp f v hf xsi eta zet x0 x1 e0 e1 z0 z1] at this

/-- A wedge: the first level slopes, the second one is flat; the normal components of the flow (1, 2, 3). -/
noncomputable def flatm : Metric ℝ := ⟨Real.sqrt, Real.cos⟩
noncomputable def wedge : V8 ℝ := ⟨0, 3, 3, 0, 10, 10, 10, 10⟩
noncomputable def wedgeFaces : Faces3 ℝ := ⟨1, 1, 2, 2, 9/5, 3⟩

example : Roots flatm.sqrt ∧ Upright (boxCell 0 0 4 2) wedge ∧ Planes (boxCell 0 0 4 2) wedge ∧ Narrow (boxCell 0 0 4 2 : Cell ℝ) := by
  refine ⟨fun a ha => ⟨Real.sqrt_nonneg a, Real.mul_self_sqrt ha⟩, ?_, ⟨3/4, 0, 0, 0, 0, 10, ?_⟩, ?_⟩
  · intro xsi eta h0 h1 _ _
    constructor
    · simp only [jacobian, boxCell]; ring_nf; norm_num
    · simp only [thickness, point, wedge]; nlinarith
  · simp only [wedge, boxCell]; norm_num
  · unfold Narrow; simp only [boxCell]; norm_num [abs_lt]
example (xsi eta zet : ℝ) (_h0 : 0 ≤ xsi) (h1 : xsi ≤ 1) (_e0 : 0 ≤ eta) (_e1 : eta ≤ 1) (_z0 : 0 ≤ zet) (_z1 : zet ≤ 1) :
    Normals flatm false (boxCell 0 0 4 2) wedge wedgeFaces ⟨1, 2, 3⟩ xsi eta zet := by
  have ht : 0 < 10 - 3 * xsi := by linarith
  have a : toColumn flatm false (boxCell 0 0 4 2) wedge xsi eta zet = ⟨4, 0, 3 * (1 - zet)⟩ := by
    simp only [toColumn, metres, point, V3.sub, boxCell, wedge, bilinX, bilinY, cond_false, V3.mk.injEq]; refine ⟨?_, ?_, ?_⟩ <;> ring
  have b : toRow flatm false (boxCell 0 0 4 2) wedge xsi eta zet = ⟨0, 2, 0⟩ := by
    simp only [toRow, metres, point, V3.sub, boxCell, wedge, bilinX, bilinY, cond_false, V3.mk.injEq]; refine ⟨?_, ?_, ?_⟩ <;> ring
  have d : toLevel flatm false (boxCell 0 0 4 2) wedge xsi eta zet = ⟨0, 0, 10 - 3 * xsi⟩ := by
    simp only [toLevel, metres, point, V3.sub, boxCell, wedge, bilinX, bilinY, cond_false, V3.mk.injEq]; refine ⟨?_, ?_, ?_⟩ <;> ring
  have root : ∀ r s : ℝ, 0 ≤ r → s = r * r → Real.sqrt s = r := fun r s hr hs => by rw [hs]; exact Real.sqrt_mul_self hr
  have nz : V3.norm flatm.sqrt (V3.cross ⟨0, 2, 0⟩ ⟨0, 0, 10 - 3 * xsi⟩) = 2 * (10 - 3 * xsi) := by
    refine root _ _ (by linarith) ?_; simp only [V3.dot, V3.cross]; ring
  have nm : V3.norm flatm.sqrt (V3.cross ⟨0, 0, 10 - 3 * xsi⟩ ⟨4, 0, 3 * (1 - zet)⟩) = 4 * (10 - 3 * xsi) := by
    refine root _ _ (by linarith) ?_; simp only [V3.dot, V3.cross]; ring
  refine ⟨?_, ?_, ?_, ?_, ?_, ?_⟩ <;> intro e <;> simp only [a, b, d] <;> unfold through
  · rw [nz, if_pos (by simp only [V3.dot, V3.cross]; linarith)]; simp only [V3.dot, V3.cross, wedgeFaces]; ring
  · rw [nz, if_pos (by simp only [V3.dot, V3.cross]; linarith)]; simp only [V3.dot, V3.cross, wedgeFaces]; ring
  · rw [nm, if_pos (by simp only [V3.dot, V3.cross]; linarith)]; simp only [V3.dot, V3.cross, wedgeFaces]; ring
  · rw [nm, if_pos (by simp only [V3.dot, V3.cross]; linarith)]; simp only [V3.dot, V3.cross, wedgeFaces]; ring
  · have n : V3.norm flatm.sqrt (V3.cross ⟨4, 0, 3 * (1 - zet)⟩ ⟨0, 2, 0⟩) = 10 := by
      refine root _ _ (by norm_num) ?_; rw [e]; simp only [V3.dot, V3.cross]; norm_num
    rw [n, if_pos (by simp only [V3.dot, V3.cross, deeper]; norm_num), e]; simp only [V3.dot, V3.cross, wedgeFaces]; norm_num
  · have n : V3.norm flatm.sqrt (V3.cross ⟨4, 0, 3 * (1 - zet)⟩ ⟨0, 2, 0⟩) = 8 := by
      refine root _ _ (by norm_num) ?_; rw [e]; simp only [V3.dot, V3.cross]; norm_num
    rw [n, if_pos (by simp only [V3.dot, V3.cross, deeper]; norm_num), e]; simp only [V3.dot, V3.cross, wedgeFaces]; norm_num

/-- C73 in a box on the flat mesh: if as much flows out as in, both modes interpolate each component linearly between its two faces. -/
theorem C73_box_partial (m : Metric K) (hs : IsSqrt m.sqrt) {x0 y0 z0 a b t : K} (ha : 0 < a) (hb : 0 < b) (ht : 0 < t) (hn : Narrow (boxCell x0 y0 a b)) (f : Faces3 K)
    (hf : (f.u1 - f.u0) * (b * t) + (f.v1 - f.v0) * (a * t) + (f.w1 - f.w0) * (a * b) = 0) (xsi eta zet : K) :
    BothGive3 m false (boxCell x0 y0 a b) (boxDepths z0 t) xsi eta zet (x0 + xsi * a) f
      ⟨(1 - xsi) * f.u0 + xsi * f.u1, (1 - eta) * f.v0 + eta * f.v1, (1 - zet) * f.w0 + zet * f.w1⟩ := by
  have := box_both hs ha hb ht hn (z := z0) f xsi eta zet
  have k1 : f.u0 + ((f.v0 - f.v1) / b + (f.w0 - f.w1) / t) * (a / 2) = (f.u0 + f.u1) / 2 := by
    field_simp; linear_combination -hf
  have k2 : f.v0 + ((f.u0 - f.u1) / a + (f.w0 - f.w1) / t) * (b / 2) = (f.v0 + f.v1) / 2 := by
    field_simp; linear_combination -hf
  have k3 : f.w0 + ((f.u0 - f.u1) / a + (f.v0 - f.v1) / b) * (t / 2) = (f.w0 + f.w1) / 2 := by
    field_simp; linear_combination -hf
  rw [k1, k2, k3] at this
  convert this using 2 <;> unfold quad <;> ring

/-- A metric with the square root of the rationals, and a box with inflow through the first level. -/
def ratm : Metric ℚ := ⟨Rat.sqrt, fun _ => 1⟩
theorem ratm_sqrt : IsSqrt ratm.sqrt := fun r => Rat.sqrt_eq r
def inflow : Faces3 ℚ := ⟨1, 1, 0, 0, 1, 0⟩

theorem narrow_box : Narrow (boxCell 0 0 4 2 : Cell ℚ) := by
  unfold Narrow
  decide +kernel

theorem inflow_box {t : ℚ} (ht : 0 < t) : BothGive3 ratm false (boxCell 0 0 4 2) (boxDepths 0 t) (1/2) (1/2) (1/2) 2 inflow ⟨1 + 2 / t, 1 / t, 1⟩ := by
  have := box_both ratm_sqrt (x := 0) (y := 0) (z := 0) (a := 4) (b := 2) (by norm_num) (by norm_num) ht narrow_box inflow (1/2) (1/2) (1/2)
  have e : (0 : ℚ) + 1 / 2 * 4 = 2 := by norm_num
  rw [e] at this
  convert this using 2 <;> simp only [quad, inflow] <;> ring

/-- The divergence of the other components counts: U is 1 on both faces, and 3 in the middle. -/
example : BothGive3 ratm false (boxCell 0 0 4 2) (boxDepths 0 1) (1/2) (1/2) (1/2) 2 inflow ⟨3, 1, 1⟩ := by
  have := inflow_box (t := 1) one_pos
  norm_num at this ⊢
  exact this

/-- C73, time: on levels that do not move, both modes interpolate the velocities of two snapshots linearly in time. -/
theorem C73_in_time_partial (q : InTime K) (hq : q.moving = none) (m : Metric K) (sph : Bool) (ti : Nat) (s xsi eta zet x y : K)
    (hn : NarrowCell sph x q.cell) (h : At (shift sph x q.cell) x y xsi eta) (hs : 0 ≤ s) :
    ∃ a b, BothGive3 m sph q.cell q.fixed xsi eta zet x (q.faces ti) a ∧ BothGive3 m sph q.cell q.fixed xsi eta zet x (q.faces (ti + 1)) b ∧
      q.py m sph ti s xsi eta zet x = some (between a b s) ∧ q.c m sph ti s xsi eta zet = between a b s := by
  refine ⟨_, _, both3 _ hn h, both3 _ hn h, ?_, ?_⟩
  · unfold InTime.py
    simp only [hq]
    rw [(both3 (m := m) (z := q.fixed) (zet := zet) (q.faces ti) hn h).1, (both3 (m := m) (z := q.fixed) (zet := zet) (q.faces (ti + 1)) hn h).1]
    rcases hs.lt_or_eq with h0 | h0
    · rw [if_pos h0]; rfl
    · rw [if_neg (by rw [← h0]; exact lt_irrefl 0), ← h0]
      simp only [between, mul_zero, add_zero]
  · unfold InTime.c
    simp only [hq]
    rw [(both3 (m := m) (z := q.fixed) (zet := zet) (q.faces ti) hn h).2, (both3 (m := m) (z := q.fixed) (zet := zet) (q.faces (ti + 1)) hn h).2]
    rcases hs.lt_or_eq with h0 | h0
    · rw [if_pos h0]
    · rw [if_neg (by rw [← h0]; exact lt_irrefl 0), ← h0]
      simp only [between, mul_zero, add_zero]

/-- A box whose thickness doubles. -/
def breathing : InTime ℚ where
  cell := boxCell 0 0 4 2
  fixed := boxDepths 0 1
  moving := some fun i => boxDepths 0 (i + 1)
  faces := fun _ => inflow

example : NarrowCell false 2 breathing.cell ∧ At (shift false 2 breathing.cell) 2 1 (1/2) (1/2) := by
  refine ⟨by unfold NarrowCell; exact narrow_box, ?_⟩
  unfold At
  decide +kernel

/-- C73 fails if the levels move: Scipy mode always uses the depths of the first snapshot in memory, JIT mode those of the snapshots it
interpolates between; the velocities differ, even exactly at a snapshot. -/
theorem C73_moving_fails :
    breathing.py ratm false 1 0 (1/2) (1/2) (1/2) 2 = some ⟨3, 1, 1⟩ ∧ breathing.c ratm false 1 0 (1/2) (1/2) (1/2) = ⟨2, 1/2, 1⟩ := by
  have h1 := inflow_box (t := 1) one_pos
  have h2 := inflow_box (t := 2) two_pos
  constructor
  · have e : breathing.py ratm false 1 0 (1/2) (1/2) (1/2) 2 = pyVelocity3 ratm false (boxCell 0 0 4 2) (boxDepths 0 1) (1/2) (1/2) (1/2) 2 inflow := by
      simp [InTime.py, breathing]
    rw [e, h1.1]; norm_num
  · have e : breathing.c ratm false 1 0 (1/2) (1/2) (1/2) = cVelocity3 ratm false (boxCell 0 0 4 2) (boxDepths 0 2) (1/2) (1/2) (1/2) inflow := by
      simp [InTime.c, breathing]; norm_num
    rw [e, h2.2]; norm_num

/-- Where NEMO's data lie, in units of the indices of the corners of cells (column, row, level): `U` with index `(k, j, i)` on the column `i` of
corners, half a row and half a level from the corner `(k, j, i)`, and likewise `V` and `W`. -/
def nemoU (k j i : Nat) : ℚ × ℚ × ℚ := (i, j - 1/2, k + 1/2)
def nemoV (k j i : Nat) : ℚ × ℚ × ℚ := (i - 1/2, j, k + 1/2)
def nemoW (k j i : Nat) : ℚ × ℚ × ℚ := (i - 1/2, j - 1/2, k)

/-- C73: with NEMO indexing the six values used in the cell between the columns `i` and `i + 1`, rows `j` and `j + 1` and levels `k` and `k + 1` of
corners are those of the middles of its six faces. -/
theorem C73_faces_nemo (u v w : ℚ × ℚ × ℚ → ℚ) (k j i : Nat) :
    faces3 (fun k j i => u (nemoU k j i)) (fun k j i => v (nemoV k j i)) (fun k j i => w (nemoW k j i)) k j i =
      { u0 := u (i, j + 1/2, k + 1/2), u1 := u (i + 1, j + 1/2, k + 1/2), v0 := v (i + 1/2, j, k + 1/2), v1 := v (i + 1/2, j + 1, k + 1/2),
        w0 := w (i + 1/2, j + 1/2, k), w1 := w (i + 1/2, j + 1/2, k + 1) } := by
  have h : ∀ n : Nat, ((n + 1 : ℕ) : ℚ) - 1/2 = n + 1/2 := fun n => by push_cast; ring
  simp only [faces3, nemoU, nemoV, nemoW, h]
  push_cast
  rfl

/-- C73 fails for MITgcm indexing on s-levels: it is accepted, on curvilinear grids too (the check names the z-grids twice), and the faces are
those of NEMO: both modes return, on the west face of the cell, not the velocity of its own face but that of the next row. -/
theorem C73_mitgcm_fails :
    (accepted .mitgcm .rectilinearS = true ∧ accepted .mitgcm .curvilinearS = true ∧ accepted .mitgcm .curvilinearZ = false) ∧
      (uses3 .rectilinearS = true ∧ uses3 .curvilinearS = true) ∧
    ∃ U V W : Nat → Nat → Nat → ℚ, ∃ v, BothGive3 ratm false (boxCell 0 0 4 2) (boxDepths 0 1) 0 (1/2) (1/2) 0 (faces3 U V W 0 0 0) v ∧
      v.x ≠ (mitgcm3 U V W 0 0 0).u0 ∧ v.x = (mitgcm3 U V W 0 1 0).u0 := by
  refine ⟨by decide, by decide, fun _ j _ => j, fun _ _ _ => 0, fun _ _ _ => 0, ?_⟩
  refine ⟨⟨quad 1 1 1 0, quad 0 0 0 (1/2), quad 0 0 0 (1/2)⟩, ?_, ?_, ?_⟩
  · have := box_both ratm_sqrt (x := 0) (y := 0) (z := 0) (a := 4) (b := 2) (by norm_num) (by norm_num) one_pos narrow_box
      (faces3 (fun _ j _ => (j : ℚ)) (fun _ _ _ => 0) (fun _ _ _ => 0) 0 0 0) 0 (1/2) (1/2)
    rw [zero_add, zero_mul] at this
    convert this using 2 <;> simp [faces3]
  · simp [quad, faces3, mitgcm3]
  · simp [quad, faces3, mitgcm3]

end Parcels.CGrid3D
