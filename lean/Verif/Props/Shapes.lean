import Verif.Model.Shapes
import Verif.Spec.Shapes
import Mathlib.Algebra.Order.Ring.Rat
import Mathlib.Tactic.Ring
import Mathlib.Tactic.Linarith
import Mathlib.Tactic.FieldSimp
import Mathlib.Tactic.LinearCombination
import Mathlib.Tactic.Positivity
import Mathlib.Tactic.NormNum

/-!
C126: interpolation in a cell.
-/

namespace Parcels.Shapes

variable {K : Type} [Field K]

/-- C126: functions that are linear in each coordinate of the cell, and quadratic functions of one coordinate, are reproduced from their values at the corners (and
the middle). -/
theorem C126_exact (h2 : (2 : K) ≠ 0) (a0 a1 a2 a3 a4 a5 a6 a7 xsi eta zet : K) :
    interpolate phi1 ([0, 1].map fun s => a0 + a1 * s) xsi = a0 + a1 * xsi ∧
    interpolate phiQ (thirds.map fun s => a0 + a1 * s + a2 * s ^ 2) xsi = a0 + a1 * xsi + a2 * xsi ^ 2 ∧
    dot (phi2 xsi eta) (corners2.map fun p => a0 + a1 * p.1 + a2 * p.2 + a3 * p.1 * p.2) = a0 + a1 * xsi + a2 * eta + a3 * xsi * eta ∧
    dot (phi3 xsi eta zet) (corners3.map fun p => a0 + a1 * p.1 + a2 * p.2.1 + a3 * p.2.2 + a4 * p.1 * p.2.1 + a5 * p.1 * p.2.2 + a6 * p.2.1 * p.2.2 +
      a7 * p.1 * p.2.1 * p.2.2) = a0 + a1 * xsi + a2 * eta + a3 * zet + a4 * xsi * eta + a5 * xsi * zet + a6 * eta * zet + a7 * xsi * eta * zet := by
  refine ⟨?_, ?_, ?_, ?_⟩
  · simp [interpolate, dot, phi1]; ring
  · simp [interpolate, dot, phiQ, thirds]; field_simp; ring
  · simp [dot, phi2, corners2]; ring
  · simp [dot, phi3, corners3]; ring

/-- C126: at a corner (or the middle) the value there is returned. -/
theorem C126_corners (h2 : (2 : K) ≠ 0) (f : List K) :
    (f.length = 2 → [0, 1].map (interpolate phi1 f) = f) ∧ (f.length = 3 → thirds.map (interpolate phiQ f) = f) ∧
    (f.length = 4 → corners2.map (fun p => dot (phi2 p.1 p.2) f) = f) ∧ (f.length = 8 → corners3.map (fun p => dot (phi3 p.1 p.2.1 p.2.2) f) = f) := by
  refine ⟨?_, ?_, ?_, ?_⟩
  · intro h
    match f, h with
    | [a, b], _ => simp [interpolate, dot, phi1]
  · intro h
    match f, h with
    | [a, b, c], _ =>
      have e1 : 2 * ((2 : K) ^ 2)⁻¹ - 3 * 2⁻¹ + 1 = 0 := by field_simp; ring
      have e2 : -(4 * ((2 : K) ^ 2)⁻¹) + 4 * 2⁻¹ = 1 := by field_simp; ring
      have e3 : 2 * ((2 : K) ^ 2)⁻¹ - 2⁻¹ = 0 := by field_simp; ring
      have e4 : (2 : K) - 3 + 1 = 0 := by ring
      have e5 : (2 : K) - 1 = 1 := by ring
      simp [interpolate, dot, phiQ, thirds, e1, e2, e3, e4, e5]
  · intro h
    match f, h with
    | [a, b, c, d], _ => simp [dot, phi2, corners2]
  · intro h
    match f, h with
    | [a0, a1, a2, a3, a4, a5, a6, a7], _ => simp [dot, phi3, corners3]

section order
variable [LinearOrder K] [IsStrictOrderedRing K]

theorem weighted (w f : List K) (hw : ∀ x ∈ w, 0 ≤ x) (hl : w.length = f.length) (lo hi : K) (hf : ∀ x ∈ f, lo ≤ x ∧ x ≤ hi) :
    w.sum * lo ≤ dot w f ∧ dot w f ≤ w.sum * hi := by
  induction w generalizing f with
  | nil => simp [dot]
  | cons a w ih =>
    cases f with
    | nil => simp at hl
    | cons b f =>
      obtain ⟨i1, i2⟩ := ih f (fun x hx => hw x (by simp [hx])) (by simpa using hl) (fun x hx => hf x (by simp [hx]))
      have ha := hw a (by simp)
      obtain ⟨b1, b2⟩ := hf b (by simp)
      have m1 := mul_le_mul_of_nonneg_left b1 ha
      have m2 := mul_le_mul_of_nonneg_left b2 ha
      simp only [dot, List.zipWith_cons_cons, List.sum_cons] at *
      constructor <;> linarith

/-- C126: inside the cell the linear interpolations lie between the least and the greatest of the values at the corners. -/
theorem C126_between (xsi eta zet lo hi : K) (hx : In xsi) (he : In eta) (hz : In zet) (f : List K) (hf : ∀ v ∈ f, lo ≤ v ∧ v ≤ hi) :
    (f.length = 2 → lo ≤ interpolate phi1 f xsi ∧ interpolate phi1 f xsi ≤ hi) ∧
    (f.length = 4 → lo ≤ dot (phi2 xsi eta) f ∧ dot (phi2 xsi eta) f ≤ hi) ∧
    (f.length = 8 → lo ≤ dot (phi3 xsi eta zet) f ∧ dot (phi3 xsi eta zet) f ≤ hi) := by
  obtain ⟨x0, x1⟩ := hx
  obtain ⟨e0, e1⟩ := he
  obtain ⟨z0, z1⟩ := hz
  have x1 : 0 ≤ 1 - xsi := by linarith
  have e1 : 0 ≤ 1 - eta := by linarith
  have z1 : 0 ≤ 1 - zet := by linarith
  refine ⟨?_, ?_, ?_⟩
  · intro hl
    have h := weighted (phi1 xsi) f (by simp [phi1, x0]; linarith) (by simp [phi1, hl]) lo hi hf
    have s : (phi1 xsi).sum = 1 := by simp [phi1]
    rw [s, one_mul, one_mul] at h
    exact h
  · intro hl
    have h := weighted (phi2 xsi eta) f (by simp only [phi2, List.forall_mem_cons, List.not_mem_nil, false_imp_iff, implies_true, and_true]
                                            refine ⟨?_, ?_, ?_, ?_⟩ <;> positivity) (by simp [phi2, hl]) lo hi hf
    have s : (phi2 xsi eta).sum = 1 := by simp [phi2]; ring
    rw [s, one_mul, one_mul] at h
    exact h
  · intro hl
    have h := weighted (phi3 xsi eta zet) f (by simp only [phi3, List.forall_mem_cons, List.not_mem_nil, false_imp_iff, implies_true, and_true]
                                                refine ⟨?_, ?_, ?_, ?_, ?_, ?_, ?_, ?_⟩ <;> positivity) (by simp [phi3, hl]) lo hi hf
    have s : (phi3 xsi eta zet).sum = 1 := by simp [phi3]; ring
    rw [s, one_mul, one_mul] at h
    exact h

/-- C126: the Jacobian of a cell is positive everywhere in a cell that turns left at each corner, and in its middle it is the area of the cell. -/
theorem C126_jacobian (a b c d : K × K) (xsi eta : K) :
    (Convex a b c d → In xsi → In eta → 0 < jac2 [a.1, b.1, c.1, d.1] [a.2, b.2, c.2, d.2] xsi eta) ∧
    jac2 [a.1, b.1, c.1, d.1] [a.2, b.2, c.2, d.2] (1 / 2) (1 / 2) = area a b c d := by
  have key : jac2 [a.1, b.1, c.1, d.1] [a.2, b.2, c.2, d.2] xsi eta =
      (1 - xsi) * ((1 - eta) * turn d a b) + xsi * ((1 - eta) * turn a b c) + xsi * (eta * turn b c d) + (1 - xsi) * (eta * turn c d a) := by
    simp [jac2, dot, dphi2xsi, dphi2eta, turn]; ring
  constructor
  · rintro ⟨t1, t2, t3, t4⟩ ⟨x0, x1⟩ ⟨e0, e1⟩
    rw [key]
    have e1' : 0 ≤ 1 - eta := by linarith
    have x1' : 0 ≤ 1 - xsi := by linarith
    have south : 0 ≤ (1 - eta) * turn d a b ∧ 0 ≤ (1 - eta) * turn a b c := ⟨by positivity, by positivity⟩
    have north : 0 ≤ eta * turn b c d ∧ 0 ≤ eta * turn c d a := ⟨by positivity, by positivity⟩
    have left : 0 < (1 - eta) * turn d a b + eta * turn c d a := by
      rcases lt_or_ge eta 1 with h | h
      · have : 0 < (1 - eta) * turn d a b := mul_pos (by linarith) t1
        linarith
      · have : 0 < eta * turn c d a := mul_pos (by linarith) t4
        linarith
    have right : 0 < (1 - eta) * turn a b c + eta * turn b c d := by
      rcases lt_or_ge eta 1 with h | h
      · have : 0 < (1 - eta) * turn a b c := mul_pos (by linarith) t2
        linarith
      · have : 0 < eta * turn b c d := mul_pos (by linarith) t3
        linarith
    have e : (1 - xsi) * ((1 - eta) * turn d a b) + xsi * ((1 - eta) * turn a b c) + xsi * (eta * turn b c d) + (1 - xsi) * (eta * turn c d a) =
        (1 - xsi) * ((1 - eta) * turn d a b + eta * turn c d a) + xsi * ((1 - eta) * turn a b c + eta * turn b c d) := by ring
    rw [e]
    rcases lt_or_ge xsi 1 with h | h
    · have := mul_pos (show 0 < 1 - xsi by linarith) left
      have := mul_nonneg x0 right.le
      linarith
    · have := mul_pos (show 0 < xsi by linarith) right
      have := mul_nonneg x1' left.le
      linarith
  · simp [jac2, dot, dphi2xsi, dphi2eta, area, turn]
    field_simp
    ring

end order

/-- C126: the derivatives are those of the interpolations. As these are linear in each coordinate, the differences are exactly the step times the derivative. -/
theorem C126_derivatives (xsi eta zet d : K) (f : List K) :
    (f.length = 4 → dot (phi2 (xsi + d) eta) f - dot (phi2 xsi eta) f = d * dot f (dphi2xsi xsi eta) ∧
      dot (phi2 xsi (eta + d)) f - dot (phi2 xsi eta) f = d * dot f (dphi2eta xsi eta)) ∧
    (f.length = 8 → dot (phi3 (xsi + d) eta zet) f - dot (phi3 xsi eta zet) f = d * dot f (dphi3xsi xsi eta zet) ∧
      dot (phi3 xsi (eta + d) zet) f - dot (phi3 xsi eta zet) f = d * dot f (dphi3eta xsi eta zet) ∧
      dot (phi3 xsi eta (zet + d)) f - dot (phi3 xsi eta zet) f = d * dot f (dphi3zet xsi eta zet)) := by
  constructor
  · intro h
    match f, h with
    | [a, b, c, e], _ => constructor <;> simp [dot, phi2, dphi2xsi, dphi2eta] <;> ring
  · intro h
    match f, h with
    | [a0, a1, a2, a3, a4, a5, a6, a7], _ => refine ⟨?_, ?_, ?_⟩ <;> simp [dot, phi3, dphi3xsi, dphi3eta, dphi3zet] <;> ring

/-- C126: the interpolation of velocities on C-grids uses these functions (`dotPhi`, `quad`, `jac`, `dXsi`, `dEta`, `dZet` are those of C51 and C73, of Python and
of C). -/
theorem C126_used [LinearOrder K] (xsi eta zet : K) (p : CGrid3D.V8 K) (c : Curvilinear.Cell K) (f0 f1 f2 f3 : K) :
    CGrid.dotPhi xsi eta f0 f1 f2 f3 = dot (phi2 xsi eta) [f0, f1, f2, f3] ∧
    CGrid3D.quad f0 f1 f2 xsi = interpolate phiQ [f0, f1, f2] xsi ∧
    CGrid.jac c xsi eta = jac2 [c.x0, c.x1, c.x2, c.x3] [c.y0, c.y1, c.y2, c.y3] xsi eta ∧
    CGrid3D.dXsi p xsi eta zet = dot [p.a0, p.a1, p.a2, p.a3, p.a4, p.a5, p.a6, p.a7] (dphi3xsi xsi eta zet) ∧
    CGrid3D.dEta p xsi eta zet = dot [p.a0, p.a1, p.a2, p.a3, p.a4, p.a5, p.a6, p.a7] (dphi3eta xsi eta zet) ∧
    CGrid3D.dZet p xsi eta zet = dot [p.a0, p.a1, p.a2, p.a3, p.a4, p.a5, p.a6, p.a7] (dphi3zet xsi eta zet) := by
  refine ⟨?_, ?_, ?_, ?_, ?_, ?_⟩
  · simp [CGrid.dotPhi, dot, phi2]; ring
  · simp [CGrid3D.quad, interpolate, dot, phiQ]; ring
  · simp [CGrid.jac, jac2, dot, dphi2xsi, dphi2eta]; ring
  · simp [CGrid3D.dXsi, dot, dphi3xsi]; ring
  · simp [CGrid3D.dEta, dot, dphi3eta]; ring
  · simp [CGrid3D.dZet, dot, dphi3zet]; ring

/-- A cell of a curvilinear grid turns left at each corner; its Jacobian at a point, and values in it. -/
example : Convex ((0, 0) : ℚ × ℚ) (4, 1) (6, 5) (1, 3) ∧ jac2 [(0 : ℚ), 4, 6, 1] [0, 1, 5, 3] (1 / 4) (1 / 2) = 51 / 4 ∧
    area ((0, 0) : ℚ × ℚ) (4, 1) (6, 5) (1, 3) = 27 / 2 ∧ dot (phi2 (1 / 4 : ℚ) (1 / 2)) [1, 2, 5, 9] = 37 / 8 := by
  refine ⟨⟨?_, ?_, ?_, ?_⟩, ?_, ?_, ?_⟩ <;> norm_num [turn, area, jac2, dot, phi2, dphi2xsi, dphi2eta]

/-- The quadratic interpolation can leave the range of its values, so it is not in `C126_between`. -/
example : interpolate phiQ [0, 1, 1] (3 / 4 : ℚ) = 9 / 8 := by norm_num [interpolate, dot, phiQ]

end Parcels.Shapes
