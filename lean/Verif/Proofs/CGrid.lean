import Verif.Spec.CGrid
import Verif.Proofs.Curvilinear

/-!
Lemmas about the interpolation on C-grids.
-/

namespace Parcels.CGrid

open Parcels.Curvilinear

variable {K : Type} [Field K] [LinearOrder K]

theorem jac_eq (c : Cell K) (xsi eta : K) : jac c xsi eta = jacobian c xsi eta := by
  unfold jac jacobian; ring

theorem dotPhi_x (c : Cell K) (xsi eta : K) : dotPhi xsi eta c.x0 c.x1 c.x2 c.x3 = bilinX c xsi eta := rfl
theorem dotPhi_y (c : Cell K) (xsi eta : K) : dotPhi xsi eta c.y0 c.y1 c.y2 c.y3 = bilinY c xsi eta := rfl

theorem jacobian_along (c : Cell K) (xsi eta : K) :
    jacobian c xsi eta = alongXsiX c eta * alongEtaY c xsi - alongXsiY c eta * alongEtaX c xsi := rfl

theorem dist_flat (m : Metric K) (x1 x2 y1 y2 lat : K) : dist m false x1 x2 y1 y2 lat = length m.sqrt (x2 - x1) (y2 - y1) := rfl

theorem length_comm (sqrt : K → K) (x1 x2 y1 y2 : K) : length sqrt (x2 - x1) (y2 - y1) = length sqrt (x1 - x2) (y1 - y2) := by
  unfold length
  congr 1
  ring

/-- The fluxes through the lines xsi = const and eta = const. -/
def fluxU (m : Metric K) (sph : Bool) (c : Cell K) (xsi eta : K) (f : Faces K) : K :=
  (1 - xsi) * (f.west * dist m sph c.x3 c.x0 c.y3 c.y0 (dotPhi 0 eta c.y0 c.y1 c.y2 c.y3)) +
    xsi * (f.east * dist m sph c.x1 c.x2 c.y1 c.y2 (dotPhi 1 eta c.y0 c.y1 c.y2 c.y3))
def fluxV (m : Metric K) (sph : Bool) (c : Cell K) (xsi eta : K) (f : Faces K) : K :=
  (1 - eta) * (f.south * dist m sph c.x0 c.x1 c.y0 c.y1 (dotPhi xsi 0 c.y0 c.y1 c.y2 c.y3)) +
    eta * (f.north * dist m sph c.x2 c.x3 c.y2 c.y3 (dotPhi xsi 1 c.y0 c.y1 c.y2 c.y3))

theorem velocity_eq (m : Metric K) (sph : Bool) (c : Cell K) (xsi eta lat : K) (f : Faces K) :
    velocity m sph c xsi eta lat f =
      ((fluxU m sph c xsi eta f * alongXsiX c eta + fluxV m sph c xsi eta f * alongEtaX c xsi) /
        (jacobian c xsi eta * (bif sph then deg2m * deg2m * m.cos lat else 1)),
       (fluxU m sph c xsi eta f * alongXsiY c eta + fluxV m sph c xsi eta f * alongEtaY c xsi) /
        (jacobian c xsi eta * (bif sph then deg2m * deg2m * m.cos lat else 1))) := by
  unfold velocity
  simp only [jac_eq]
  congr 2
  · unfold fluxU fluxV alongXsiX alongEtaX; ring
  · unfold fluxU fluxV alongXsiY alongEtaY; ring

theorem flux_alg {J k U V p q r t : K} (hJ : J ≠ 0) (hk : k ≠ 0) (h : J = p * t - q * r) :
    k * flux ((U * p + V * r) / (J * k)) ((U * q + V * t) / (J * k)) r t = U ∧
    k * -flux ((U * p + V * r) / (J * k)) ((U * q + V * t) / (J * k)) p q = V := by
  unfold flux
  constructor
  · field_simp
    rw [h]; ring
  · field_simp
    rw [h]; ring

theorem dist_sphere (m : Metric K) (x1 x2 y1 y2 lat : K) :
    dist m true x1 x2 y1 y2 lat = length m.sqrt ((x2 - x1) * (deg2m * m.cos lat)) ((y2 - y1) * deg2m) := by
  unfold dist length
  simp only [cond_true]
  congr 1
  ring

theorem length_neg (sqrt : K → K) (x1 x2 y1 y2 a b : K) :
    length sqrt ((x2 - x1) * a) ((y2 - y1) * b) = length sqrt ((x1 - x2) * a) ((y1 - y2) * b) := by
  unfold length
  congr 1
  ring

/-- The velocity depends only on the differences of the longitudes. -/
theorem velocity_congr (m : Metric K) (sph : Bool) {c d : Cell K} (xsi eta lat : K) (f : Faces K)
    (h1 : c.x1 - c.x0 = d.x1 - d.x0) (h2 : c.x2 - c.x0 = d.x2 - d.x0) (h3 : c.x3 - c.x0 = d.x3 - d.x0)
    (k0 : c.y0 = d.y0) (k1 : c.y1 = d.y1) (k2 : c.y2 = d.y2) (k3 : c.y3 = d.y3) :
    velocity m sph c xsi eta lat f = velocity m sph d xsi eta lat f := by
  have e1 : c.x1 = d.x1 + (c.x0 - d.x0) := by linear_combination h1
  have e2 : c.x2 = d.x2 + (c.x0 - d.x0) := by linear_combination h2
  have e3 : c.x3 = d.x3 + (c.x0 - d.x0) := by linear_combination h3
  have hd : ∀ a b u v y1 y2 lat : K, b - a = v - u → dist m sph a b y1 y2 lat = dist m sph u v y1 y2 lat := by
    intro a b u v y1 y2 lat h
    unfold dist
    rw [h]
  have hU : fluxU m sph c xsi eta f = fluxU m sph d xsi eta f := by
    unfold fluxU
    rw [k0, k1, k2, k3, hd c.x3 c.x0 d.x3 d.x0 _ _ _ (by linear_combination -h3),
      hd c.x1 c.x2 d.x1 d.x2 _ _ _ (by linear_combination h2 - h1)]
  have hV : fluxV m sph c xsi eta f = fluxV m sph d xsi eta f := by
    unfold fluxV
    rw [k0, k1, k2, k3, hd c.x0 c.x1 d.x0 d.x1 _ _ _ h1, hd c.x2 c.x3 d.x2 d.x3 _ _ _ (by linear_combination h3 - h2)]
  have a1 : alongXsiX c eta = alongXsiX d eta := by unfold alongXsiX; rw [e1, e2, e3]; ring
  have a2 : alongXsiY c eta = alongXsiY d eta := by unfold alongXsiY; rw [k0, k1, k2, k3]
  have a3 : alongEtaX c xsi = alongEtaX d xsi := by unfold alongEtaX; rw [e1, e2, e3]; ring
  have a4 : alongEtaY c xsi = alongEtaY d xsi := by unfold alongEtaY; rw [k0, k1, k2, k3]
  rw [velocity_eq, velocity_eq, hU, hV, jacobian_along, jacobian_along, a1, a2, a3, a4]

theorem cNear_same (p0 p : K) : SameLon (cNear p0 p) p := by
  unfold cNear SameLon
  simp only
  split_ifs
  · exact ⟨0, by push_cast; ring⟩
  · exact ⟨1, by push_cast; ring⟩
  · exact ⟨-1, by push_cast; ring⟩
  · exact ⟨0, by push_cast; ring⟩

variable [IsStrictOrderedRing K]

/-- Two differences of the same longitudes, both less than half a turn, are equal. -/
theorem same_offset {a p0 b q0 p q : K} (ha : SameLon a p) (hb : SameLon b p) (h0 : SameLon p0 q) (h1 : SameLon q0 q)
    (ka : |a - p0| < 180) (kb : |b - q0| < 180) : a - p0 = b - q0 := by
  obtain ⟨i, hi⟩ := ha
  obtain ⟨j, hj⟩ := hb
  obtain ⟨k, hk⟩ := h0
  obtain ⟨l, hl⟩ := h1
  rw [abs_lt] at ka kb
  have hd : (a - p0) - (b - q0) = 360 * ((i - j - k + l : ℤ) : K) := by
    rw [hi, hj, hk, hl]; push_cast; ring
  have hz : i - j - k + l = 0 := by
    have b1 : (360 : K) * ((i - j - k + l : ℤ) : K) < 360 := by rw [← hd]; linarith [ka.2, kb.1]
    have b2 : (-360 : K) < 360 * ((i - j - k + l : ℤ) : K) := by rw [← hd]; linarith [ka.1, kb.2]
    have c1 : ((i - j - k + l : ℤ) : K) < ((1 : ℤ) : K) := by push_cast at *; linarith
    have c2 : ((-1 : ℤ) : K) < ((i - j - k + l : ℤ) : K) := by push_cast at *; linarith
    rw [Int.cast_lt] at c1 c2
    omega
  rw [hz] at hd
  push_cast at hd
  linarith

theorem shifts_agree {x : K} {c : Cell K} (h : NarrowOnSphere x c) :
    let s := shift true x c
    let t := cShift c
    s.x1 - s.x0 = t.x1 - t.x0 ∧ s.x2 - s.x0 = t.x2 - t.x0 ∧ s.x3 - s.x0 = t.x3 - t.x0 := by
  intro s t
  obtain ⟨⟨a1, a2, a3⟩, b1, b2, b3⟩ := h
  have z : SameLon c.x0 c.x0 := ⟨0, by simp⟩
  exact ⟨same_offset (near_same _ _) (cNear_same _ _) (nearX_same _ _) z a1 b1,
    same_offset (near_same _ _) (cNear_same _ _) (nearX_same _ _) z a2 b2,
    same_offset (near_same _ _) (cNear_same _ _) (nearX_same _ _) z a3 b3⟩

theorem cNear_id {p0 p : K} (h : |p - p0| ≤ 180) : cNear p0 p = p := by
  rw [abs_le] at h
  unfold cNear
  simp only
  rw [if_neg (by linarith : ¬ p < p0 - 180), if_neg (by linarith : ¬ p > p0 + 180)]

theorem cShift_id {c : Cell K} (h : Narrow c) : cShift c = c := by
  unfold cShift
  rw [cNear_id h.1, cNear_id h.2.1, cNear_id h.2.2]

theorem py_at {m : Metric K} {c : Cell K} {xsi eta x y : K} (f : Faces K) {sph : Bool} (h : At (shift sph x c) x y xsi eta) :
    pyVelocity m sph c xsi eta x y f = some (velocity m sph (shift sph x c) xsi eta y f) := by
  unfold pyVelocity
  simp only
  rw [if_pos]
  rw [dotPhi_x, h.1, sub_self, abs_zero]
  norm_num

/-- On flat meshes with narrow cells both modes give the value of the formula. -/
theorem both_flat {m : Metric K} {c : Cell K} {xsi eta x y : K} (f : Faces K) (hn : Narrow c) (h : At c x y xsi eta) :
    BothGive m false c xsi eta x y f (velocity m false c xsi eta y f) := by
  constructor
  · exact py_at (sph := false) f h
  · unfold cVelocity
    simp only
    rw [cShift_id hn]
    rfl

end Parcels.CGrid
