import Verif.Spec.CGrid3D
import Verif.Proofs.CGrid

/-!
Lemmas for C73.
-/

namespace Parcels.CGrid3D
open Parcels.Curvilinear Parcels.CGrid

variable {K : Type} [Field K] [LinearOrder K] [IsStrictOrderedRing K]

omit [IsStrictOrderedRing K] in
theorem colXsi_eq (m : Metric K) (sph : Bool) (c : Cell K) (z : V8 K) (xsi eta zet : K) :
    colXsi m sph (hexa c z) xsi eta zet = toColumn m sph c z xsi eta zet := by
  cases sph <;> simp only [colXsi, toColumn, metres, point, V3.sub, jacLon, jacLat, hexa, dXsi, dotPhi_y, bilinX, bilinY, cond_true, cond_false, V3.mk.injEq] <;>
    refine ⟨by ring, by ring, by ring⟩

omit [IsStrictOrderedRing K] in
theorem colEta_eq (m : Metric K) (sph : Bool) (c : Cell K) (z : V8 K) (xsi eta zet : K) :
    colEta m sph (hexa c z) xsi eta zet = toRow m sph c z xsi eta zet := by
  cases sph <;> simp only [colEta, toRow, metres, point, V3.sub, jacLon, jacLat, hexa, dEta, dotPhi_y, bilinX, bilinY, cond_true, cond_false, V3.mk.injEq] <;>
    refine ⟨by ring, by ring, by ring⟩

omit [IsStrictOrderedRing K] in
theorem colZet_eq (m : Metric K) (sph : Bool) (c : Cell K) (z : V8 K) (xsi eta zet : K) :
    colZet m sph (hexa c z) xsi eta zet = toLevel m sph c z xsi eta zet := by
  cases sph <;> simp only [colZet, toLevel, metres, point, V3.sub, jacLon, jacLat, hexa, dZet, dotPhi_y, bilinX, bilinY, cond_true, cond_false, V3.mk.injEq] <;>
    refine ⟨by ring, by ring, by ring⟩

omit [IsStrictOrderedRing K] in
theorem face_zonal (m : Metric K) (sph : Bool) (c : Cell K) (z : V8 K) (xsi eta zet : K) :
    face m sph (hexa c z) xsi eta zet .zonal = ((toRow m sph c z xsi eta zet).cross (toLevel m sph c z xsi eta zet)).norm m.sqrt := by
  simp only [face, colEta_eq, colZet_eq, V3.norm, V3.dot, V3.cross]
  congr 1; ring

omit [IsStrictOrderedRing K] in
theorem face_meridional (m : Metric K) (sph : Bool) (c : Cell K) (z : V8 K) (xsi eta zet : K) :
    face m sph (hexa c z) xsi eta zet .meridional = ((toLevel m sph c z xsi eta zet).cross (toColumn m sph c z xsi eta zet)).norm m.sqrt := by
  simp only [face, colXsi_eq, colZet_eq, V3.norm, V3.dot, V3.cross]
  congr 1; ring

omit [IsStrictOrderedRing K] in
theorem face_vertical (m : Metric K) (sph : Bool) (c : Cell K) (z : V8 K) (xsi eta zet : K) :
    face m sph (hexa c z) xsi eta zet .vertical = ((toColumn m sph c z xsi eta zet).cross (toRow m sph c z xsi eta zet)).norm m.sqrt := by
  simp only [face, colXsi_eq, colEta_eq, V3.norm, V3.dot, V3.cross]
  congr 1; ring

omit [IsStrictOrderedRing K] in
theorem jac3_eq (m : Metric K) (sph : Bool) (c : Cell K) (z : V8 K) (xsi eta zet : K) :
    jac3 m sph (hexa c z) xsi eta zet =
      ((toRow m sph c z xsi eta zet).cross (toLevel m sph c z xsi eta zet)).dot (toColumn m sph c z xsi eta zet) := by
  simp only [jac3, colXsi_eq, colEta_eq, colZet_eq, V3.dot, V3.cross]
  ring

omit [LinearOrder K] [IsStrictOrderedRing K] in
theorem cross_cycle (a b c : V3 K) : (c.cross a).dot b = (b.cross c).dot a := by
  simp only [V3.dot, V3.cross]; ring

/-- Square metres per square unit of longitude and latitude. -/
def area1 (m : Metric K) (sph : Bool) (lat : K) : K := bif sph then deg2m * m.cos lat * deg2m else 1

omit [IsStrictOrderedRing K] in
theorem jac3_thick (m : Metric K) (sph : Bool) (c : Cell K) (z : V8 K) (xsi eta zet : K) :
    jac3 m sph (hexa c z) xsi eta zet = jacobian c xsi eta * thickness c z xsi eta * area1 m sph (bilinY c xsi eta) := by
  rw [jac3_eq]
  cases sph <;> simp only [toRow, toLevel, toColumn, metres, point, V3.sub, V3.cross, V3.dot, area1, thickness, jacobian, bilinX, bilinY, cond_true, cond_false] <;> ring

omit [IsStrictOrderedRing K] in
theorem vertical_sign (m : Metric K) (sph : Bool) (c : Cell K) (z : V8 K) (xsi eta zet : K) :
    ((toColumn m sph c z xsi eta zet).cross (toRow m sph c z xsi eta zet)).dot deeper = jacobian c xsi eta * area1 m sph (bilinY c xsi eta) := by
  cases sph <;> simp only [toRow, toColumn, metres, point, V3.sub, V3.cross, V3.dot, area1, deeper, jacobian, bilinX, bilinY, cond_true, cond_false] <;> ring

/-- The velocity in metres, by its three transports. -/
theorem velocity_metres (m : Metric K) (sph : Bool) (c : Cell K) (z : V8 K) (f : Faces3 K) (xsi eta zet : K) :
    let j := jac3 m sph (hexa c z) xsi eta zet
    let a := toColumn m sph c z xsi eta zet
    let b := toRow m sph c z xsi eta zet
    let d := toLevel m sph c z xsi eta zet
    let U := transU m sph (hexa c z) f xsi eta zet / j
    let V := transV m sph (hexa c z) f xsi eta zet / j
    let W := transW m sph (hexa c z) f xsi eta zet / j
    metres m sph (bilinY c xsi eta) (velocity3 m sph (hexa c z) f xsi eta zet) =
      ⟨a.x * U + b.x * V + d.x * W, a.y * U + b.y * V + d.y * W, a.z * U + b.z * V + d.z * W⟩ := by
  intro j a b d U V W
  have ha : a = colXsi m sph (hexa c z) xsi eta zet := (colXsi_eq ..).symm
  have hb : b = colEta m sph (hexa c z) xsi eta zet := (colEta_eq ..).symm
  have hd : d = colZet m sph (hexa c z) xsi eta zet := (colZet_eq ..).symm
  rw [ha, hb, hd]
  cases sph
  · simp only [metres, velocity3, colXsi, colEta, colZet, jacLon, jacLat, cond_false, mul_one]; rfl
  · simp only [metres, velocity3, colXsi, colEta, colZet, jacLon, jacLat, cond_true, V3.mk.injEq]
    have hl : bilinY c xsi eta = dotPhi xsi eta (hexa c z).y.a0 (hexa c z).y.a1 (hexa c z).y.a2 (hexa c z).y.a3 := rfl
    rw [hl]
    refine ⟨?_, ?_, rfl⟩ <;> simp only [U, V, W, j] <;> ring

theorem dot_trans (m : Metric K) (sph : Bool) (c : Cell K) (z : V8 K) (f : Faces3 K) (xsi eta zet : K)
    (hj : jac3 m sph (hexa c z) xsi eta zet ≠ 0) :
    let a := toColumn m sph c z xsi eta zet
    let b := toRow m sph c z xsi eta zet
    let d := toLevel m sph c z xsi eta zet
    let v := metres m sph (bilinY c xsi eta) (velocity3 m sph (hexa c z) f xsi eta zet)
    v.dot (b.cross d) = transU m sph (hexa c z) f xsi eta zet ∧ v.dot (d.cross a) = transV m sph (hexa c z) f xsi eta zet ∧
      v.dot (a.cross b) = transW m sph (hexa c z) f xsi eta zet := by
  intro a b d v
  have hv := velocity_metres m sph c z f xsi eta zet
  simp only at hv
  have hje := jac3_eq m sph c z xsi eta zet
  rw [show v = _ from hv]
  generalize transU m sph (hexa c z) f xsi eta zet = U
  generalize transV m sph (hexa c z) f xsi eta zet = V
  generalize transW m sph (hexa c z) f xsi eta zet = W
  change _ = (b.cross d).dot a at hje
  change (V3.dot ⟨a.x * (U / _) + b.x * (V / _) + d.x * (W / _), a.y * (U / _) + b.y * (V / _) + d.y * (W / _), a.z * (U / _) + b.z * (V / _) + d.z * (W / _)⟩ _ = _) ∧
    (V3.dot ⟨a.x * (U / _) + b.x * (V / _) + d.x * (W / _), a.y * (U / _) + b.y * (V / _) + d.y * (W / _), a.z * (U / _) + b.z * (V / _) + d.z * (W / _)⟩ _ = _) ∧
    (V3.dot ⟨a.x * (U / _) + b.x * (V / _) + d.x * (W / _), a.y * (U / _) + b.y * (V / _) + d.y * (W / _), a.z * (U / _) + b.z * (V / _) + d.z * (W / _)⟩ _ = _)
  generalize jac3 m sph (hexa c z) xsi eta zet = j at hj hje
  clear hv
  clear_value a b d
  clear v
  have e : ∀ T : K, T = j * (T / j) := fun T => by field_simp
  generalize hU' : U / j = U'
  generalize hV' : V / j = V'
  generalize hW' : W / j = W'
  have hU : U = j * U' := by rw [← hU']; exact e U
  have hV : V = j * V' := by rw [← hV']; exact e V
  have hW : W = j * W' := by rw [← hW']; exact e W
  rw [hU, hV, hW, hje]
  simp only [V3.dot, V3.cross]
  refine ⟨by ring, by ring, by ring⟩

omit [LinearOrder K] [IsStrictOrderedRing K] in
theorem quad_zero (a b c : K) : quad a b c 0 = a := by unfold quad; ring
omit [LinearOrder K] [IsStrictOrderedRing K] in
theorem quad_one (a b c : K) : quad a b c 1 = c := by unfold quad; ring

/-- On the faces: flux in the direction of the product of the two sides. -/
theorem face_fluxes (m : Metric K) (sph : Bool) (c : Cell K) (z : V8 K) (f : Faces3 K) (xsi eta zet : K)
    (hj : jac3 m sph (hexa c z) xsi eta zet ≠ 0) :
    let a := toColumn m sph c z xsi eta zet
    let b := toRow m sph c z xsi eta zet
    let d := toLevel m sph c z xsi eta zet
    let v := metres m sph (bilinY c xsi eta) (velocity3 m sph (hexa c z) f xsi eta zet)
    ((xsi = 0 → v.dot (b.cross d) = f.u0 * (b.cross d).norm m.sqrt) ∧ (xsi = 1 → v.dot (b.cross d) = f.u1 * (b.cross d).norm m.sqrt)) ∧
    ((eta = 0 → v.dot (d.cross a) = f.v0 * (d.cross a).norm m.sqrt) ∧ (eta = 1 → v.dot (d.cross a) = f.v1 * (d.cross a).norm m.sqrt)) ∧
    ((zet = 0 → v.dot (a.cross b) = f.w0 * (a.cross b).norm m.sqrt) ∧ (zet = 1 → v.dot (a.cross b) = f.w1 * (a.cross b).norm m.sqrt)) := by
  intro a b d v
  obtain ⟨h1, h2, h3⟩ := dot_trans m sph c z f xsi eta zet hj
  refine ⟨⟨?_, ?_⟩, ⟨?_, ?_⟩, ⟨?_, ?_⟩⟩
  · rintro rfl; refine h1.trans ?_; unfold transU; rw [quad_zero, face_zonal]
  · rintro rfl; refine h1.trans ?_; unfold transU; rw [quad_one, face_zonal]
  · rintro rfl; refine h2.trans ?_; unfold transV; rw [quad_zero, face_meridional]
  · rintro rfl; refine h2.trans ?_; unfold transV; rw [quad_one, face_meridional]
  · rintro rfl; refine h3.trans ?_; unfold transW; rw [quad_zero, face_vertical]
  · rintro rfl; refine h3.trans ?_; unfold transW; rw [quad_one, face_vertical]

/-- All longitudes moved by `k`. -/
def V8.move (p : V8 K) (k : K) : V8 K := ⟨p.a0 + k, p.a1 + k, p.a2 + k, p.a3 + k, p.a4 + k, p.a5 + k, p.a6 + k, p.a7 + k⟩

omit [LinearOrder K] [IsStrictOrderedRing K] in
theorem dXsi_move (p : V8 K) (k a b d : K) : dXsi (p.move k) a b d = dXsi p a b d := by simp only [dXsi, V8.move]; ring
omit [LinearOrder K] [IsStrictOrderedRing K] in
theorem dEta_move (p : V8 K) (k a b d : K) : dEta (p.move k) a b d = dEta p a b d := by simp only [dEta, V8.move]; ring
omit [LinearOrder K] [IsStrictOrderedRing K] in
theorem dZet_move (p : V8 K) (k a b d : K) : dZet (p.move k) a b d = dZet p a b d := by simp only [dZet, V8.move]; ring

omit [IsStrictOrderedRing K] in
theorem face_move (m : Metric K) (sph : Bool) (p q r : V8 K) (k a b d : K) (o : Face) : face m sph ⟨p.move k, q, r⟩ a b d o = face m sph ⟨p, q, r⟩ a b d o := by
  simp only [face, colXsi, colEta, colZet, dXsi_move, dEta_move, dZet_move, jacLon]

theorem left_move (p : V8 K) (k : K) : leftHalf (p.move k) = (leftHalf p).move k := by
  simp only [leftHalf, V8.move, V8.mk.injEq]; refine ⟨trivial, by ring, by ring, trivial, trivial, by ring, by ring, trivial⟩
theorem front_move (p : V8 K) (k : K) : frontHalf (p.move k) = (frontHalf p).move k := by
  simp only [frontHalf, V8.move, V8.mk.injEq]; refine ⟨trivial, trivial, by ring, by ring, trivial, trivial, by ring, by ring⟩
theorem lower_move (p : V8 K) (k : K) : lowerHalf (p.move k) = (lowerHalf p).move k := by
  simp only [lowerHalf, V8.move, V8.mk.injEq]; refine ⟨trivial, trivial, trivial, trivial, by ring, by ring, by ring, by ring⟩

theorem velocity3_move (m : Metric K) (sph : Bool) (p q r : V8 K) (k : K) (f : Faces3 K) (a b d : K) :
    velocity3 m sph ⟨p.move k, q, r⟩ f a b d = velocity3 m sph ⟨p, q, r⟩ f a b d := by
  have hj : jac3 m sph ⟨p.move k, q, r⟩ a b d = jac3 m sph ⟨p, q, r⟩ a b d := by
    simp only [jac3, colXsi, colEta, colZet, dXsi_move, dEta_move, dZet_move, jacLon]
  simp only [velocity3, hj, dXsi_move, dEta_move, dZet_move, transU, transV, transW, face_move, fluxU05, fluxV05, fluxW05, Hexa.map, left_move, front_move, lower_move]

theorem both3 {m : Metric K} {sph : Bool} {c : Cell K} {z : V8 K} {xsi eta zet x y : K} (f : Faces3 K) (hn : NarrowCell sph x c)
    (h : At (shift sph x c) x y xsi eta) : BothGive3 m sph c z xsi eta zet x f (velocity3 m sph (hexa (shift sph x c) z) f xsi eta zet) := by
  refine ⟨?_, ?_⟩
  · unfold pyVelocity3
    simp only
    rw [if_pos]
    rw [dotPhi_x, h.1, sub_self, abs_zero]
    norm_num
  · unfold cVelocity3
    cases sph with
    | false =>
      have : cShift c = c := cShift_id (by simpa [NarrowCell] using hn)
      rw [this]; rfl
    | true =>
      have hn' : NarrowOnSphere x c := by simpa [NarrowCell] using hn
      obtain ⟨d1, d2, d3⟩ := shifts_agree hn'
      generalize hs : shift true x c = s at d1 d2 d3 ⊢
      have hy : s.y0 = c.y0 ∧ s.y1 = c.y1 ∧ s.y2 = c.y2 ∧ s.y3 = c.y3 := by rw [← hs]; exact ⟨rfl, rfl, rfl, rfl⟩
      have hh : hexa (cShift c) z = ⟨(hexa s z).x.move ((cShift c).x0 - s.x0), (hexa s z).y, (hexa s z).z⟩ := by
        simp only [hexa, V8.move, Hexa.mk.injEq, V8.mk.injEq]
        obtain ⟨y0, y1, y2, y3⟩ := hy
        refine ⟨⟨by ring, by linear_combination -d1, by linear_combination -d2, by linear_combination -d3, by ring, by linear_combination -d1, by linear_combination -d2,
          by linear_combination -d3⟩, ⟨y0.symm, y1.symm, y2.symm, y3.symm, y0.symm, y1.symm, y2.symm, y3.symm⟩, trivial⟩
      rw [hh]
      exact velocity3_move ..

def V3.smul (t : K) (a : V3 K) : V3 K := ⟨t * a.x, t * a.y, t * a.z⟩

theorem norm_smul {sqrt : K → K} (hs : Roots sqrt) {t : K} (ht : 0 ≤ t) (a : V3 K) : (V3.smul t a).norm sqrt = t * a.norm sqrt := by
  have e : (V3.smul t a).dot (V3.smul t a) = t * t * a.dot a := by simp only [V3.dot, V3.smul]; ring
  have ha : 0 ≤ a.dot a := by
    simp only [V3.dot]
    have := mul_self_nonneg a.x
    have := mul_self_nonneg a.y
    have := mul_self_nonneg a.z
    linarith
  have hta : 0 ≤ t * t * a.dot a := mul_nonneg (mul_self_nonneg t) ha
  obtain ⟨p1, p2⟩ := hs _ ha
  obtain ⟨q1, q2⟩ := hs _ hta
  unfold V3.norm
  rw [e]
  have h0 : 0 ≤ t * sqrt (a.dot a) := mul_nonneg ht p1
  have : sqrt (t * t * a.dot a) * sqrt (t * t * a.dot a) = (t * sqrt (a.dot a)) * (t * sqrt (a.dot a)) := by
    rw [q2]
    calc t * t * a.dot a = t * t * (sqrt (a.dot a) * sqrt (a.dot a)) := by rw [p2]
      _ = _ := by ring
  exact (mul_self_inj q1 h0).1 this

theorem norm_ne {sqrt : K → K} (hs : Roots sqrt) {n a : V3 K} (h : n.dot a ≠ 0) : n.norm sqrt ≠ 0 := by
  intro h0
  have hx := mul_self_nonneg n.x
  have hy := mul_self_nonneg n.y
  have hz := mul_self_nonneg n.z
  have hn : 0 ≤ n.dot n := by simp only [V3.dot]; linarith
  have := (hs _ hn).2
  unfold V3.norm at h0
  rw [h0] at this
  simp only [V3.dot] at this
  have e1 : n.x = 0 := mul_self_eq_zero.1 (by linarith)
  have e2 : n.y = 0 := mul_self_eq_zero.1 (by linarith)
  have e3 : n.z = 0 := mul_self_eq_zero.1 (by linarith)
  apply h
  simp only [V3.dot, e1, e2, e3]; ring

/-- The middle surface is parallel to itself: its transport per unit is the flux. -/
theorem middle {sqrt : K → K} (hs : Roots sqrt) {v n0 n : V3 K} {t flux : K} (ht : 0 ≤ t) (hn : n = V3.smul t n0) (h0 : n0.norm sqrt ≠ 0)
    (hf : flux = v.dot n0) : flux / n0.norm sqrt * n.norm sqrt = v.dot n := by
  rw [hn, norm_smul hs ht, hf]
  have : v.dot (V3.smul t n0) = t * v.dot n0 := by simp only [V3.dot, V3.smul]; ring
  rw [this]
  field_simp

section flat
variable (m : Metric K) (c : Cell K) (z : V8 K)

/-- The surface elements (flat meshes). -/
def nZ (xsi eta zet : K) : V3 K := (toRow m false c z xsi eta zet).cross (toLevel m false c z xsi eta zet)
def nM (xsi eta zet : K) : V3 K := (toLevel m false c z xsi eta zet).cross (toColumn m false c z xsi eta zet)
def nV (xsi eta zet : K) : V3 K := (toColumn m false c z xsi eta zet).cross (toRow m false c z xsi eta zet)

def leftC : Cell K := ⟨c.x0, (c.x0 + c.x1) / 2, (c.x2 + c.x3) / 2, c.x3, c.y0, (c.y0 + c.y1) / 2, (c.y2 + c.y3) / 2, c.y3⟩
def frontC : Cell K := ⟨c.x0, c.x1, (c.x1 + c.x2) / 2, (c.x0 + c.x3) / 2, c.y0, c.y1, (c.y1 + c.y2) / 2, (c.y0 + c.y3) / 2⟩

theorem left_hexa : (hexa c z).map leftHalf = hexa (leftC c) (leftHalf z) := rfl
theorem front_hexa : (hexa c z).map frontHalf = hexa (frontC c) (frontHalf z) := rfl
theorem lower_hexa : (hexa c z).map lowerHalf = hexa c (lowerHalf z) := by
  simp only [Hexa.map, lowerHalf, hexa, Hexa.mk.injEq, V8.mk.injEq]
  simp

macro "vec" : tactic => `(tactic| (simp only [nZ, nM, nV, toRow, toLevel, toColumn, metres, point, V3.sub, V3.cross, V3.smul, V3.dot, V3.mk.injEq,
  leftC, frontC, leftHalf, frontHalf, lowerHalf, bilinX, bilinY, thickness, jacobian, cond_false]))

theorem left_nZ : nZ m (leftC c) (leftHalf z) 0 (1/2) (1/2) = nZ m c z 0 (1/2) (1/2) := by
  vec; refine ⟨by ring, by ring, by ring⟩
theorem left_nM (e : K) : nM m (leftC c) (leftHalf z) (1/2) e (1/2) = V3.smul (1/2) (nM m c z (1/4) e (1/2)) := by
  vec; refine ⟨by ring, by ring, by ring⟩
theorem left_nV (e : K) : nV m (leftC c) (leftHalf z) (1/2) (1/2) e = V3.smul (1/2) (nV m c z (1/4) (1/2) e) := by
  vec; refine ⟨by ring, by ring, by ring⟩
theorem front_nZ (e : K) : nZ m (frontC c) (frontHalf z) e (1/2) (1/2) = V3.smul (1/2) (nZ m c z e (1/4) (1/2)) := by
  vec; refine ⟨by ring, by ring, by ring⟩
theorem front_nM : nM m (frontC c) (frontHalf z) (1/2) 0 (1/2) = nM m c z (1/2) 0 (1/2) := by
  vec; refine ⟨by ring, by ring, by ring⟩
theorem front_nV (e : K) : nV m (frontC c) (frontHalf z) (1/2) (1/2) e = V3.smul (1/2) (nV m c z (1/2) (1/4) e) := by
  vec; refine ⟨by ring, by ring, by ring⟩
theorem lower_nZ (e : K) : nZ m c (lowerHalf z) e (1/2) (1/2) = V3.smul (1/2) (nZ m c z e (1/2) (1/4)) := by
  vec; refine ⟨by ring, by ring, by ring⟩
theorem lower_nM (e : K) : nM m c (lowerHalf z) (1/2) e (1/2) = V3.smul (1/2) (nM m c z (1/2) e (1/4)) := by
  vec; refine ⟨by ring, by ring, by ring⟩
theorem lower_nV : nV m c (lowerHalf z) (1/2) (1/2) 0 = nV m c z (1/2) (1/2) 0 := by
  vec; refine ⟨by ring, by ring, trivial⟩

/-- What flows into a half cell flows out. -/
theorem closed_left (v : V3 K) : v.dot (nZ m c z 0 (1/2) (1/2)) + v.dot (V3.smul (1/2) (nM m c z (1/4) 0 (1/2))) - v.dot (V3.smul (1/2) (nM m c z (1/4) 1 (1/2))) +
    v.dot (V3.smul (1/2) (nV m c z (1/4) (1/2) 0)) - v.dot (V3.smul (1/2) (nV m c z (1/4) (1/2) 1)) = v.dot (nZ m c z (1/2) (1/2) (1/2)) := by
  vec; ring
theorem closed_front (v : V3 K) : v.dot (V3.smul (1/2) (nZ m c z 0 (1/4) (1/2))) - v.dot (V3.smul (1/2) (nZ m c z 1 (1/4) (1/2))) + v.dot (nM m c z (1/2) 0 (1/2)) +
    v.dot (V3.smul (1/2) (nV m c z (1/2) (1/4) 0)) - v.dot (V3.smul (1/2) (nV m c z (1/2) (1/4) 1)) = v.dot (nM m c z (1/2) (1/2) (1/2)) := by
  vec; ring
theorem closed_lower (v : V3 K) : v.dot (V3.smul (1/2) (nZ m c z 0 (1/2) (1/4))) - v.dot (V3.smul (1/2) (nZ m c z 1 (1/2) (1/4))) +
    v.dot (V3.smul (1/2) (nM m c z (1/2) 0 (1/4))) - v.dot (V3.smul (1/2) (nM m c z (1/2) 1 (1/4))) + v.dot (nV m c z (1/2) (1/2) 0) = v.dot (nV m c z (1/2) (1/2) (1/2)) := by
  vec; ring

theorem quad_nZ (v : V3 K) (xsi eta zet : K) :
    quad (v.dot (nZ m c z 0 eta zet)) (v.dot (nZ m c z (1/2) eta zet)) (v.dot (nZ m c z 1 eta zet)) xsi = v.dot (nZ m c z xsi eta zet) := by
  unfold quad; vec; ring
theorem quad_nM (v : V3 K) (xsi eta zet : K) :
    quad (v.dot (nM m c z xsi 0 zet)) (v.dot (nM m c z xsi (1/2) zet)) (v.dot (nM m c z xsi 1 zet)) eta = v.dot (nM m c z xsi eta zet) := by
  unfold quad; vec; ring
theorem quad_nV (v : V3 K) (xsi eta zet : K) :
    quad (v.dot (nV m c z xsi eta 0)) (v.dot (nV m c z xsi eta (1/2))) (v.dot (nV m c z xsi eta 1)) zet = v.dot (nV m c z xsi eta zet) := by
  unfold quad; vec; ring

theorem nZ_thick (xsi eta zet : K) : nZ m c z xsi eta zet = V3.smul (thickness c z xsi eta) ⟨(toRow m false c z xsi 0 0).y, -(toRow m false c z xsi 0 0).x, 0⟩ := by
  vec; refine ⟨by ring, by ring, by ring⟩
theorem nM_thick (xsi eta zet : K) : nM m c z xsi eta zet = V3.smul (thickness c z xsi eta) ⟨-(toColumn m false c z 0 eta 0).y, (toColumn m false c z 0 eta 0).x, 0⟩ := by
  vec; refine ⟨by ring, by ring, by ring⟩
theorem nV_plane (hp : Planes c z) : ∃ A B A' B', ∀ xsi eta zet : K,
    nV m c z xsi eta zet = V3.smul (jacobian c xsi eta) ⟨-((1 - zet) * A + zet * A'), -((1 - zet) * B + zet * B'), 1⟩ := by
  obtain ⟨a, b, d, a', b', d', ⟨e0, e1, e2, e3⟩, e4, e5, e6, e7⟩ := hp
  refine ⟨a, b, a', b', fun xsi eta zet => ?_⟩
  vec
  rw [e0, e1, e2, e3, e4, e5, e6, e7]
  refine ⟨by ring, by ring, by ring⟩

omit [LinearOrder K] [IsStrictOrderedRing K] in
theorem smul_ratio {s s0 : K} (h0 : s0 ≠ 0) (n : V3 K) : V3.smul s n = V3.smul (s / s0) (V3.smul s0 n) := by
  simp only [V3.smul, V3.mk.injEq]
  refine ⟨?_, ?_, ?_⟩ <;> field_simp

/-- A uniform flow. -/
theorem uniform_velocity (hs : Roots m.sqrt) (hu : Upright c z) (hp : Planes c z) (f : Faces3 K) (v : V3 K)
    (hc : ∀ xsi eta zet : K, 0 ≤ xsi → xsi ≤ 1 → 0 ≤ eta → eta ≤ 1 → 0 ≤ zet → zet ≤ 1 → Normals m false c z f v xsi eta zet)
    (xsi eta zet : K) (x0 : 0 ≤ xsi) (x1 : xsi ≤ 1) (e0 : 0 ≤ eta) (e1 : eta ≤ 1) (z0 : 0 ≤ zet) (z1 : zet ≤ 1) :
    velocity3 m false (hexa c z) f xsi eta zet = v := by
  have half0 : (0 : K) ≤ 1/2 := by norm_num
  have half1 : (1/2 : K) ≤ 1 := by norm_num
  have q0 : (0 : K) ≤ 1/4 := by norm_num
  have q1 : (1/4 : K) ≤ 1 := by norm_num
  have zero0 : (0 : K) ≤ 0 := le_rfl
  have zero1 : (0 : K) ≤ 1 := zero_le_one
  have one1 : (1 : K) ≤ 1 := le_rfl
  have jpos : ∀ a b e : K, 0 ≤ a → a ≤ 1 → 0 ≤ b → b ≤ 1 → 0 < jac3 m false (hexa c z) a b e := by
    intro a b e h1 h2 h3 h4
    rw [jac3_thick]
    simp only [area1, cond_false, mul_one]
    exact mul_pos (hu a b h1 h2 h3 h4).1 (hu a b h1 h2 h3 h4).2
  have posZ : ∀ a b e : K, 0 ≤ a → a ≤ 1 → 0 ≤ b → b ≤ 1 → 0 < (nZ m c z a b e).dot (toColumn m false c z a b e) := by
    intro a b e h1 h2 h3 h4
    have := jpos a b e h1 h2 h3 h4
    rwa [jac3_eq] at this
  have posM : ∀ a b e : K, 0 ≤ a → a ≤ 1 → 0 ≤ b → b ≤ 1 → 0 < (nM m c z a b e).dot (toRow m false c z a b e) := by
    intro a b e h1 h2 h3 h4
    have := posZ a b e h1 h2 h3 h4
    unfold nM; rw [cross_cycle]; exact this
  have posV : ∀ a b e : K, 0 ≤ a → a ≤ 1 → 0 ≤ b → b ≤ 1 → 0 < (nV m c z a b e).dot deeper := by
    intro a b e h1 h2 h3 h4
    unfold nV
    rw [vertical_sign]
    simp only [area1, cond_false, mul_one]
    exact (hu a b h1 h2 h3 h4).1
  -- the face data times the areas are the fluxes
  have west : ∀ b e : K, 0 ≤ b → b ≤ 1 → 0 ≤ e → e ≤ 1 → f.u0 * (nZ m c z 0 b e).norm m.sqrt = v.dot (nZ m c z 0 b e) := by
    intro b e h1 h2 h3 h4
    have := (hc 0 b e zero0 zero1 h1 h2 h3 h4).west rfl
    unfold through at this
    exact (this.symm.trans (if_pos (posZ 0 b e zero0 zero1 h1 h2)))
  have east : ∀ b e : K, 0 ≤ b → b ≤ 1 → 0 ≤ e → e ≤ 1 → f.u1 * (nZ m c z 1 b e).norm m.sqrt = v.dot (nZ m c z 1 b e) := by
    intro b e h1 h2 h3 h4
    have := (hc 1 b e zero1 one1 h1 h2 h3 h4).east rfl
    unfold through at this
    exact (this.symm.trans (if_pos (posZ 1 b e zero1 one1 h1 h2)))
  have south : ∀ a e : K, 0 ≤ a → a ≤ 1 → 0 ≤ e → e ≤ 1 → f.v0 * (nM m c z a 0 e).norm m.sqrt = v.dot (nM m c z a 0 e) := by
    intro a e h1 h2 h3 h4
    have := (hc a 0 e h1 h2 zero0 zero1 h3 h4).south rfl
    unfold through at this
    exact (this.symm.trans (if_pos (posM a 0 e h1 h2 zero0 zero1)))
  have north : ∀ a e : K, 0 ≤ a → a ≤ 1 → 0 ≤ e → e ≤ 1 → f.v1 * (nM m c z a 1 e).norm m.sqrt = v.dot (nM m c z a 1 e) := by
    intro a e h1 h2 h3 h4
    have := (hc a 1 e h1 h2 zero1 one1 h3 h4).north rfl
    unfold through at this
    exact (this.symm.trans (if_pos (posM a 1 e h1 h2 zero1 one1)))
  have first : ∀ a b : K, 0 ≤ a → a ≤ 1 → 0 ≤ b → b ≤ 1 → f.w0 * (nV m c z a b 0).norm m.sqrt = v.dot (nV m c z a b 0) := by
    intro a b h1 h2 h3 h4
    have := (hc a b 0 h1 h2 h3 h4 zero0 zero1).first rfl
    unfold through at this
    exact (this.symm.trans (if_pos (posV a b 0 h1 h2 h3 h4)))
  have second : ∀ a b : K, 0 ≤ a → a ≤ 1 → 0 ≤ b → b ≤ 1 → f.w1 * (nV m c z a b 1).norm m.sqrt = v.dot (nV m c z a b 1) := by
    intro a b h1 h2 h3 h4
    have := (hc a b 1 h1 h2 h3 h4 zero1 one1).second rfl
    unfold through at this
    exact (this.symm.trans (if_pos (posV a b 1 h1 h2 h3 h4)))
  -- halves of faces
  have hdot : ∀ n : V3 K, v.dot (V3.smul (1/2) n) = 1/2 * v.dot n := by
    intro n; simp only [V3.dot, V3.smul]; ring
  have fz : ∀ (c' : Cell K) (z' : V8 K) (a b e : K), face m false (hexa c' z') a b e .zonal = (nZ m c' z' a b e).norm m.sqrt := fun c' z' a b e => face_zonal ..
  have fm : ∀ (c' : Cell K) (z' : V8 K) (a b e : K), face m false (hexa c' z') a b e .meridional = (nM m c' z' a b e).norm m.sqrt := fun c' z' a b e => face_meridional ..
  have fv : ∀ (c' : Cell K) (z' : V8 K) (a b e : K), face m false (hexa c' z') a b e .vertical = (nV m c' z' a b e).norm m.sqrt := fun c' z' a b e => face_vertical ..
  have hfU : fluxU05 m false (hexa c z) f = v.dot (nZ m c z (1/2) (1/2) (1/2)) := by
    rw [← closed_left m c z v]
    simp only [fluxU05, left_hexa, fz, fm, fv, left_nZ, left_nM, left_nV, norm_smul hs half0, hdot]
    rw [← west _ _ half0 half1 half0 half1, ← south _ _ q0 q1 half0 half1, ← north _ _ q0 q1 half0 half1, ← first _ _ q0 q1 half0 half1,
      ← second _ _ q0 q1 half0 half1]
    ring
  have hfV : fluxV05 m false (hexa c z) f = v.dot (nM m c z (1/2) (1/2) (1/2)) := by
    rw [← closed_front m c z v]
    simp only [fluxV05, front_hexa, fz, fm, fv, front_nZ, front_nM, front_nV, norm_smul hs half0, hdot]
    rw [← west _ _ q0 q1 half0 half1, ← east _ _ q0 q1 half0 half1, ← south _ _ half0 half1 half0 half1, ← first _ _ half0 half1 q0 q1,
      ← second _ _ half0 half1 q0 q1]
    ring
  have hfW : fluxW05 m false (hexa c z) f = v.dot (nV m c z (1/2) (1/2) (1/2)) := by
    rw [← closed_lower m c z v]
    simp only [fluxW05, lower_hexa, fz, fm, fv, lower_nZ, lower_nM, lower_nV, norm_smul hs half0, hdot]
    rw [← west _ _ half0 half1 q0 q1, ← east _ _ half0 half1 q0 q1, ← south _ _ half0 half1 q0 q1, ← north _ _ half0 half1 q0 q1,
      ← first _ _ half0 half1 half0 half1]
    ring
  have tpos : ∀ a b : K, 0 ≤ a → a ≤ 1 → 0 ≤ b → b ≤ 1 → 0 < thickness c z a b := fun a b h1 h2 h3 h4 => (hu a b h1 h2 h3 h4).2
  have jp : ∀ a b : K, 0 ≤ a → a ≤ 1 → 0 ≤ b → b ≤ 1 → 0 < jacobian c a b := fun a b h1 h2 h3 h4 => (hu a b h1 h2 h3 h4).1
  have hU : transU m false (hexa c z) f xsi eta zet = v.dot (nZ m c z xsi eta zet) := by
    unfold transU
    rw [fz, fz, fz, fz, west _ _ e0 e1 z0 z1, east _ _ e0 e1 z0 z1,
      middle hs (t := thickness c z (1/2) eta / thickness c z (1/2) (1/2)) (div_nonneg (tpos _ _ half0 half1 e0 e1).le (tpos _ _ half0 half1 half0 half1).le)
        (by rw [nZ_thick, nZ_thick]; exact smul_ratio (tpos _ _ half0 half1 half0 half1).ne' _)
        (norm_ne hs (posZ _ _ _ half0 half1 half0 half1).ne') hfU, quad_nZ]
  have hV : transV m false (hexa c z) f xsi eta zet = v.dot (nM m c z xsi eta zet) := by
    unfold transV
    rw [fm, fm, fm, fm, south _ _ x0 x1 z0 z1, north _ _ x0 x1 z0 z1,
      middle hs (t := thickness c z xsi (1/2) / thickness c z (1/2) (1/2)) (div_nonneg (tpos _ _ x0 x1 half0 half1).le (tpos _ _ half0 half1 half0 half1).le)
        (by rw [nM_thick, nM_thick]; exact smul_ratio (tpos _ _ half0 half1 half0 half1).ne' _)
        (norm_ne hs (posM _ _ _ half0 half1 half0 half1).ne') hfV, quad_nM]
  have hW : transW m false (hexa c z) f xsi eta zet = v.dot (nV m c z xsi eta zet) := by
    obtain ⟨A, B, A', B', hpl⟩ := nV_plane m c z hp
    unfold transW
    rw [fv, fv, fv, fv, first _ _ x0 x1 e0 e1, second _ _ x0 x1 e0 e1,
      middle hs (t := jacobian c xsi eta / jacobian c (1/2) (1/2)) (div_nonneg (jp _ _ x0 x1 e0 e1).le (jp _ _ half0 half1 half0 half1).le)
        (by rw [hpl, hpl]; exact smul_ratio (jp _ _ half0 half1 half0 half1).ne' _)
        (norm_ne hs (posV _ _ _ half0 half1 half0 half1).ne') hfW, quad_nV]
  have hm := velocity_metres m false c z f xsi eta zet
  simp only [hU, hV, hW, metres, cond_false] at hm
  rw [hm]
  have hj := (jpos xsi eta zet x0 x1 e0 e1).ne'
  have hje := jac3_eq m false c z xsi eta zet
  generalize hjj : jac3 m false (hexa c z) xsi eta zet = j at hj hje ⊢
  unfold nZ nM nV
  generalize toColumn m false c z xsi eta zet = a at hje ⊢
  generalize toRow m false c z xsi eta zet = b at hje ⊢
  generalize toLevel m false c z xsi eta zet = d at hje ⊢
  cases v with
  | mk p q r =>
    simp only [V3.mk.injEq]
    have key : ∀ A B D X T : K, A * (X) = T → A * (X / j) = T / j := by intro A B D X T h; rw [mul_div_assoc', h]
    simp only [V3.dot, V3.cross] at hje ⊢
    refine ⟨?_, ?_, ?_⟩
    all_goals
      rw [← mul_div_assoc, ← mul_div_assoc, ← mul_div_assoc, ← add_div, ← add_div, div_eq_iff hj, hje]
      ring

end flat

theorem area1_pos {m : Metric K} {sph : Bool} {y : K} (hc : sph = true → 0 < m.cos y) : 0 < area1 m sph y := by
  unfold area1
  cases sph
  · exact one_pos
  · have := hc rfl
    have hd : (0 : K) < deg2m := by unfold deg2m; norm_num
    simp only [cond_true]
    positivity

section box
variable {m : Metric K} (hs : IsSqrt m.sqrt)
include hs

theorem box_zonal {x y a b z t : K} (hb : 0 < b) (ht : 0 < t) (p q r : K) : face m false (hexa (boxCell x y a b) (boxDepths z t)) p q r .zonal = b * t := by
  rw [face_zonal]
  simp only [toRow, toLevel, metres, point, V3.sub, V3.cross, V3.norm, V3.dot, boxCell, boxDepths, bilinX, bilinY, cond_false]
  rw [← abs_of_pos (mul_pos hb ht), ← hs (b * t)]
  congr 1; ring

theorem box_meridional {x y a b z t : K} (ha : 0 < a) (ht : 0 < t) (p q r : K) : face m false (hexa (boxCell x y a b) (boxDepths z t)) p q r .meridional = a * t := by
  rw [face_meridional]
  simp only [toColumn, toLevel, metres, point, V3.sub, V3.cross, V3.norm, V3.dot, boxCell, boxDepths, bilinX, bilinY, cond_false]
  rw [← abs_of_pos (mul_pos ha ht), ← hs (a * t)]
  congr 1; ring

theorem box_vertical {x y a b z t : K} (ha : 0 < a) (hb : 0 < b) (p q r : K) : face m false (hexa (boxCell x y a b) (boxDepths z t)) p q r .vertical = a * b := by
  rw [face_vertical]
  simp only [toColumn, toRow, metres, point, V3.sub, V3.cross, V3.norm, V3.dot, boxCell, boxDepths, bilinX, bilinY, cond_false]
  rw [← abs_of_pos (mul_pos ha hb), ← hs (a * b)]
  congr 1; ring

omit hs in
theorem box_left (x y a b z t : K) : (hexa (boxCell x y a b) (boxDepths z t)).map leftHalf = hexa (boxCell x y (a / 2) b) (boxDepths z t) := by
  simp only [hexa, Hexa.map, leftHalf, boxCell, boxDepths, Hexa.mk.injEq, V8.mk.injEq]
  refine ⟨⟨?_, ?_, ?_, ?_, ?_, ?_, ?_, ?_⟩, ⟨?_, ?_, ?_, ?_, ?_, ?_, ?_, ?_⟩, ?_, ?_, ?_, ?_, ?_, ?_, ?_, ?_⟩ <;> first | trivial | ring
omit hs in
theorem box_front (x y a b z t : K) : (hexa (boxCell x y a b) (boxDepths z t)).map frontHalf = hexa (boxCell x y a (b / 2)) (boxDepths z t) := by
  simp only [hexa, Hexa.map, frontHalf, boxCell, boxDepths, Hexa.mk.injEq, V8.mk.injEq]
  refine ⟨⟨?_, ?_, ?_, ?_, ?_, ?_, ?_, ?_⟩, ⟨?_, ?_, ?_, ?_, ?_, ?_, ?_, ?_⟩, ?_, ?_, ?_, ?_, ?_, ?_, ?_, ?_⟩ <;> first | trivial | ring
omit hs in
theorem box_lower (x y a b z t : K) : (hexa (boxCell x y a b) (boxDepths z t)).map lowerHalf = hexa (boxCell x y a b) (boxDepths z (t / 2)) := by
  simp only [hexa, Hexa.map, lowerHalf, boxCell, boxDepths, Hexa.mk.injEq, V8.mk.injEq]
  refine ⟨⟨?_, ?_, ?_, ?_, ?_, ?_, ?_, ?_⟩, ⟨?_, ?_, ?_, ?_, ?_, ?_, ?_, ?_⟩, ?_, ?_, ?_, ?_, ?_, ?_, ?_, ?_⟩ <;> first | trivial | ring

/-- The velocity in a box: quadratic in each direction. -/
theorem box_velocity {x y a b z t : K} (ha : 0 < a) (hb : 0 < b) (ht : 0 < t) (f : Faces3 K) (xsi eta zet : K) :
    velocity3 m false (hexa (boxCell x y a b) (boxDepths z t)) f xsi eta zet =
      ⟨quad f.u0 (f.u0 + ((f.v0 - f.v1) / b + (f.w0 - f.w1) / t) * (a / 2)) f.u1 xsi,
       quad f.v0 (f.v0 + ((f.u0 - f.u1) / a + (f.w0 - f.w1) / t) * (b / 2)) f.v1 eta,
       quad f.w0 (f.w0 + ((f.u0 - f.u1) / a + (f.v0 - f.v1) / b) * (t / 2)) f.w1 zet⟩ := by
  have ha2 : 0 < a / 2 := by positivity
  have hb2 : 0 < b / 2 := by positivity
  have ht2 : 0 < t / 2 := by positivity
  have hj : jac3 m false (hexa (boxCell x y a b) (boxDepths z t)) xsi eta zet = a * b * t := by
    rw [jac3_thick]; simp only [jacobian, thickness, point, area1, boxCell, boxDepths, cond_false]; ring
  have e1 : dXsi (hexa (boxCell x y a b) (boxDepths z t)).x xsi eta zet = a := by simp only [dXsi, hexa, boxCell]; ring
  have e2 : dEta (hexa (boxCell x y a b) (boxDepths z t)).x xsi eta zet = 0 := by simp only [dEta, hexa, boxCell]; ring
  have e3 : dZet (hexa (boxCell x y a b) (boxDepths z t)).x xsi eta zet = 0 := by simp only [dZet, hexa, boxCell]; ring
  have e4 : dXsi (hexa (boxCell x y a b) (boxDepths z t)).y xsi eta zet = 0 := by simp only [dXsi, hexa, boxCell]; ring
  have e5 : dEta (hexa (boxCell x y a b) (boxDepths z t)).y xsi eta zet = b := by simp only [dEta, hexa, boxCell]; ring
  have e6 : dZet (hexa (boxCell x y a b) (boxDepths z t)).y xsi eta zet = 0 := by simp only [dZet, hexa, boxCell]; ring
  have e7 : dXsi (hexa (boxCell x y a b) (boxDepths z t)).z xsi eta zet = 0 := by simp only [dXsi, hexa, boxDepths]; ring
  have e8 : dEta (hexa (boxCell x y a b) (boxDepths z t)).z xsi eta zet = 0 := by simp only [dEta, hexa, boxDepths]; ring
  have e9 : dZet (hexa (boxCell x y a b) (boxDepths z t)).z xsi eta zet = t := by simp only [dZet, hexa, boxDepths]; ring
  simp only [velocity3, hj, e1, e2, e3, e4, e5, e6, e7, e8, e9, transU, transV, transW, fluxU05, fluxV05, fluxW05, box_left, box_front, box_lower,
    box_zonal hs hb ht, box_meridional hs ha ht, box_vertical hs ha hb, box_zonal hs hb2 ht, box_zonal hs hb ht2, box_meridional hs ha2 ht, box_meridional hs ha ht2,
    box_vertical hs ha2 hb, box_vertical hs ha hb2, V3.mk.injEq, quad]
  refine ⟨?_, ?_, ?_⟩ <;> field_simp <;> ring

/-- Both modes in a box. -/
theorem box_both {x y a b z t : K} (ha : 0 < a) (hb : 0 < b) (ht : 0 < t) (hn : Narrow (boxCell x y a b)) (f : Faces3 K) (xsi eta zet : K) :
    BothGive3 m false (boxCell x y a b) (boxDepths z t) xsi eta zet (x + xsi * a) f
      ⟨quad f.u0 (f.u0 + ((f.v0 - f.v1) / b + (f.w0 - f.w1) / t) * (a / 2)) f.u1 xsi,
       quad f.v0 (f.v0 + ((f.u0 - f.u1) / a + (f.w0 - f.w1) / t) * (b / 2)) f.v1 eta,
       quad f.w0 (f.w0 + ((f.u0 - f.u1) / a + (f.v0 - f.v1) / b) * (t / 2)) f.w1 zet⟩ := by
  have e : shift false (x + xsi * a) (boxCell x y a b) = boxCell x y a b := rfl
  have h : At (shift false (x + xsi * a) (boxCell x y a b)) (x + xsi * a) (y + eta * b) xsi eta := by
    rw [e]
    unfold At bilinX bilinY boxCell
    constructor <;> ring
  have := both3 (m := m) (z := boxDepths z t) (zet := zet) f (by unfold NarrowCell; simpa using hn) h
  rwa [e, box_velocity hs ha hb ht] at this

end box

end Parcels.CGrid3D
