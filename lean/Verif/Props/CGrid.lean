import Verif.Proofs.CGrid
import Mathlib.Data.Rat.Sqrt

/-!
C51: velocities on C-grids.
-/

namespace Parcels.CGrid

open Parcels.Curvilinear

variable {K : Type} [Field K] [LinearOrder K] [IsStrictOrderedRing K]

/-- C51 on rectangular flat cells: both modes interpolate the velocities on opposite faces linearly. In particular (xsi = 0,
1, eta = 0, 1) the velocity normal to a face is, everywhere on that face, exactly the given one. -/
theorem C51_rectangle_partial (m : Metric K) (hs : IsSqrt m.sqrt) (c : Cell K) (hr : Rectangle c) (hn : Narrow c)
    (xsi eta x y : K) (h : At c x y xsi eta) (f : Faces K) :
    BothGive m false c xsi eta x y f
      ((1 - xsi) * f.west + xsi * f.east, (1 - eta) * f.south + eta * f.north) := by
  obtain ⟨e1, e2, e3, e4, hx, hy⟩ := hr
  have hv : velocity m false c xsi eta y f =
      ((1 - xsi) * f.west + xsi * f.east, (1 - eta) * f.south + eta * f.north) := by
    have px : 0 < c.x1 - c.x0 := by linarith
    have py : 0 < c.y3 - c.y0 := by linarith
    have l1 : ∀ d : K, 0 < d → length m.sqrt d 0 = d := by
      intro d hd
      unfold length
      rw [mul_zero, add_zero, hs, abs_of_pos hd]
    have l2 : ∀ d : K, 0 < d → length m.sqrt 0 d = d := by
      intro d hd
      unfold length
      rw [mul_zero, zero_add, hs, abs_of_pos hd]
    have hU : fluxU m false c xsi eta f = ((1 - xsi) * f.west + xsi * f.east) * (c.y3 - c.y0) := by
      unfold fluxU
      rw [dist_flat, dist_flat, length_comm, e1, e2, e3, e4, sub_self, sub_self, l2 _ py]
      ring
    have hV : fluxV m false c xsi eta f = ((1 - eta) * f.south + eta * f.north) * (c.x1 - c.x0) := by
      unfold fluxV
      rw [dist_flat, dist_flat, length_comm m.sqrt c.x2, e1, e2, e3, e4, sub_self, sub_self, l1 _ px]
      ring
    rw [velocity_eq, hU, hV]
    have hj : jacobian c xsi eta = (c.x1 - c.x0) * (c.y3 - c.y0) := by
      unfold jacobian; rw [e1, e2, e3, e4]; ring
    have a1 : alongXsiX c eta = c.x1 - c.x0 := by unfold alongXsiX; rw [e1, e2]; ring
    have a2 : alongXsiY c eta = 0 := by unfold alongXsiY; rw [e3, e4]; ring
    have a3 : alongEtaX c xsi = 0 := by unfold alongEtaX; rw [e1, e2]; ring
    have a4 : alongEtaY c xsi = c.y3 - c.y0 := by unfold alongEtaY; rw [e3, e4]; ring
    rw [hj, a1, a2, a3, a4]
    simp only [cond_false, mul_one, mul_zero, add_zero, zero_add]
    congr 1 <;> field_simp
  rw [← hv]
  exact both_flat f hn h

/-- A rectangle, with velocities 1, 3 (west, east) and -2, 4 (south, north). -/
def box : Cell ℚ := { x0 := 0, x1 := 10, x2 := 10, x3 := 0, y0 := 0, y1 := 0, y2 := 5, y3 := 5 }
def boxFaces : Faces ℚ := { west := 1, east := 3, south := -2, north := 4 }

example : Rectangle box ∧ Narrow box ∧ At box 5 1 (1/2) (1/5) := by
  unfold Rectangle Narrow At
  decide +kernel

example : cVelocity ⟨Rat.sqrt, fun _ => 1⟩ false box (1/2) (1/5) boxFaces = (2, -4/5) := by decide +kernel

/-- C51, uniform flow: if the face data are the normal components of one velocity, both modes return this velocity, at every
point of every flat cell (any quadrilateral, not only parallelograms) at which the Jacobian is not zero. -/
theorem C51_uniform_partial (m : Metric K) (c : Cell K) (hn : Narrow c) (p q : K) (f : Faces K)
    (hf : CarriesUniform m.sqrt c p q f) (xsi eta x y : K) (h : At c x y xsi eta) (hj : jacobian c xsi eta ≠ 0) :
    BothGive m false c xsi eta x y f (p, q) := by
  obtain ⟨h1, h2, h3, h4⟩ := hf
  have hv : velocity m false c xsi eta y f = (p, q) := by
    have hU : fluxU m false c xsi eta f = p * alongEtaY c xsi - q * alongEtaX c xsi := by
      unfold fluxU
      rw [dist_flat, dist_flat, length_comm, h1, h2]
      unfold flux alongEtaX alongEtaY
      ring
    have hV : fluxV m false c xsi eta f = q * alongXsiX c eta - p * alongXsiY c eta := by
      unfold fluxV
      rw [dist_flat, dist_flat, length_comm m.sqrt c.x2, h3, h4]
      unfold flux alongXsiX alongXsiY
      ring
    rw [velocity_eq, hU, hV]
    simp only [cond_false, mul_one]
    rw [jacobian_along] at hj ⊢
    congr 1
    · rw [div_eq_iff hj]; ring
    · rw [div_eq_iff hj]; ring
  rw [← hv]
  exact both_flat f hn h

/-- A quadrilateral with sides of rational lengths (west 5, east 28, south 10, north 25), and the normal components of
the flow (1, 2). -/
def slanted : Cell ℚ := { x0 := 0, x1 := 10, x2 := 10, x3 := 3, y0 := 0, y1 := 0, y2 := 28, y3 := 4 }
def slantedFaces : Faces ℚ := { west := -2/5, east := 1, south := 2, north := -2/5 }

example : Narrow slanted ∧ At slanted (23/4) 8 (1/2) (1/2) ∧ jacobian slanted (1/2) (1/2) ≠ 0 := by
  unfold Narrow At
  decide +kernel

example : CarriesUniform Rat.sqrt slanted 1 2 slantedFaces := by
  unfold CarriesUniform
  decide +kernel

/-- C51, fluxes: the flux of the interpolated velocity through the line xsi = const is the linear interpolation of the fluxes
given on the west and east faces, the same at every point of the line; through eta = const correspondingly. Any flat
cell; both modes. -/
theorem C51_flux_partial (m : Metric K) (c : Cell K) (hn : Narrow c) (f : Faces K) (xsi eta x y : K)
    (h : At c x y xsi eta) (hj : jacobian c xsi eta ≠ 0) :
    ∃ u v, BothGive m false c xsi eta x y f (u, v) ∧
      flux u v (alongEtaX c xsi) (alongEtaY c xsi) =
        (1 - xsi) * (f.west * length m.sqrt (c.x3 - c.x0) (c.y3 - c.y0)) +
          xsi * (f.east * length m.sqrt (c.x2 - c.x1) (c.y2 - c.y1)) ∧
      - flux u v (alongXsiX c eta) (alongXsiY c eta) =
        (1 - eta) * (f.south * length m.sqrt (c.x1 - c.x0) (c.y1 - c.y0)) +
          eta * (f.north * length m.sqrt (c.x2 - c.x3) (c.y2 - c.y3)) := by
  have hb := both_flat (m := m) f hn h
  rw [velocity_eq] at hb
  simp only [cond_false, mul_one] at hb
  refine ⟨_, _, hb, ?_, ?_⟩
  · have hU : fluxU m false c xsi eta f = (1 - xsi) * (f.west * length m.sqrt (c.x3 - c.x0) (c.y3 - c.y0)) +
          xsi * (f.east * length m.sqrt (c.x2 - c.x1) (c.y2 - c.y1)) := by
      unfold fluxU
      rw [dist_flat, dist_flat, length_comm]
    rw [← hU]
    unfold flux
    rw [div_mul_eq_mul_div, div_mul_eq_mul_div, ← sub_div, div_eq_iff hj, jacobian_along]
    ring
  · have hV : fluxV m false c xsi eta f = (1 - eta) * (f.south * length m.sqrt (c.x1 - c.x0) (c.y1 - c.y0)) +
          eta * (f.north * length m.sqrt (c.x2 - c.x3) (c.y2 - c.y3)) := by
      unfold fluxV
      rw [dist_flat, dist_flat, length_comm m.sqrt c.x2]
    rw [← hV]
    unfold flux
    rw [div_mul_eq_mul_div, div_mul_eq_mul_div, ← sub_div, ← neg_div, div_eq_iff hj, jacobian_along]
    ring

/-- C51, on the faces of any flat cell: the component of the velocity normal to the face is exactly the given one (times the
length of the face: the flux), at every point of the face; both modes. West and south. -/
theorem C51_on_face_partial (m : Metric K) (c : Cell K) (hn : Narrow c) (f : Faces K) (r x y : K) :
    (At c x y 0 r → jacobian c 0 r ≠ 0 → ∃ u v, BothGive m false c 0 r x y f (u, v) ∧
      flux u v (c.x3 - c.x0) (c.y3 - c.y0) = f.west * length m.sqrt (c.x3 - c.x0) (c.y3 - c.y0)) ∧
    (At c x y 1 r → jacobian c 1 r ≠ 0 → ∃ u v, BothGive m false c 1 r x y f (u, v) ∧
      flux u v (c.x2 - c.x1) (c.y2 - c.y1) = f.east * length m.sqrt (c.x2 - c.x1) (c.y2 - c.y1)) ∧
    (At c x y r 0 → jacobian c r 0 ≠ 0 → ∃ u v, BothGive m false c r 0 x y f (u, v) ∧
      - flux u v (c.x1 - c.x0) (c.y1 - c.y0) = f.south * length m.sqrt (c.x1 - c.x0) (c.y1 - c.y0)) ∧
    (At c x y r 1 → jacobian c r 1 ≠ 0 → ∃ u v, BothGive m false c r 1 x y f (u, v) ∧
      - flux u v (c.x2 - c.x3) (c.y2 - c.y3) = f.north * length m.sqrt (c.x2 - c.x3) (c.y2 - c.y3)) := by
  refine ⟨fun h hj => ?_, fun h hj => ?_, fun h hj => ?_, fun h hj => ?_⟩
  · obtain ⟨u, v, h1, h2, _⟩ := C51_flux_partial m c hn f 0 r x y h hj
    simp only [alongEtaX, alongEtaY, sub_zero, one_mul, zero_mul, add_zero] at h2
    exact ⟨u, v, h1, h2⟩
  · obtain ⟨u, v, h1, h2, _⟩ := C51_flux_partial m c hn f 1 r x y h hj
    simp only [alongEtaX, alongEtaY, sub_self, one_mul, zero_mul, zero_add] at h2
    exact ⟨u, v, h1, h2⟩
  · obtain ⟨u, v, h1, _, h2⟩ := C51_flux_partial m c hn f r 0 x y h hj
    simp only [alongXsiX, alongXsiY, sub_zero, one_mul, zero_mul, add_zero] at h2
    exact ⟨u, v, h1, h2⟩
  · obtain ⟨u, v, h1, _, h2⟩ := C51_flux_partial m c hn f r 1 x y h hj
    simp only [alongXsiX, alongXsiY, sub_self, one_mul, zero_mul, zero_add] at h2
    exact ⟨u, v, h1, h2⟩

/-- C51, no flow is created between cells: at a point of a common face, the interpolation in the cell to the west and in the
cell to the east give the same flux through the face. -/
theorem C51_continuous_partial (m : Metric K) (c d : Cell K) (hn : Narrow c) (hd : Narrow d)
    (hface : c.x1 = d.x0 ∧ c.y1 = d.y0 ∧ c.x2 = d.x3 ∧ c.y2 = d.y3) (f k : Faces K) (hfk : f.east = k.west)
    (eta x y : K) (hc : At c x y 1 eta) (hjc : jacobian c 1 eta ≠ 0) (hjd : jacobian d 0 eta ≠ 0) :
    ∃ u v u' v', BothGive m false c 1 eta x y f (u, v) ∧ BothGive m false d 0 eta x y k (u', v') ∧
      flux u v (c.x2 - c.x1) (c.y2 - c.y1) = flux u' v' (c.x2 - c.x1) (c.y2 - c.y1) := by
  have hd' : At d x y 0 eta := by
    obtain ⟨h1, h2⟩ := hc
    obtain ⟨a1, a2, a3, a4⟩ := hface
    unfold At bilinX bilinY at *
    constructor
    · rw [← h1, ← a1, ← a3]; ring
    · rw [← h2, ← a2, ← a4]; ring
  obtain ⟨u, v, h1, h2⟩ := (C51_on_face_partial m c hn f eta x y).2.1 hc hjc
  obtain ⟨u', v', h3, h4⟩ := (C51_on_face_partial m d hd k eta x y).1 hd' hjd
  obtain ⟨a1, a2, a3, a4⟩ := hface
  refine ⟨u, v, u', v', h1, h3, ?_⟩
  rw [h2, hfk, a1, a2, a3, a4]
  exact h4.symm

/-- The faces of a cell are shared with its neighbours: the east face of cell (j, i) is the west face of (j, i + 1) and the north
face of (j, i) the south face of (j + 1, i), for both ways of indexing; in JIT mode MITgcm data are read at the same
places as in Scipy mode. -/
theorem C51_shared_faces (U V : Nat → Nat → K) (j i : Nat) :
    (nemoFaces U V j i).east = (nemoFaces U V j (i + 1)).west ∧ (nemoFaces U V j i).north = (nemoFaces U V (j + 1) i).south ∧
    (mitgcmFaces U V j i).east = (mitgcmFaces U V j (i + 1)).west ∧
    (mitgcmFaces U V j i).north = (mitgcmFaces U V (j + 1) i).south := ⟨rfl, rfl, rfl, rfl⟩

theorem C51_mitgcm_jit (U V : ℤ → ℤ → K) (j i : Nat) :
    cMitgcmFaces U V j i = mitgcmFaces (fun a b => U a b) (fun a b => V a b) j i := by
  unfold cMitgcmFaces mitgcmFaces
  simp

/-- C51 on the sphere: the two modes agree, at every position whose relative coordinates were found, if the cell is narrower
than half a turn. (Scipy mode moves the first corner near the position and uses the latitude of the position, JIT mode
does neither.) -/
theorem C51_modes_sphere_partial (m : Metric K) (c : Cell K) (xsi eta x y : K) (f : Faces K)
    (h : At (shift true x c) x y xsi eta) (hw : NarrowOnSphere x c) :
    ∃ v, BothGive m true c xsi eta x y f v := by
  refine ⟨_, py_at f h, ?_⟩
  unfold cVelocity
  simp only
  obtain ⟨d1, d2, d3⟩ := shifts_agree hw
  have hy : dotPhi xsi eta (cShift c).y0 (cShift c).y1 (cShift c).y2 (cShift c).y3 = y := h.2
  rw [hy]
  exact velocity_congr m true xsi eta y f d1.symm d2.symm d3.symm rfl rfl rfl rfl

/-- C51 on the sphere, on the faces of any cell: the flux of the velocity (in degrees per second) through the face, measured in
metres with the metric at the position, is exactly the given velocity times the length of the face measured with the
same metric, at every point of the face; both modes. -/
theorem C51_face_sphere_partial (m : Metric K) (c : Cell K) (f : Faces K) (r x y : K) (hw : NarrowOnSphere x c)
    (hc : m.cos y ≠ 0) :
    let s := shift true x c
    (At s x y 0 r → jacobian s 0 r ≠ 0 → ∃ u v, BothGive m true c 0 r x y f (u, v) ∧
      flux (u * (deg2m * m.cos y)) (v * deg2m) ((s.x3 - s.x0) * (deg2m * m.cos y)) ((s.y3 - s.y0) * deg2m) =
        f.west * length m.sqrt ((s.x3 - s.x0) * (deg2m * m.cos y)) ((s.y3 - s.y0) * deg2m)) ∧
    (At s x y 1 r → jacobian s 1 r ≠ 0 → ∃ u v, BothGive m true c 1 r x y f (u, v) ∧
      flux (u * (deg2m * m.cos y)) (v * deg2m) ((s.x2 - s.x1) * (deg2m * m.cos y)) ((s.y2 - s.y1) * deg2m) =
        f.east * length m.sqrt ((s.x2 - s.x1) * (deg2m * m.cos y)) ((s.y2 - s.y1) * deg2m)) ∧
    (At s x y r 0 → jacobian s r 0 ≠ 0 → ∃ u v, BothGive m true c r 0 x y f (u, v) ∧
      - flux (u * (deg2m * m.cos y)) (v * deg2m) ((s.x1 - s.x0) * (deg2m * m.cos y)) ((s.y1 - s.y0) * deg2m) =
        f.south * length m.sqrt ((s.x1 - s.x0) * (deg2m * m.cos y)) ((s.y1 - s.y0) * deg2m)) ∧
    (At s x y r 1 → jacobian s r 1 ≠ 0 → ∃ u v, BothGive m true c r 1 x y f (u, v) ∧
      - flux (u * (deg2m * m.cos y)) (v * deg2m) ((s.x2 - s.x3) * (deg2m * m.cos y)) ((s.y2 - s.y3) * deg2m) =
        f.north * length m.sqrt ((s.x2 - s.x3) * (deg2m * m.cos y)) ((s.y2 - s.y3) * deg2m)) := by
  intro s
  have key : ∀ xsi eta, At s x y xsi eta → jacobian s xsi eta ≠ 0 → ∃ u v, BothGive m true c xsi eta x y f (u, v) ∧
      deg2m * deg2m * m.cos y * flux u v (alongEtaX s xsi) (alongEtaY s xsi) = fluxU m true s xsi eta f ∧
      deg2m * deg2m * m.cos y * -flux u v (alongXsiX s eta) (alongXsiY s eta) = fluxV m true s xsi eta f := by
    intro xsi eta h hj
    obtain ⟨v, hv⟩ := C51_modes_sphere_partial m c xsi eta x y f h hw
    refine ⟨v.1, v.2, hv, ?_⟩
    have h1 := hv.1
    rw [py_at f h] at h1
    injection h1 with h1
    rw [velocity_eq] at h1
    simp only [cond_true] at h1
    have hd : (deg2m : K) ≠ 0 := by unfold deg2m; norm_num
    have hm : deg2m * deg2m * m.cos y ≠ 0 := mul_ne_zero (mul_ne_zero hd hd) hc
    generalize deg2m * deg2m * m.cos y = k at h1 hm ⊢
    rw [← h1]
    exact flux_alg hj hm (jacobian_along s xsi eta)
  refine ⟨fun h hj => ?_, fun h hj => ?_, fun h hj => ?_, fun h hj => ?_⟩
  · obtain ⟨u, v, h1, h2, _⟩ := key 0 r h hj
    refine ⟨u, v, h1, ?_⟩
    have hl : dotPhi 0 r s.y0 s.y1 s.y2 s.y3 = y := h.2
    simp only [fluxU, hl, dist_sphere, alongEtaX, alongEtaY, sub_zero, one_mul, zero_mul, add_zero] at h2
    rw [length_neg, ← h2]
    unfold flux; ring
  · obtain ⟨u, v, h1, h2, _⟩ := key 1 r h hj
    refine ⟨u, v, h1, ?_⟩
    have hl : dotPhi 1 r s.y0 s.y1 s.y2 s.y3 = y := h.2
    simp only [fluxU, hl, dist_sphere, alongEtaX, alongEtaY, sub_self, one_mul, zero_mul, zero_add] at h2
    rw [← h2]
    unfold flux; ring
  · obtain ⟨u, v, h1, _, h2⟩ := key r 0 h hj
    refine ⟨u, v, h1, ?_⟩
    have hl : dotPhi r 0 s.y0 s.y1 s.y2 s.y3 = y := h.2
    simp only [fluxV, hl, dist_sphere, alongXsiX, alongXsiY, sub_zero, one_mul, zero_mul, add_zero] at h2
    rw [← h2]
    unfold flux; ring
  · obtain ⟨u, v, h1, _, h2⟩ := key r 1 h hj
    refine ⟨u, v, h1, ?_⟩
    have hl : dotPhi r 1 s.y0 s.y1 s.y2 s.y3 = y := h.2
    simp only [fluxV, hl, dist_sphere, alongXsiX, alongXsiY, sub_self, one_mul, zero_mul, zero_add] at h2
    rw [length_neg, ← h2]
    unfold flux; ring

/-- C51 on the sphere, on rectangles in longitude and latitude: the eastward velocity in degrees per second is the linear
interpolation between the west and the east face divided by the metres per degree of longitude; the northward one
interpolates the transports, velocity times cosine of latitude; on the faces both are exactly the given ones. -/
theorem C51_rectangle_sphere_partial (m : Metric K) (hs : IsSqrt m.sqrt) (c : Cell K) (xsi eta x y : K) (f : Faces K)
    (hw : NarrowOnSphere x c) :
    let s := shift true x c
    Rectangle s → At s x y xsi eta → 0 < m.cos y → 0 < m.cos s.y0 → 0 < m.cos s.y3 →
    BothGive m true c xsi eta x y f
      (((1 - xsi) * f.west + xsi * f.east) / (deg2m * m.cos y),
       ((1 - eta) * (f.south * m.cos s.y0) + eta * (f.north * m.cos s.y3)) / (deg2m * m.cos y)) := by
  intro s hr h hc hc0 hc3
  obtain ⟨e1, e2, e3, e4, hx, hy⟩ := hr
  obtain ⟨v, hv⟩ := C51_modes_sphere_partial m c xsi eta x y f h hw
  have hd : (0 : K) < deg2m := by unfold deg2m; norm_num
  have px : 0 < s.x1 - s.x0 := by linarith
  have py : 0 < s.y3 - s.y0 := by linarith
  have l1 : ∀ d : K, 0 < d → length m.sqrt d 0 = d := by
    intro d hd
    unfold length
    rw [mul_zero, add_zero, hs, abs_of_pos hd]
  have l2 : ∀ d : K, 0 < d → length m.sqrt 0 d = d := by
    intro d hd
    unfold length
    rw [mul_zero, zero_add, hs, abs_of_pos hd]
  have q0 : dotPhi xsi 0 s.y0 s.y1 s.y2 s.y3 = s.y0 := by unfold dotPhi; rw [e3]; ring
  have q1 : dotPhi xsi 1 s.y0 s.y1 s.y2 s.y3 = s.y3 := by unfold dotPhi; rw [e4]; ring
  have hU : fluxU m true s xsi eta f = ((1 - xsi) * f.west + xsi * f.east) * ((s.y3 - s.y0) * deg2m) := by
    unfold fluxU
    rw [dist_sphere, dist_sphere, length_neg, e1, e2, e3, e4, sub_self, sub_self, zero_mul, zero_mul, l2 _ (by positivity)]
    ring
  have hV : fluxV m true s xsi eta f =
      ((1 - eta) * (f.south * m.cos s.y0) + eta * (f.north * m.cos s.y3)) * ((s.x1 - s.x0) * deg2m) := by
    unfold fluxV
    rw [q0, q1, dist_sphere, dist_sphere, length_neg m.sqrt s.x2, e1, e2, e3, e4, sub_self, sub_self, zero_mul,
      l1 _ (by positivity), l1 _ (by positivity)]
    ring
  have hvel : velocity m true s xsi eta y f =
      (((1 - xsi) * f.west + xsi * f.east) / (deg2m * m.cos y),
       ((1 - eta) * (f.south * m.cos s.y0) + eta * (f.north * m.cos s.y3)) / (deg2m * m.cos y)) := by
    rw [velocity_eq, hU, hV]
    have hj : jacobian s xsi eta = (s.x1 - s.x0) * (s.y3 - s.y0) := by
      unfold jacobian; rw [e1, e2, e3, e4]; ring
    have a1 : alongXsiX s eta = s.x1 - s.x0 := by unfold alongXsiX; rw [e1, e2]; ring
    have a2 : alongXsiY s eta = 0 := by unfold alongXsiY; rw [e3, e4]; ring
    have a3 : alongEtaX s xsi = 0 := by unfold alongEtaX; rw [e1, e2]; ring
    have a4 : alongEtaY s xsi = s.y3 - s.y0 := by unfold alongEtaY; rw [e3, e4]; ring
    rw [hj, a1, a2, a3, a4]
    simp only [cond_true, mul_zero, add_zero, zero_add]
    generalize s.x1 - s.x0 = dx at *
    generalize s.y3 - s.y0 = dy at *
    congr 1 <;> field_simp
  have hp := py_at (m := m) f h
  rw [hvel] at hp
  have := hv.1
  rw [hp] at this
  injection this with this
  rw [this]
  exact hv

/-- A cell across the date line, seen from longitude 181. -/
example :
    let c : Cell ℚ := { x0 := 179, x1 := -177, x2 := -177, x3 := 179, y0 := 0, y1 := 0, y2 := 1, y3 := 1 }
    NarrowOnSphere 181 c ∧ At (shift true 181 c) 181 (1/4) (1/2) (1/4) ∧ jacobian (shift true 181 c) (1/2) (1/4) ≠ 0 := by
  unfold NarrowOnSphere At
  decide +kernel

/-- C51 fails in JIT mode on flat meshes with cells wider than 180 (say, metres): the corners are brought within 180 of the first
one as if they were longitudes. On a rectangle 200 wide the northward velocity has the wrong sign; on one 360 wide the
Jacobian is zero, so that the velocities are not numbers. -/
theorem C51_flat_jit_fails :
    let m : Metric ℚ := ⟨Rat.sqrt, fun _ => 1⟩
    let c : Cell ℚ := { x0 := 0, x1 := 200, x2 := 200, x3 := 0, y0 := 0, y1 := 0, y2 := 5, y3 := 5 }
    let d : Cell ℚ := { x0 := 0, x1 := 360, x2 := 360, x3 := 0, y0 := 0, y1 := 0, y2 := 5, y3 := 5 }
    pyVelocity m false c (1/2) (1/5) 100 1 boxFaces = some (2, -4/5) ∧
    cVelocity m false c (1/2) (1/5) boxFaces = (2, 4/5) ∧ jac (cShift d) (1/2) (1/5) = 0 := by
  decide +kernel

end Parcels.CGrid
