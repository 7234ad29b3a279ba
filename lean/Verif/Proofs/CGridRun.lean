import Verif.Spec.CGridRun
import Verif.Proofs.PeriodRun
import Verif.Props.CGrid

/-!
Lemmas for Props/CGridRun.
-/

namespace Parcels.CGridRun

open Search Interp TimeInterp
open CGrid (Faces Metric nemoFaces mitgcmFaces pyVelocity cVelocity velocity Rectangle Narrow)
open Curvilinear (Cell At IsSqrt shift)
open KernelLoop (Exc)
open GridRun (Fld Hint exc Sound TimeValue time_total time_scipy time_jit)
open PeriodRun (span span_eq period_scipy period_jit period_total)

/-- The searches find a cell that contains the position. -/
theorem found {f : Fld} (hf : Sound f) {z y x : ℚ} (hx : InRange f.grid.lon x) (hy : InRange f.grid.lat y) (hz : 2 ≤ f.grid.depth.length → InRange f.grid.depth z) :
    (∃ p, searchRect f.grid x y z = .ok p ∧ ∃ k m n : Nat, p.xi = n ∧ p.yi = m ∧ k = (if 1 < f.grid.depth.length then p.zi.toNat else 0) ∧ InCell f.grid z y x k m n p.eta p.xsi) ∧
    ∀ h, Remembered f h → ∃ p, cSearchRect f.grid x y z h.xi h.yi h.zi = .ok p ∧ ∃ k m n : Nat, p.xi = n ∧ p.yi = m ∧ k = (if 1 < f.grid.depth.length then p.zi.toNat else 0) ∧
      InCell f.grid z y x k m n p.eta p.xsi := by
  have hg := hf.flatGrid
  rcases Nat.lt_or_ge f.grid.depth.length 2 with c | c
  · constructor
    · obtain ⟨p, hp, p1, p2⟩ := (C24_scipy f.grid hg (by omega) x y z).1 ⟨hx, hy⟩
      obtain ⟨n, e1, -⟩ := locates_nat p1
      obtain ⟨m, e2, -⟩ := locates_nat p2
      exact ⟨p, hp, 0, m, n, e1, e2, by rw [if_neg (by omega)], e1 ▸ p1, e2 ▸ p2, fun _ => rfl, fun h => by omega⟩
    · rintro h ⟨a1, a2, a3, -⟩
      obtain ⟨p, hp, p1, p2⟩ := (C24_jit f.grid hg (by omega) x y z h.xi h.yi h.zi a1 a2).1 ⟨hx, hy⟩
      obtain ⟨n, e1, -⟩ := locates_nat p1
      obtain ⟨m, e2, -⟩ := locates_nat p2
      exact ⟨p, hp, 0, m, n, e1, e2, by rw [if_neg (by omega)], e1 ▸ p1, e2 ▸ p2, fun _ => rfl, fun h => by omega⟩
  · have hdep := hf.depth.resolve_left (by omega : ¬ f.grid.depth.length ≤ 1)
    have hz' := (inRange_inc hdep c z).mp (hz c)
    obtain ⟨q1, q2, q3⟩ := C24_scipy_3D f.grid hg (Or.inl hdep) c hf.mom5 x y z hx hy
    have nd : ¬ Decreasing f.grid.depth := by
      intro hd
      have h1 := List.pairwise_iff_getElem.mp hd 0 1 (by omega) (by omega) (by omega)
      have h2 := List.pairwise_iff_getElem.mp hdep 0 1 (by omega) (by omega) (by omega)
      linarith
    have nb : ¬ BeforeFirst f.grid.depth z := by
      unfold BeforeFirst
      rw [headD_getD]
      rintro (⟨h1, h2⟩ | ⟨h1, h2⟩)
      · linarith [hz'.1]
      · exact nd h1
    have nl : ¬ BeyondLast f.grid.depth z := by
      unfold BeyondLast
      rw [getLastD_getD]
      rintro (⟨h1, h2⟩ | ⟨h1, h2⟩)
      · linarith [hz'.2]
      · exact nd h1
    constructor
    · obtain ⟨p, hp, p1, p2, p3⟩ := q3 nb nl
      obtain ⟨n, e1, -⟩ := locates_nat p1
      obtain ⟨m, e2, -⟩ := locates_nat p2
      obtain ⟨k, e3, -⟩ := locates_nat p3
      exact ⟨p, hp, k, m, n, e1, e2, by rw [if_pos (by omega), e3]; rfl, e1 ▸ p1, e2 ▸ p2, fun h => by omega, fun _ => ⟨_, e3 ▸ p3⟩⟩
    · rintro h ⟨a1, a2, a3, -⟩
      obtain ⟨p, hp, p1, p2, p3⟩ := (C24_jit_3D f.grid hg (Or.inl hdep) c hf.mom5 x y z h.xi h.yi h.zi a1 a2 a3 hx hy).2.2 nb nl
      obtain ⟨n, e1, -⟩ := locates_nat p1
      obtain ⟨m, e2, -⟩ := locates_nat p2
      obtain ⟨k, e3, -⟩ := locates_nat p3
      exact ⟨p, hp, k, m, n, e1, e2, by rw [if_pos (by omega), e3]; rfl, e1 ▸ p1, e2 ▸ p2, fun h => by omega, fun _ => ⟨_, e3 ▸ p3⟩⟩

theorem rectangle_velocity (m : Metric ℚ) (hs : IsSqrt m.sqrt) (c : Cell ℚ) (hr : Rectangle c) (xsi eta y : ℚ) (f : Faces ℚ) :
    velocity m false c xsi eta y f = (lerp xsi f.west f.east, lerp eta f.south f.north) := by
  obtain ⟨e1, e2, e3, e4, hx, hy⟩ := hr
  · have px : 0 < c.x1 - c.x0 := by linarith
    have py : 0 < c.y3 - c.y0 := by linarith
    have l1 : ∀ d : ℚ, 0 < d → CGrid.length m.sqrt d 0 = d := by
      intro d hd
      unfold CGrid.length
      rw [mul_zero, add_zero, hs, abs_of_pos hd]
    have l2 : ∀ d : ℚ, 0 < d → CGrid.length m.sqrt 0 d = d := by
      intro d hd
      unfold CGrid.length
      rw [mul_zero, zero_add, hs, abs_of_pos hd]
    have hU : CGrid.fluxU m false c xsi eta f = ((1 - xsi) * f.west + xsi * f.east) * (c.y3 - c.y0) := by
      unfold CGrid.fluxU
      rw [CGrid.dist_flat, CGrid.dist_flat, CGrid.length_comm, e1, e2, e3, e4, sub_self, sub_self, l2 _ py]
      ring
    have hV : CGrid.fluxV m false c xsi eta f = ((1 - eta) * f.south + eta * f.north) * (c.x1 - c.x0) := by
      unfold CGrid.fluxV
      rw [CGrid.dist_flat, CGrid.dist_flat, CGrid.length_comm m.sqrt c.x2, e1, e2, e3, e4, sub_self, sub_self, l1 _ px]
      ring
    rw [CGrid.velocity_eq, hU, hV]
    have hj : Curvilinear.jacobian c xsi eta = (c.x1 - c.x0) * (c.y3 - c.y0) := by
      unfold Curvilinear.jacobian; rw [e1, e2, e3, e4]; ring
    have a1 : CGrid.alongXsiX c eta = c.x1 - c.x0 := by unfold CGrid.alongXsiX; rw [e1, e2]; ring
    have a2 : CGrid.alongXsiY c eta = 0 := by unfold CGrid.alongXsiY; rw [e3, e4]; ring
    have a3 : CGrid.alongEtaX c xsi = 0 := by unfold CGrid.alongEtaX; rw [e1, e2]; ring
    have a4 : CGrid.alongEtaY c xsi = c.y3 - c.y0 := by unfold CGrid.alongEtaY; rw [e3, e4]; ring
    rw [hj, a1, a2, a3, a4]
    simp only [cond_false, mul_one, mul_zero, add_zero, zero_add]
    unfold lerp
    congr 1 <;> field_simp <;> ring
/-- The nodes beside a position. -/
theorem located_at {l : List ℚ} (hl : Increasing l) {x r : ℚ} {n : Nat} (h : Locates l x n r) :
    ∃ a b : ℚ, l[n]? = some a ∧ l[n + 1]? = some b ∧ a < b ∧ x = (1 - r) * a + r * b := by
  obtain ⟨n', a, b, e, ha, hb, -, -, hx⟩ := h
  obtain rfl : n = n' := by omega
  refine ⟨a, b, ha, hb, ?_, hx⟩
  obtain ⟨k1, rfl⟩ := List.getElem?_eq_some_iff.mp ha
  obtain ⟨k2, rfl⟩ := List.getElem?_eq_some_iff.mp hb
  exact List.pairwise_iff_getElem.mp hl n (n + 1) k1 k2 (by omega)

/-- The velocity in the cell that was found. -/
theorem in_cell {m : Metric ℚ} (hs : IsSqrt m.sqrt) (mit : Bool) {f : Fld} (hf : Sound f) (dV : Nat → Arr) {z y x : ℚ} {p : Pos} {k j n : Nat} (e1 : p.xi = n) (e2 : p.yi = j)
    (e3 : k = (if 1 < f.grid.depth.length then p.zi.toNat else 0)) (h : InCell f.grid z y x k j n p.eta p.xsi) (i : Nat) :
    pyVelocity m f.grid.spherical (cellOf f.grid p) p.xsi p.eta x y (facesOf mit f.grid (f.data i) (dV i) p) =
      some (lerp p.xsi (western mit (f.data i) k j n) (western mit (f.data i) k j (n + 1)), lerp p.eta (southern mit (dV i) k j n) (southern mit (dV i) k (j + 1) n)) ∧
    (NarrowCells f → cVelocity m f.grid.spherical (cellOf f.grid p) p.xsi p.eta (facesOf mit f.grid (f.data i) (dV i) p) =
      (lerp p.xsi (western mit (f.data i) k j n) (western mit (f.data i) k j (n + 1)), lerp p.eta (southern mit (dV i) k j n) (southern mit (dV i) k (j + 1) n))) := by
  obtain ⟨hx, hy, -, -⟩ := h
  obtain ⟨a, b, la, lb, hab, hax⟩ := located_at hf.lonInc hx
  obtain ⟨c, d, lc, ld, hcd, hcy⟩ := located_at hf.latInc hy
  have ce : cellOf f.grid p = { x0 := a, x1 := b, x2 := b, x3 := a, y0 := c, y1 := c, y2 := d, y3 := d } := by
    unfold cellOf
    simp only [e1, e2, Int.toNat_natCast, List.getD_eq_getElem?_getD, la, lb, lc, ld, Option.getD_some]
  have hr : Rectangle (cellOf f.grid p) := by
    rw [ce]
    exact ⟨rfl, rfl, rfl, rfl, hab, hcd⟩
  have hat : At (cellOf f.grid p) x y p.xsi p.eta := by
    rw [ce]
    unfold At
    unfold Curvilinear.bilinX Curvilinear.bilinY
    constructor
    · rw [hax]; ring
    · rw [hcy]; ring
  have fw : (facesOf mit f.grid (f.data i) (dV i) p).west = western mit (f.data i) k j n ∧ (facesOf mit f.grid (f.data i) (dV i) p).east = western mit (f.data i) k j (n + 1) ∧
      (facesOf mit f.grid (f.data i) (dV i) p).south = southern mit (dV i) k j n ∧ (facesOf mit f.grid (f.data i) (dV i) p).north = southern mit (dV i) k (j + 1) n := by
    unfold facesOf western southern
    simp only [e1, e2, ← e3, Int.toNat_natCast]
    cases mit <;> exact ⟨rfl, rfl, rfl, rfl⟩
  have v1 := rectangle_velocity m hs _ hr p.xsi p.eta y (facesOf mit f.grid (f.data i) (dV i) p)
  rw [fw.1, fw.2.1, fw.2.2.1, fw.2.2.2] at v1
  rw [hf.flat, ← v1]
  refine ⟨CGrid.py_at (sph := false) _ hat, fun hn => (CGrid.both_flat (x := x) (y := y) _ ?_ hat).2⟩
  have := hn n a b la lb
  rw [ce]
  unfold Narrow
  simp only [sub_self, abs_zero, abs_of_pos (sub_pos.mpr hab)]
  exact ⟨this, this, by norm_num⟩

/-- The interpolation in time, in both modes. -/
theorem in_time {per : Bool} {f : Fld} (hf : Sound f) (h2 : per = true → 2 ≤ f.time.length) {sn : Nat → Except Err ℚ} {v : Nat → ℚ} (hs : ∀ j, j < f.time.length → sn j = .ok (v j))
    (hv : per = true → v 0 = v (f.time.length - 1)) {t w : ℚ} (h : InTime per f t v w) :
    evalTime (TAxis.full f.time per f.extrap) sn t = .ok w ∧
    ∀ ti : ℤ, ti < f.time.length → cEvalTime (TAxis.full f.time per f.extrap) sn 2 t ti = some (.ok w) := by
  cases per with
  | false => exact ⟨time_scipy hf.timeInc hf.timeLen _ _ _ hs _ _ h, fun ti hti => time_jit hf.timeInc hf.timeLen _ _ _ hs 1 ti hti _ _ h⟩
  | true =>
    obtain ⟨k, i, r, hl, hw⟩ := h
    rw [span_eq] at hl
    exact ⟨period_scipy hf.timeInc (h2 rfl) _ hs (hv rfl) hl hw, fun ti hti => period_jit hf.timeInc (h2 rfl) _ hs (hv rfl) hti hl hw⟩

theorem in_time_unique {per : Bool} {f : Fld} (hf : Sound f) (h2 : per = true → 2 ≤ f.time.length) {v : Nat → ℚ} (hv : per = true → v 0 = v (f.time.length - 1)) {t w w' : ℚ}
    (h : InTime per f t v w) (h' : InTime per f t v w') : w = w' := by
  have a := (in_time hf h2 (sn := fun i => .ok (v i)) (fun _ _ => rfl) hv h).1
  rw [(in_time hf h2 (sn := fun i => .ok (v i)) (fun _ _ => rfl) hv h').1] at a
  injection a with a
  exact a.symm

theorem in_time_total {per : Bool} {f : Fld} (hf : Sound f) (h2 : per = true → 2 ≤ f.time.length) {t : ℚ} (h : per = true ∨ f.extrap = true ∨ InRange f.time t) (v : Nat → ℚ) :
    ∃ w, InTime per f t v w := by
  cases per with
  | true =>
    obtain ⟨k, i, r, hl⟩ := period_total hf.timeInc (h2 rfl) t
    exact ⟨_, k, i, r, by rw [span_eq]; exact hl, rfl⟩
  | false =>
    rcases time_total hf.timeInc hf.timeLen f.extrap t v with ⟨w, hw⟩ | ⟨c, c'⟩
    · exact ⟨w, hw⟩
    · rcases h with h | h | h
      · cases h
      · rw [h] at c; cases c
      · obtain ⟨a, b, ha, hb, h1, h2⟩ := h
        exfalso
        obtain ⟨ia, ha', rfl⟩ := List.getElem_of_mem ha
        obtain ⟨ib, hb', rfl⟩ := List.getElem_of_mem hb
        rw [headD_getD, getLastD_getD] at c'
        have e0 := inc_le hf.timeInc (Nat.zero_le ia) ha'
        have e1 := inc_le hf.timeInc (show ib ≤ f.time.length - 1 by omega) (by omega)
        rw [List.getD_eq_getElem f.time 0 ha'] at e0
        rw [List.getD_eq_getElem f.time 0 hb'] at e1
        rcases c' with c' | c' <;> linarith

/-- The value sampled from the cell that was found. -/
theorem gives {m : Metric ℚ} (hs : IsSqrt m.sqrt) (mit : Bool) {per : Bool} {f : Fld} (hf : Sound f) (dV : Nat → Arr) (hp : per = true → Closed f dV) {t z y x : ℚ} (h : Covers per f t z y x) :
    (∃ u v, eval m mit per f dV t z y x = .ok (u, v) ∧ Gives mit per f dV t z y x u v) ∧
    (NarrowCells f → ∀ hint, Remembered f hint → ∃ u v, cEval m mit per f dV t z y x hint = .ok (u, v) ∧ Gives mit per f dV t z y x u v) := by
  obtain ⟨hx, hy, hz, ht⟩ := h
  have h2 : per = true → 2 ≤ f.time.length := fun c => (hp c).two
  obtain ⟨f1, f2⟩ := found hf hx hy hz
  constructor
  · obtain ⟨p, hse, k, j, n, e1, e2, e3, hc⟩ := f1
    obtain ⟨u, hu⟩ := in_time_total hf h2 ht (fun i => lerp p.xsi (western mit (f.data i) k j n) (western mit (f.data i) k j (n + 1)))
    obtain ⟨v, hv⟩ := in_time_total hf h2 ht (fun i => lerp p.eta (southern mit (dV i) k j n) (southern mit (dV i) k (j + 1) n))
    refine ⟨u, v, ?_, k, j, n, _, _, hc, hu, hv⟩
    have a := (in_time hf h2 (sn := fun i => (spatial m mit f dV z y x i).map Prod.fst)
      (fun i _ => by unfold spatial; simp only [hse, (in_cell hs mit hf dV e1 e2 e3 hc i).1]; rfl) (fun c => by simp only [(hp c).sameU]) hu).1
    have b := (in_time hf h2 (sn := fun i => (spatial m mit f dV z y x i).map Prod.snd)
      (fun i _ => by unfold spatial; simp only [hse, (in_cell hs mit hf dV e1 e2 e3 hc i).1]; rfl) (fun c => by simp only [(hp c).sameV]) hv).1
    unfold eval
    rw [a, b]
  · intro hn hint hh
    obtain ⟨p, hse, k, j, n, e1, e2, e3, hc⟩ := f2 hint hh
    obtain ⟨u, hu⟩ := in_time_total hf h2 ht (fun i => lerp p.xsi (western mit (f.data i) k j n) (western mit (f.data i) k j (n + 1)))
    obtain ⟨v, hv⟩ := in_time_total hf h2 ht (fun i => lerp p.eta (southern mit (dV i) k j n) (southern mit (dV i) k (j + 1) n))
    refine ⟨u, v, ?_, k, j, n, _, _, hc, hu, hv⟩
    have a := (in_time hf h2 (sn := fun i => (cSpatial m mit f dV z y x hint i).map Prod.fst)
      (fun i _ => by unfold cSpatial; simp only [hse, (in_cell hs mit hf dV e1 e2 e3 hc i).2 hn]; rfl) (fun c => by simp only [(hp c).sameU]) hu).2 hint.ti hh.2.2.2
    have b := (in_time hf h2 (sn := fun i => (cSpatial m mit f dV z y x hint i).map Prod.snd)
      (fun i _ => by unfold cSpatial; simp only [hse, (in_cell hs mit hf dV e1 e2 e3 hc i).2 hn]; rfl) (fun c => by simp only [(hp c).sameV]) hv).2 hint.ti hh.2.2.2
    unfold cEval
    rw [a, b]

/-- Off the nodes of an axis there is one cell. -/
theorem one_cell {l : List ℚ} (hl : Increasing l) {x : ℚ} (hx : x ∉ l) {i j : Nat} {r s : ℚ} (h1 : Locates l x i r) (h2 : Locates l x j s) : i = j := by
  rcases locates_agree hl h1 h2 with ⟨e, -⟩ | ⟨-, e1, -⟩ | ⟨-, e1, -⟩
  · omega
  · obtain ⟨a, b, -, hb, -, e⟩ := located_at hl h1
    rw [e1] at e
    exact absurd (List.mem_of_getElem? hb) (by rwa [show b = x by linarith])
  · obtain ⟨a, b, -, hb, -, e⟩ := located_at hl h2
    rw [e1] at e
    exact absurd (List.mem_of_getElem? hb) (by rwa [show b = x by linarith])

theorem one_level {f : Fld} (hf : Sound f) {z y x : ℚ} (hz : f.grid.depth.length ≤ 1 ∨ z ∉ f.grid.depth) {k k' m m' n n' : Nat} {s s' r r' : ℚ}
    (h : InCell f.grid z y x k m n s r) (h' : InCell f.grid z y x k' m' n' s' r') : k = k' := by
  rcases Nat.lt_or_ge f.grid.depth.length 2 with c | c
  · rw [h.one (by omega), h'.one (by omega)]
  · obtain ⟨q, a⟩ := h.more c
    obtain ⟨q', b⟩ := h'.more c
    exact one_cell (hf.depth.resolve_left (by omega)) (hz.resolve_left (by omega)) a b

theorem lerp_unique {l : List ℚ} (hl : Increasing l) {x : ℚ} {n m : Nat} {r s : ℚ} (h1 : Locates l x n r) (h2 : Locates l x m s) (f : Nat → ℚ) :
    lerp r (f n) (f (n + 1)) = lerp s (f m) (f (m + 1)) := by
  have := lin_unique hl h1 h2 f
  unfold lerp
  linarith

theorem gives_u {mit per : Bool} {f : Fld} (hf : Sound f) {dV : Nat → Arr} (hp : per = true → Closed f dV) {t z y x u v u' v' : ℚ} (h : Gives mit per f dV t z y x u v)
    (h' : Gives mit per f dV t z y x u' v') (hy : y ∉ f.grid.lat) (hz : f.grid.depth.length ≤ 1 ∨ z ∉ f.grid.depth) : u = u' := by
  obtain ⟨k, m, n, s, r, c, hu, -⟩ := h
  obtain ⟨k', m', n', s', r', c', hu', -⟩ := h'
  obtain rfl := one_level hf hz c c'
  obtain rfl := one_cell hf.latInc hy c.lat c'.lat
  refine in_time_unique hf (fun e => (hp e).two) (v := fun i => lerp r (western mit (f.data i) k m n) (western mit (f.data i) k m (n + 1))) (fun e => by simp only [(hp e).sameU]) hu ?_
  rw [show (fun i => lerp r (western mit (f.data i) k m n) (western mit (f.data i) k m (n + 1))) = fun i => lerp r' (western mit (f.data i) k m n') (western mit (f.data i) k m (n' + 1)) from
    funext fun i => lerp_unique hf.lonInc c.lon c'.lon (fun a => western mit (f.data i) k m a)]
  exact hu'

theorem gives_v {mit per : Bool} {f : Fld} (hf : Sound f) {dV : Nat → Arr} (hp : per = true → Closed f dV) {t z y x u v u' v' : ℚ} (h : Gives mit per f dV t z y x u v)
    (h' : Gives mit per f dV t z y x u' v') (hx : x ∉ f.grid.lon) (hz : f.grid.depth.length ≤ 1 ∨ z ∉ f.grid.depth) : v = v' := by
  obtain ⟨k, m, n, s, r, c, -, hv⟩ := h
  obtain ⟨k', m', n', s', r', c', -, hv'⟩ := h'
  obtain rfl := one_level hf hz c c'
  obtain rfl := one_cell hf.lonInc hx c.lon c'.lon
  refine in_time_unique hf (fun e => (hp e).two) (v := fun i => lerp s (southern mit (dV i) k m n) (southern mit (dV i) k (m + 1) n)) (fun e => by simp only [(hp e).sameV]) hv ?_
  rw [show (fun i => lerp s (southern mit (dV i) k m n) (southern mit (dV i) k (m + 1) n)) = fun i => lerp s' (southern mit (dV i) k m' n) (southern mit (dV i) k (m' + 1) n) from
    funext fun i => lerp_unique hf.latInc c.lat c'.lat (fun a => southern mit (dV i) k a n)]
  exact hv'

/-- At a node of an axis the interpolated value is the one of the node. -/
theorem at_node {l : List ℚ} (hl : Increasing l) {x : ℚ} {i n : Nat} {r : ℚ} (h : Locates l x i r) (hx : l[n]? = some x) (g : Nat → ℚ) : lerp r (g i) (g (i + 1)) = g n := by
  obtain ⟨k0, k1⟩ := List.getElem?_eq_some_iff.mp hx
  have key : (n = i ∧ r = 0) ∨ (n = i + 1 ∧ r = 1) := by
    obtain ⟨a, b, ha, hb, hab, e⟩ := located_at hl h
    obtain ⟨_, _, _, q0, _, _, r0, r1, _⟩ := h
    obtain ⟨i1, rfl⟩ := List.getElem?_eq_some_iff.mp ha
    obtain ⟨i2, rfl⟩ := List.getElem?_eq_some_iff.mp hb
    have mono := List.pairwise_iff_getElem.mp hl
    rcases Nat.lt_trichotomy n i with q | q | q
    · have := mono n i k0 i1 q
      rw [k1] at this
      nlinarith
    · subst q
      left
      refine ⟨rfl, ?_⟩
      rw [k1] at e hab
      have : r * (l[n + 1] - x) = 0 := by linarith
      rcases mul_eq_zero.mp this with h | h
      · exact h
      · linarith
    · rcases Nat.lt_or_ge (i + 1) n with q' | q'
      · have := mono (i + 1) n i2 k0 q'
        rw [k1] at this
        nlinarith
      · obtain rfl : n = i + 1 := by omega
        right
        refine ⟨rfl, ?_⟩
        rw [k1] at e hab
        have : (1 - r) * (x - l[i]) = 0 := by linarith
        rcases mul_eq_zero.mp this with h | h
        · linarith
        · linarith
  unfold lerp
  rcases key with ⟨rfl, rfl⟩ | ⟨rfl, rfl⟩ <;> ring

theorem eval_fst {m : Metric ℚ} {mit per : Bool} {f : Fld} {dV : Nat → Arr} {t z y x : ℚ} {e : SErr}
    (h : evalTime (TAxis.full f.time per f.extrap) (fun i => (spatial m mit f dV z y x i).map Prod.fst) t = .error e) : eval m mit per f dV t z y x = .error (exc e) := by
  unfold eval
  rw [h]

theorem cEval_fst {m : Metric ℚ} {mit per : Bool} {f : Fld} {dV : Nat → Arr} {t z y x : ℚ} {hi : Hint}
    (h : ∀ w, cEvalTime (TAxis.full f.time per f.extrap) (fun i => (cSpatial m mit f dV z y x hi i).map Prod.fst) 2 t hi.ti ≠ some (.ok w)) : ∃ e, cEval m mit per f dV t z y x hi = .error e := by
  unfold cEval
  generalize cEvalTime (TAxis.full f.time per f.extrap) (fun i => (cSpatial m mit f dV z y x hi i).map Prod.fst) 2 t hi.ti = a at h ⊢
  generalize cEvalTime (TAxis.full f.time per f.extrap) (fun i => (cSpatial m mit f dV z y x hi i).map Prod.snd) 2 t hi.ti = b
  rcases a with _ | (a | a)
  · rcases b with _ | (b | b)
    · exact ⟨_, rfl⟩
    · exact ⟨_, rfl⟩
    · exact ⟨_, rfl⟩
  · exact ⟨_, rfl⟩
  · exact absurd rfl (h a)

theorem cTime_err (a : TAxis) (sn : Nat → Except Err ℚ) (e : Err) (hs : ∀ i, sn i = .error e) (fuel : Nat) (t : ℚ) (ti : ℤ) :
    (∃ e', cEvalTime a sn fuel t ti = some (.error e')) ∨ cEvalTime a sn fuel t ti = none := by
  unfold cEvalTime
  split
  · exact Or.inl ⟨_, rfl⟩
  · split
    · exact Or.inr rfl
    · simp only [hs]
      exact Or.inl ⟨_, rfl⟩

/-- Outside of the grid and of the times both modes raise an error. -/
theorem raises (m : Metric ℚ) (mit : Bool) {per : Bool} {f : Fld} (hf : Sound f) (dV : Nat → Arr) {t z y x : ℚ} (h : ¬ Covers per f t z y x) :
    (∃ e, eval m mit per f dV t z y x = .error e) ∧ ∀ hint, Remembered f hint → ∃ e, cEval m mit per f dV t z y x hint = .error e := by
  by_cases ht : per = true ∨ f.extrap = true ∨ InRange f.time t
  · rcases GridRun.space_cases hf z y x with ⟨⟨val, hv⟩, -⟩ | ⟨⟨e, he⟩, hc⟩
    · exfalso
      obtain ⟨n, j, r, s, hx, hy, -, h3⟩ := hv (f.data 0)
      refine h ⟨locates_inRange hf.lonInc hx, locates_inRange hf.latInc hy, fun c => ?_, ht⟩
      obtain ⟨k, q, hz, -⟩ := h3 c
      exact locates_inRange (hf.depth.resolve_left (by omega)) hz
    · constructor
      · obtain ⟨e', h'⟩ := GridRun.evalTime_err (TAxis.full f.time per f.extrap) (fun i => (spatial m mit f dV z y x i).map Prod.fst) e (fun i => by unfold spatial; rw [he]; rfl) t
        exact ⟨_, eval_fst h'⟩
      · intro hi hh
        obtain ⟨e', he'⟩ := hc hi hh
        refine cEval_fst fun w hw => ?_
        obtain ⟨e2, h2⟩ | h2 := cTime_err (TAxis.full f.time per f.extrap) (fun i => (cSpatial m mit f dV z y x hi i).map Prod.fst) e' (fun i => by unfold cSpatial; rw [he']; rfl) 2 t hi.ti
        · rw [h2] at hw; cases hw
        · rw [h2] at hw; cases hw
  · push Not at ht
    obtain ⟨hp, hex, hr⟩ := ht
    have hp : per = false := by simpa using hp
    have hex : f.extrap = false := by simpa using hex
    have hout : t < f.time.headD 0 ∨ f.time.getLastD 0 < t := by
      by_contra c
      push Not at c
      have hl := hf.timeLen
      rw [headD_getD, getLastD_getD] at c
      refine hr ⟨_, _, ?_, ?_, c.1, c.2⟩
      · rw [List.getD_eq_getElem f.time 0 (by omega)]; exact List.getElem_mem _
      · rw [List.getD_eq_getElem f.time 0 (by omega)]; exact List.getElem_mem _
    constructor
    · refine ⟨_, eval_fst (e := .time) ?_⟩
      unfold evalTime timeIndex
      rw [if_pos ⟨hp, hex, hout⟩]
    · intro hi hh
      refine cEval_fst fun w hw => ?_
      unfold cEvalTime at hw
      rw [if_pos ⟨hp, hex, by rw [getLastD_getD] at hout; exact hout⟩] at hw
      cases hw

end Parcels.CGridRun
