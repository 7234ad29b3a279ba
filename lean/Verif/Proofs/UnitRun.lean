import Verif.Spec.UnitRun
import Verif.Proofs.GridRun

/-!
Lemmas for C116.
-/

namespace Parcels.UnitRun

open Search Interp
open WholeRun (Scheme solution trajectory record core outputTimes)
open Recovery (TP)
open GridRun (Fld Prog Body Hint Sound FieldValue SpaceValue TimeValue Hints Grids Interpolates follow refScheme)

variable {V : Type}

theorem to_lt (a : Axis) (x y : ℚ) : a.to x < a.to y ↔ x < y := by
  unfold Axis.to
  constructor
  · intro h
    have : a.scale * x < a.scale * y := by linarith
    exact lt_of_mul_lt_mul_left this a.pos.le
  · intro h
    have := mul_lt_mul_of_pos_left h a.pos
    linarith

theorem to_le (a : Axis) (x y : ℚ) : a.to x ≤ a.to y ↔ x ≤ y := by
  rw [← not_lt, to_lt, not_lt]

theorem to_inj (a : Axis) {x y : ℚ} (h : a.to x = a.to y) : x = y :=
  le_antisymm ((to_le a x y).mp h.le) ((to_le a y x).mp h.ge)

theorem increasing_map (a : Axis) {l : List ℚ} (h : Increasing l) : Increasing (l.map a.to) := by
  unfold Increasing at h ⊢
  rw [List.pairwise_map]
  exact h.imp fun {x y} c => (to_lt a x y).mpr c

theorem locates_map (a : Axis) (l : List ℚ) (x : ℚ) (i : ℤ) (r : ℚ) : Locates (l.map a.to) (a.to x) i r ↔ Locates l x i r := by
  constructor
  · rintro ⟨n, p, q, hi, hp, hq, h0, h1, hx⟩
    rw [List.getElem?_map, Option.map_eq_some_iff] at hp hq
    obtain ⟨p, hp, rfl⟩ := hp
    obtain ⟨q, hq, rfl⟩ := hq
    refine ⟨n, p, q, hi, hp, hq, h0, h1, to_inj a ?_⟩
    rw [hx]
    unfold Axis.to
    ring
  · rintro ⟨n, p, q, hi, hp, hq, h0, h1, rfl⟩
    refine ⟨n, a.to p, a.to q, hi, by rw [List.getElem?_map, hp]; rfl, by rw [List.getElem?_map, hq]; rfl, h0, h1, ?_⟩
    unfold Axis.to
    ring

theorem space_change (u : Units) (c : ℚ) (hc : c ≠ 0) (f : Fld) (i : Nat) (z y x w : ℚ) :
    SpaceValue (change u c f).grid ((change u c f).data i) (u.z.to z) (u.y.to y) (u.x.to x) (c * w) ↔ SpaceValue f.grid (f.data i) z y x w := by
  have b : ∀ k m n s r, bilinearAt ((change u c f).data i) k m n s r = c * bilinearAt (f.data i) k m n s r := by
    intro k m n s r
    unfold bilinearAt lerp change
    ring
  have t : ∀ k m n q s r, trilinearAt ((change u c f).data i) k m n q s r = c * trilinearAt (f.data i) k m n q s r := by
    intro k m n q s r
    unfold trilinearAt
    rw [b, b]
    unfold lerp
    ring
  unfold SpaceValue
  simp only [b, t]
  show (∃ n m : Nat, ∃ r s : ℚ, Locates (f.grid.lon.map u.x.to) (u.x.to x) n r ∧ Locates (f.grid.lat.map u.y.to) (u.y.to y) m s ∧
    ((f.grid.depth.map u.z.to).length ≤ 1 → c * w = c * bilinearAt (f.data i) 0 m n s r) ∧
    (2 ≤ (f.grid.depth.map u.z.to).length → ∃ k : Nat, ∃ q : ℚ, Locates (f.grid.depth.map u.z.to) (u.z.to z) k q ∧ c * w = c * trilinearAt (f.data i) k m n q s r)) ↔ _
  simp only [locates_map, List.length_map, mul_right_inj' hc]

theorem time_change (u : Units) (c : ℚ) (T : List ℚ) (e : Bool) (t : ℚ) (v : Nat → ℚ) (w : ℚ) (hc : c ≠ 0) :
    TimeValue (T.map u.t.to) e (u.t.to t) (fun i => c * v i) (c * w) ↔ TimeValue T e t v w := by
  unfold TimeValue
  have h1 : ∀ i : Nat, (T.map u.t.to)[i]? = some (u.t.to t) ↔ T[i]? = some t := by
    intro i
    rw [List.getElem?_map, Option.map_eq_some_iff]
    constructor
    · rintro ⟨a, ha, e⟩
      rw [ha, to_inj u.t e]
    · intro h
      exact ⟨t, h, rfl⟩
  have h2 : ∀ r a b, c * w = lerp r (c * a) (c * b) ↔ w = lerp r a b := by
    intro r a b
    rw [show lerp r (c * a) (c * b) = c * lerp r a b by unfold lerp; ring, mul_right_inj' hc]
  simp only [h1, h2, locates_map, List.length_map, mul_right_inj' hc, List.forall_mem_map, to_le]

theorem value_change (u : Units) (c : ℚ) (hc : c ≠ 0) (f : Fld) (t z y x w : ℚ) :
    FieldValue (change u c f) (u.t.to t) (u.z.to z) (u.y.to y) (u.x.to x) (c * w) ↔ FieldValue f t z y x w := by
  constructor
  · rintro ⟨v, hv, ht⟩
    have e : v = fun i => c * (v i / c) := by
      funext i
      field_simp
    refine ⟨fun i => v i / c, fun i hi => ?_, ?_⟩
    · have := hv i (by rw [show (change u c f).time = f.time.map u.t.to from rfl, List.length_map]; exact hi)
      rw [← space_change u c hc, show c * (v i / c) = v i by field_simp]
      exact this
    · rw [e] at ht
      exact (time_change u c _ _ _ _ _ hc).mp ht
  · rintro ⟨v, hv, ht⟩
    refine ⟨fun i => c * v i, fun i hi => ?_, (time_change u c _ _ _ _ _ hc).mpr ht⟩
    rw [show (change u c f).time = f.time.map u.t.to from rfl, List.length_map] at hi
    exact (space_change u c hc f i z y x (v i)).mpr (hv i hi)

theorem sound_change (u : Units) (c : ℚ) {f : Fld} (h : Sound f) : Sound (change u c f) where
  flat := h.flat
  noHalo := h.noHalo
  mom5 := h.mom5
  lonInc := increasing_map u.x h.lonInc
  lonLen := by show 2 ≤ (f.grid.lon.map u.x.to).length; rw [List.length_map]; exact h.lonLen
  latInc := increasing_map u.y h.latInc
  latLen := by show 2 ≤ (f.grid.lat.map u.y.to).length; rw [List.length_map]; exact h.latLen
  depth := by
    refine h.depth.imp (fun c => ?_) (increasing_map u.z)
    show (f.grid.depth.map u.z.to).length ≤ 1
    rw [List.length_map]
    exact c
  timeInc := increasing_map u.t h.timeInc
  timeLen := by show 1 ≤ (f.time.map u.t.to).length; rw [List.length_map]; exact h.timeLen
  fits := by
    intro i
    obtain ⟨a, b, d⟩ := h.fits i
    refine ⟨?_, ?_, ?_⟩
    · show (f.data i).nx = (f.grid.lon.map u.x.to).length
      rw [List.length_map, a]
    · show (f.data i).ny = (f.grid.lat.map u.y.to).length
      rw [List.length_map, b]
    · show (f.data i).nz = (f.grid.depth.map u.z.to).length
      rw [List.length_map, d]

theorem grids_change (u : Units) (c : Nat → ℚ) {fs : Nat → Fld} (h : Grids fs) : Grids fun i => change u (c i) (fs i) := by
  intro i j e
  obtain ⟨a, b⟩ := h i j e
  unfold change
  simp only [a, b, and_self]

theorem hints_change (u : Units) (c : Nat → ℚ) {fs : Nat → Fld} {hs : Nat → Hint} (h : Hints fs hs) : Hints (fun i => change u (c i) (fs i)) hs := by
  intro i
  obtain ⟨a, b, d, e⟩ := h i
  unfold change
  simp only [List.length_map]
  exact ⟨a, b, d, e⟩

theorem follow_convert {u : Units} {c : Nat → ℚ} (hc : ∀ i, c i ≠ 0) {g : V → V} {val val' : Nat → (t z y x : ℚ) → Option ℚ}
    (hv : ∀ i t z y x, val' i (u.t.to t) (u.z.to z) (u.y.to y) (u.x.to x) = (val i t z y x).map (c i * ·)) : ∀ p : Prog V, follow val' (convert u c g p) = (follow val p).map g := by
  intro p
  induction p with
  | ret v => rfl
  | fail e => rfl
  | get f t z y x k ih =>
    rw [convert, follow, follow, hv]
    cases val f t z y x with
    | none => rfl
    | some w =>
      show follow val' (convert u c g (k (c f * w / c f))) = (follow val (k w)).map g
      rw [mul_div_cancel_left₀ w (hc f)]
      exact ih w

/-- One step in the two systems of units. -/
def Alike (u : Units) (g : V → V) (f f' : Scheme V) : Prop :=
  ∀ t dt v, f' (u.t.to t) (u.t.scale * dt) (g v) = (f t dt v).map g

theorem ref_alike {u : Units} {c : Nat → ℚ} (hc : ∀ i, c i ≠ 0) {g : V → V} {fs : Nat → Fld} {val val' : Nat → (t z y x : ℚ) → Option ℚ} (hv : Interpolates fs val)
    (hv' : Interpolates (fun i => change u (c i) (fs i)) val') {b : Body V} (hb : Covariant u c g b) : Alike u g (refScheme val b) (refScheme val' b) := by
  intro t dt v
  have e : ∀ i t z y x, val' i (u.t.to t) (u.z.to z) (u.y.to y) (u.x.to x) = (val i t z y x).map (c i * ·) := by
    intro i t z y x
    ext w
    show val' i _ _ _ _ = some w ↔ (val i t z y x).map (c i * ·) = some w
    rw [hv', Option.map_eq_some_iff]
    have hw : w = c i * (w / c i) := by rw [mul_div_cancel₀]; exact hc i
    constructor
    · intro h
      rw [hw] at h
      exact ⟨w / c i, (hv i t z y x _).mpr ((value_change u (c i) (hc i) _ _ _ _ _ _).mp h), hw.symm⟩
    · rintro ⟨w', h, rfl⟩
      exact (value_change u (c i) (hc i) _ _ _ _ _ _).mpr ((hv i t z y x _).mp h)
  unfold refScheme
  rw [hb, follow_convert hc e]
  cases follow val (b t dt v) <;> rfl

theorem solution_alike {u : Units} {g : V → V} {f f' : Scheme V} (h : Alike u g f f') (dt : ℚ) : ∀ (n : Nat) (t : ℚ) (v : V),
    solution f' (u.t.scale * dt) n (u.t.to t) (g v) = (solution f dt n t v).map g := by
  intro n
  induction n with
  | zero => intro t v; rfl
  | succ n ih =>
    intro t v
    rw [solution, solution, h]
    cases f t dt v with
    | error e => rfl
    | ok v' =>
      show solution f' (u.t.scale * dt) n (u.t.to t + u.t.scale * dt) (g v') = _
      rw [show u.t.to t + u.t.scale * dt = u.t.to (t + dt) by unfold Axis.to; ring]
      exact ih _ _

theorem sgn_scale {a : ℚ} (ha : 0 < a) (x : ℚ) : sgn (a * x) = sgn x := by
  unfold sgn
  have h1 : 0 < a * x ↔ 0 < x := by constructor <;> intro h <;> nlinarith [mul_pos ha (show (0:ℚ) < 1 by norm_num), mul_pos_iff_of_pos_left (b := x) ha]
  have h2 : a * x < 0 ↔ x < 0 := mul_neg_iff.trans ⟨fun h => h.elim (·.2) fun h => absurd h.1 (not_lt.mpr ha.le), fun h => Or.inl ⟨ha, h⟩⟩
  simp only [h1, h2]

theorem started (a : Axis) (s t dt : ℚ) : 0 < (a.to s - a.to t) * sgn (a.scale * dt) ↔ 0 < (s - t) * sgn dt := by
  rw [sgn_scale a.pos, show (a.to s - a.to t) * sgn dt = a.scale * ((s - t) * sgn dt) by unfold Axis.to; ring]
  exact mul_pos_iff_of_pos_left a.pos

theorem trajectory_alike {u : Units} {g : V → V} {f f' : Scheme V} (h : Alike u g f f') (dt t : ℚ) (q : TP V) :
    trajectory f' (u.t.scale * dt) (u.t.to t) (moved u g q) = (trajectory f dt t q).map (read u g) := by
  unfold trajectory
  have e : (0 < ((moved u g q).2.time - u.t.to t) * sgn (u.t.scale * dt)) ↔ (0 < (q.2.time - t) * sgn dt) := started u.t q.2.time t dt
  by_cases c : 0 < (q.2.time - t) * sgn dt
  · rw [if_pos c, if_pos (e.mpr c)]
    rfl
  · rw [if_neg c, if_neg (fun h => c (e.mp h))]
    show Option.map _ (solution f' (u.t.scale * dt) ⌊(u.t.to t - u.t.to q.2.time) / (u.t.scale * dt)⌋₊ (u.t.to q.2.time) (g q.2.vars)) = _
    rw [show (u.t.to t - u.t.to q.2.time) / (u.t.scale * dt) = (t - q.2.time) / dt by
      unfold Axis.to
      rw [show u.t.scale * t + u.t.shift - (u.t.scale * q.2.time + u.t.shift) = u.t.scale * (t - q.2.time) by ring]
      exact mul_div_mul_left _ _ u.t.pos.ne', solution_alike h, Option.map_map, Option.map_map]
    rfl

theorem record_alike {u : Units} {g : V → V} {f f' : Scheme V} (h : Alike u g f f') (dt t : ℚ) (q : TP V) :
    record f' (u.t.scale * dt) (u.t.to t) (moved u g q) = (record f dt t q).map (read u g) := by
  unfold record
  have e : (0 < ((moved u g q).2.time - u.t.to t) * sgn (u.t.scale * dt)) ↔ (0 < (q.2.time - t) * sgn dt) := started u.t q.2.time t dt
  by_cases c : 0 < (q.2.time - t) * sgn dt
  · rw [if_pos c, if_pos (e.mpr c)]
    rfl
  · rw [if_neg c, if_neg (fun h => c (e.mp h))]
    exact trajectory_alike h dt t q

theorem outputTimes_to (a : Axis) (S dt i : ℚ) (N : ℕ) : outputTimes (a.to S) (a.scale * dt) (a.scale * i) N = (outputTimes S dt i N).map a.to := by
  have e : N * |a.scale * dt| / (a.scale * i) = N * |dt| / i := by
    rw [abs_mul, abs_of_pos a.pos, show (N : ℚ) * (a.scale * |dt|) = a.scale * (N * |dt|) by ring]
    exact mul_div_mul_left _ _ a.pos.ne'
  have e2 : ((⌊N * |dt| / i⌋₊ : ℚ) * (a.scale * i) = N * |a.scale * dt|) ↔ ((⌊N * |dt| / i⌋₊ : ℚ) * i = N * |dt|) := by
    rw [abs_mul, abs_of_pos a.pos, show (N : ℚ) * (a.scale * |dt|) = a.scale * (N * |dt|) by ring, show (⌊N * |dt| / i⌋₊ : ℚ) * (a.scale * i) = a.scale * (⌊N * |dt| / i⌋₊ * i) by ring]
    exact mul_right_inj' a.pos.ne'
  unfold outputTimes
  rw [e, List.map_append, List.map_map, sgn_scale a.pos]
  congr 1
  · refine List.map_congr_left fun k _ => ?_
    show a.to S + _ = a.to (S + _)
    unfold Axis.to
    ring
  · by_cases d : (⌊N * |dt| / i⌋₊ : ℚ) * i = N * |dt|
    · rw [if_pos d, if_pos (e2.mpr d)]
      rfl
    · rw [if_neg d, if_neg (fun h => d (e2.mp h))]
      show [a.to S + N * (a.scale * dt)] = [a.to (S + N * dt)]
      congr 1
      unfold Axis.to
      ring

theorem filterMap_moved {u : Units} {g : V → V} (f f' : TP V → Option (Nat × ℚ × V)) (h : ∀ q, f' (moved u g q) = (f q).map (read u g)) (ps : List (TP V)) :
    (ps.map (moved u g)).filterMap f' = (ps.filterMap f).map (read u g) := by
  rw [List.filterMap_map, List.map_filterMap]
  congr 1
  funext q
  exact h q

theorem velocity_ne (u : Units) (i : Nat) : velocity u i ≠ 0 := by
  unfold velocity
  have := u.x.pos
  have := u.y.pos
  have := u.z.pos
  have := u.t.pos
  split <;> positivity

theorem hop (a b : Axis) (x w d : ℚ) : a.to x + w * (b.scale * d) = a.to (x + w / (a.scale / b.scale) * d) := by
  have := a.pos.ne'
  have := b.pos.ne'
  unfold Axis.to
  field_simp
  ring

theorem hop_half (a b : Axis) (x w d : ℚ) : a.to x + w * (1 / 2) * (b.scale * d) = a.to (x + w / (a.scale / b.scale) * (1 / 2) * d) := by
  rw [hop]
  congr 1
  ring

theorem hop_sixth (a b : Axis) (x w1 w2 w3 w4 d : ℚ) : a.to x + (w1 + 2 * w2 + 2 * w3 + w4) / 6 * (b.scale * d) =
    a.to (x + (w1 / (a.scale / b.scale) + 2 * (w2 / (a.scale / b.scale)) + 2 * (w3 / (a.scale / b.scale)) + w4 / (a.scale / b.scale)) / 6 * d) := by
  rw [hop]
  congr 1
  ring

theorem tick (a : Axis) (t d : ℚ) : a.to t + a.scale * d = a.to (t + d) := by
  unfold Axis.to
  ring

theorem tick_half (a : Axis) (t d : ℚ) : a.to t + 1 / 2 * (a.scale * d) = a.to (t + 1 / 2 * d) := by
  unfold Axis.to
  ring

theorem covariant_ee (u : Units) : Covariant u (velocity u) (position u) GridRun.ee := by
  intro t dt p
  unfold GridRun.ee GridRun.uv
  simp only [convert, position, velocity, hop]

theorem covariant_rk4 (u : Units) : Covariant u (velocity u) (position u) GridRun.rk4 := by
  intro t dt p
  unfold GridRun.rk4 GridRun.uv
  simp only [convert, position, velocity, hop_half, hop_sixth, tick_half]
  simp only [hop, tick]

theorem covariant_rk4_3D (u : Units) : Covariant u (velocity u) (position u) GridRun.rk4_3D := by
  intro t dt p
  unfold GridRun.rk4_3D GridRun.uvw
  simp only [convert, position, velocity, hop_half, hop_sixth, tick_half]
  simp only [hop, tick]

end Parcels.UnitRun
