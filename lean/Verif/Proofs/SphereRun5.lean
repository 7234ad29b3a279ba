import Verif.Proofs.SphereRun4

namespace Parcels.SphereRun

open Search Interp TimeInterp
open GridRun (Fld Hint HintOk Prog Body TimeValue follow refScheme strip bare snap remember rk4 uv)
open KernelLoop (Exc)
open WholeRun (Scheme solution trajectory record core)
open Recovery (TP)

variable {V : Type}

/-! ### Samples on an axis without jump -/

theorem scipy_depth {f : Fld} {U : List ℚ} (hf : Sound f U) {x y z : ℚ} (hx : Places f.grid U x) {p : Pos} (hp : searchRect f.grid x y z = .ok p) :
    InRange f.grid.lat y ∧ DepthOk f.grid z := by
  obtain ⟨h1, h2⟩ := scipy_checks hf hp
  refine ⟨h2, fun c => ?_⟩
  obtain ⟨q1, q2, -⟩ := C26_scipy_found_3D_partial f.grid U hf.sphere (Or.inl (hf.depth.resolve_left (by omega))) c hf.mom5 x y z h1 h2 hx.on
  refine ⟨fun hb => ?_, fun hb => ?_⟩
  · rw [q1 hb] at hp; cases hp
  · rw [q2 hb] at hp; cases hp

theorem jit_depth {f : Fld} {U : List ℚ} (hf : Sound f U) {x y z : ℚ} (hx : Places f.grid U x) {h : Hint} (hh : HintOk f h) {p : Pos}
    (hp : cSearchRect f.grid x y z h.xi h.yi h.zi = .ok p) : InRange f.grid.lat y ∧ DepthOk f.grid z := by
  obtain ⟨h1, h2⟩ := jit_checks hf hp
  refine ⟨h2, fun c => ?_⟩
  obtain ⟨i, r, -, -, e⟩ := jit_start hf hx h2 z hh
  rw [e, if_pos (by omega)] at hp
  obtain ⟨q1, q2, -⟩ := C25_z_levels_jit f.grid.depth (Or.inl (hf.depth.resolve_left (by omega))) c z h.zi hh.2.2.1
  refine ⟨fun hb => ?_, fun hb => ?_⟩
  · rw [q1 hb] at hp; cases hp
  · rw [q2 hb] at hp; cases hp

/-- Where both modes look, sampling in Scipy mode gives the value if there is one, and fails otherwise. -/
theorem eval_places {f : SFld} {U : List ℚ} (hf : Sound f.fld U) (cosd : ℚ → ℚ) {t z y x w : ℚ} (hx : Places f.fld.grid U x) :
    eval cosd f t z y x = .ok w ↔ FieldValue cosd f t z y x w := by
  refine ⟨fun h => ?_, eval_value hf cosd hx⟩
  cases hp : searchRect f.fld.grid x y z with
  | ok p =>
    obtain ⟨h2, h3⟩ := scipy_depth hf hx hp
    exact eval_back hf cosd hx h2 h3 h
  | error e =>
    exfalso
    have hs : ∀ i, snap f.fld z y x i = .error e := by
      intro i
      unfold snap sample
      rw [hp]
    obtain ⟨e', h'⟩ := GridRun.evalTime_err (TAxis.full f.fld.time false f.fld.extrap) _ e hs t
    unfold eval GridRun.eval at h
    rw [h'] at h
    cases h

theorem cEval_places {f : SFld} {U : List ℚ} (hf : Sound f.fld U) (cosd : ℚ → ℚ) {hi : Hint} (hh : HintOk f.fld hi) {t z y x w : ℚ}
    (hx : Places f.fld.grid U x) : (∃ h', cEval cosd f t z y x hi = .ok (w, h')) ↔ FieldValue cosd f t z y x w := by
  refine ⟨fun ⟨h', h⟩ => ?_, fun h => ⟨_, cEval_value hf cosd hx h hh⟩⟩
  cases hp : cSearchRect f.fld.grid x y z hi.xi hi.yi hi.zi with
  | ok p =>
    obtain ⟨h2, h3⟩ := jit_depth hf hx hh hp
    exact cEval_back hf cosd hx h2 h3 hh h
  | error e =>
    exfalso
    have hs : ∀ i, cSample f.fld.grid .nemo .linear (f.fld.data i) x y z hi.xi hi.yi hi.zi = .error e := by
      intro i
      unfold cSample
      rw [hp]
    have hn := GridRun.cEvalTime_err (TAxis.full f.fld.time false f.fld.extrap) _ e hs 1 t hi.ti
    unfold cEval GridRun.cEval at h
    split at h
    · rename_i v hv
      split at hv
      · rename_i v' hv'; exact hn v' hv'
      · cases hv
      · cases hv
    · cases h

theorem places_inc {f : Fld} {U : List ℚ} (hf : Sound f U) (hU : f.grid.lon = U) {x : ℚ} (h0 : U.headD 0 ≤ x) (h1 : x ≤ U.getLastD 0) :
    Places f.grid U x := by
  have hinc := eastward_inc hf.sphere.lon
  have hlen := eastward_len hf.sphere.lon
  refine ⟨Or.inr ?_, Or.inl ⟨by simpa using h0, by simpa using h1⟩⟩
  rw [hU] at hlen ⊢
  rw [inRange_inc hinc hlen, ← headD_getD, ← getLastD_getD]
  exact ⟨h0, h1⟩

/-! ### Programs that stay on the axis -/

/-- All samples of fields 0 and 1 the program makes are at longitudes from `lo` to `hi`, and of no other fields. -/
def Stays (val : Nat → (t z y x : ℚ) → Option ℚ) (lo hi : ℚ) : Prog V → Prop
  | .ret _ => True
  | .fail _ => True
  | .get f t z y x k => (f = 0 ∨ f = 1) ∧ lo ≤ x ∧ x ≤ hi ∧ ∀ w, val f t z y x = some w → Stays val lo hi (k w)

theorem stays_scipy {fs : Nat → SFld} {U : Nat → List ℚ} (hf : ∀ i, Sound (fs i).fld (U i)) {lo hi : ℚ} (hs : Spans fs U lo hi) {cosd : ℚ → ℚ}
    {val : Nat → (t z y x : ℚ) → Option ℚ} (hv : Everywhere cosd fs val) : ∀ p : Prog V, Stays val lo hi p →
      (∀ v, follow val p = some v → scipy cosd fs p = .ok v) ∧ (follow val p = none → ∃ e, scipy cosd fs p = .error e) := by
  intro p
  induction p with
  | ret v => exact fun _ => ⟨fun w h => by rw [← Option.some.inj h]; rfl, fun h => by cases h⟩
  | fail e => exact fun _ => ⟨fun w h => (by cases h), fun _ => ⟨e, rfl⟩⟩
  | get f t z y x k ih =>
    rintro ⟨h01, hlo, hhi, hk⟩
    obtain ⟨s1, s2, s3⟩ := hs f h01
    have hP := places_inc (hf f) s1 (s2.trans hlo) (hhi.trans s3)
    rw [follow, scipy]
    cases hw : val f t z y x with
    | none =>
      refine ⟨fun w h => (by cases h), fun _ => ?_⟩
      cases he : eval cosd (fs f) t z y x with
      | error e => exact ⟨e, rfl⟩
      | ok w =>
        rw [eval_places (hf f) cosd hP, ← hv, hw] at he
        cases he
    | some w =>
      rw [(eval_places (hf f) cosd hP).mpr ((hv _ _ _ _ _ _).mp hw)]
      exact ih w (hk w hw)

theorem stays_jit {fs : Nat → SFld} {U : Nat → List ℚ} (hf : ∀ i, Sound (fs i).fld (U i)) (hg : Grids fs) {lo hi : ℚ} (hs : Spans fs U lo hi)
    {cosd : ℚ → ℚ} {val : Nat → (t z y x : ℚ) → Option ℚ} (hv : Everywhere cosd fs val) : ∀ (p : Prog V) (hs : Nat → Hint), Hints fs hs →
      Stays val lo hi p → (∀ v, follow val p = some v → ∃ hs', jit cosd fs p hs = .ok (v, hs') ∧ Hints fs hs') ∧
      (follow val p = none → ∃ e, jit cosd fs p hs = .error e) := by
  intro p
  induction p with
  | ret v => exact fun hs hh _ => ⟨fun w h => ⟨hs, by rw [← Option.some.inj h]; rfl, hh⟩, fun h => by cases h⟩
  | fail e => exact fun hs hh _ => ⟨fun w h => (by cases h), fun _ => ⟨e, rfl⟩⟩
  | get f t z y x k ih =>
    rintro h hh ⟨h01, hlo, hhi, hk⟩
    obtain ⟨s1, s2, s3⟩ := hs f h01
    have hP := places_inc (hf f) s1 (s2.trans hlo) (hhi.trans s3)
    have hf' : HintOk (fs f).fld (h (fs f).fld.igrid) := GridRun.hint_ok hh f
    rw [follow, jit]
    cases hw : val f t z y x with
    | none =>
      refine ⟨fun w h => (by cases h), fun _ => ?_⟩
      cases he : cEval cosd (fs f) t z y x (h (fs f).fld.igrid) with
      | error e => exact ⟨e, rfl⟩
      | ok r =>
        obtain ⟨w, h'⟩ := r
        have := (cEval_places (hf f) cosd hf' hP).mp ⟨h', he⟩
        rw [← hv, hw] at this
        cases this
    | some w =>
      have h2 := (hv _ _ _ _ _ _).mp hw
      obtain ⟨h3, h4⟩ := value_covers (hf f) h2
      rw [cEval_value (hf f) cosd hP h2 hf']
      exact ih w _ (GridRun.hints_update hg hh f (remember_ok (hf f) t hP h3 h4 hf')) (hk w hw)

theorem scipy_andThen (cosd : ℚ → ℚ) (fs : Nat → SFld) (g : V → V) (p : Prog V) :
    scipy cosd fs (andThen g p) = match scipy cosd fs p with | .ok v => .ok (g v) | .error e => .error e := by
  induction p with
  | ret v => rfl
  | fail e => rfl
  | get f t z y x k ih =>
    rw [andThen, scipy, scipy]
    cases eval cosd (fs f) t z y x with
    | error e => rfl
    | ok w => exact ih w

theorem jit_andThen (cosd : ℚ → ℚ) (fs : Nat → SFld) (g : V → V) (p : Prog V) : ∀ hs : Nat → Hint,
    jit cosd fs (andThen g p) hs = match jit cosd fs p hs with | .ok (v, h) => .ok (g v, h) | .error e => .error e := by
  induction p with
  | ret v => intro hs; rfl
  | fail e => intro hs; rfl
  | get f t z y x k ih =>
    intro hs
    rw [andThen, jit, jit]
    cases cEval cosd (fs f) t z y x (hs (fs f).fld.igrid) with
    | error e => rfl
    | ok w => obtain ⟨w, h⟩ := w; exact ih w _

/-! ### Full turns -/

theorem locates_turn {l : List ℚ} {x : ℚ} {i : ℤ} {r : ℚ} (k : ℤ) (h : LocatesMod360 l (x + 360 * k) i r) : LocatesMod360 l x i r := by
  obtain ⟨n, a, b, w, p, q, h1, h2, h3, h4, h5, h6, h7, h8, h9⟩ := h
  exact ⟨n, a, b, w, p, q + k, h1, h2, h3, h4, h5, h6, h7, h8, by push_cast; linarith⟩

theorem locates_turn_iff {l : List ℚ} {x : ℚ} {i : ℤ} {r : ℚ} (k : ℤ) : LocatesMod360 l (x + 360 * k) i r ↔ LocatesMod360 l x i r := by
  refine ⟨locates_turn k, fun h => locates_turn (-k) ?_⟩
  rwa [show x + 360 * (k : ℚ) + 360 * ((-k : ℤ) : ℚ) = x by push_cast; ring]

theorem value_turn {cosd : ℚ → ℚ} {f : SFld} {t z y x w : ℚ} (k : ℤ) : FieldValue cosd f t z y (x + 360 * k) w ↔ FieldValue cosd f t z y x w := by
  unfold FieldValue SpaceValue
  simp only [locates_turn_iff]

theorem everywhere_turn {cosd : ℚ → ℚ} {fs : Nat → SFld} {val : Nat → (t z y x : ℚ) → Option ℚ} (hv : Everywhere cosd fs val) (i : Nat) (t z y x : ℚ) (k : ℤ) :
    val i t z y (x + 360 * k) = val i t z y x := by
  cases h : val i t z y x with
  | none =>
    cases h' : val i t z y (x + 360 * k) with
    | none => rfl
    | some w =>
      rw [hv, value_turn, ← hv, h] at h'
      cases h'
  | some w =>
    rw [hv] at h
    rw [hv, value_turn]
    exact h

/-- A position moved east. -/
def shift (c : ℚ) (p : ℚ × ℚ × ℚ) : ℚ × ℚ × ℚ := (p.1 + c, p.2)

/-- A program with all longitudes moved east. -/
def shiftP (c : ℚ) : Prog (ℚ × ℚ × ℚ) → Prog (ℚ × ℚ × ℚ)
  | .ret v => .ret (shift c v)
  | .fail e => .fail e
  | .get f t z y x k => .get f t z y (x + c) fun w => shiftP c (k w)

theorem follow_shiftP {val : Nat → (t z y x : ℚ) → Option ℚ} {c : ℚ} (hc : ∀ i t z y x, val i t z y (x + c) = val i t z y x)
    (p : Prog (ℚ × ℚ × ℚ)) : follow val (shiftP c p) = (follow val p).map (shift c) := by
  induction p with
  | ret v => rfl
  | fail e => rfl
  | get f t z y x k ih =>
    rw [shiftP, follow, follow, hc]
    cases val f t z y x with
    | none => rfl
    | some w => exact ih w

theorem rk4_shiftP (c t dt : ℚ) (p : ℚ × ℚ × ℚ) : rk4 t dt (shift c p) = shiftP c (rk4 t dt p) := by
  have e : ∀ a u : ℚ, ∀ w : ℚ, a + c + u * w * dt = a + u * w * dt + c := fun a u w => by ring
  have e' : ∀ a u : ℚ, a + c + u * dt = a + u * dt + c := fun a u => by ring
  unfold rk4 uv shift
  simp only [shiftP, shift, e, e']

theorem rk4_turn {val : Nat → (t z y x : ℚ) → Option ℚ} {c : ℚ} (hc : ∀ i t z y x, val i t z y (x + c) = val i t z y x) (t dt : ℚ) (p : ℚ × ℚ × ℚ) :
    follow val (rk4 t dt (shift c p)) = (follow val (rk4 t dt p)).map (shift c) := by
  rw [rk4_shiftP, follow_shiftP hc]

/-! ### Steps of the Runge-Kutta kernel -/

theorem near {u x dt h west : ℚ} (hu : |u| * |dt| ≤ h) (h0 : west ≤ x) (h1 : x ≤ west + 360) {w : ℚ} (w0 : 0 ≤ w) (w1 : w ≤ 1) :
    west - h ≤ x + u * w * dt ∧ x + u * w * dt ≤ west + 360 + h := by
  have : |u * w * dt| ≤ h := by
    rw [show u * w * dt = w * (u * dt) by ring, abs_mul, abs_mul, abs_of_nonneg w0]
    have : 0 ≤ |u| * |dt| := mul_nonneg (abs_nonneg _) (abs_nonneg _)
    nlinarith
  obtain ⟨a, b⟩ := abs_le.mp this
  constructor <;> linarith

/-- With steps of at most `h` degrees, no sample is further than `h` from where the particle is. -/
theorem rk4_stays {val : Nat → (t z y x : ℚ) → Option ℚ} {dt h west : ℚ} (hh : 0 ≤ h) (hu : ∀ t z y x w, val 0 t z y x = some w → |w| * |dt| ≤ h)
    (t : ℚ) {p : ℚ × ℚ × ℚ} (h0 : west ≤ p.1) (h1 : p.1 ≤ west + 360) : Stays val (west - h) (west + 360 + h) (rk4 t dt p) := by
  have b0 : west - h ≤ p.1 ∧ p.1 ≤ west + 360 + h := ⟨by linarith, by linarith⟩
  unfold rk4 uv
  simp only [Stays, and_true, true_or, or_true, true_and, implies_true, b0, one_ne_zero, zero_ne_one]
  intro u1 hu1 v1 _
  have b1 := near (hu _ _ _ _ _ hu1) h0 h1 (show (0 : ℚ) ≤ 1 / 2 by norm_num) (by norm_num)
  refine ⟨b1.1, b1.2, fun u2 hu2 => ⟨b1.1, b1.2, fun v2 _ => ?_⟩⟩
  have b2 := near (hu _ _ _ _ _ hu2) h0 h1 (show (0 : ℚ) ≤ 1 / 2 by norm_num) (by norm_num)
  refine ⟨b2.1, b2.2, fun u3 hu3 => ⟨b2.1, b2.2, fun v3 _ => ?_⟩⟩
  have b3 := near (hu _ _ _ _ _ hu3) h0 h1 (show (0 : ℚ) ≤ 1 by norm_num) (by norm_num)
  rw [mul_one] at b3
  exact ⟨b3.1, b3.2, fun u4 hu4 => ⟨b3.1, b3.2⟩⟩

theorem rk4_ends {val : Nat → (t z y x : ℚ) → Option ℚ} {dt h west : ℚ} (hu : ∀ t z y x w, val 0 t z y x = some w → |w| * |dt| ≤ h)
    {t : ℚ} {p v : ℚ × ℚ × ℚ} (h0 : west ≤ p.1) (h1 : p.1 ≤ west + 360) (hv : follow val (rk4 t dt p) = some v) :
    west - h ≤ v.1 ∧ v.1 ≤ west + 360 + h := by
  unfold rk4 uv at hv
  simp only [follow] at hv
  split at hv
  · cases hv
  rename_i u1 e1
  split at hv
  · cases hv
  rename_i v1 f1
  split at hv
  · cases hv
  rename_i u2 e2
  split at hv
  · cases hv
  rename_i v2 f2
  split at hv
  · cases hv
  rename_i u3 e3
  split at hv
  · cases hv
  rename_i v3 f3
  split at hv
  · cases hv
  rename_i u4 e4
  split at hv
  · cases hv
  rename_i v4 f4
  injection hv with hv
  have a1 := near (hu _ _ _ _ _ e1) h0 h1 (show (0 : ℚ) ≤ 1 by norm_num) (by norm_num)
  have a2 := near (hu _ _ _ _ _ e2) h0 h1 (show (0 : ℚ) ≤ 1 by norm_num) (by norm_num)
  have a3 := near (hu _ _ _ _ _ e3) h0 h1 (show (0 : ℚ) ≤ 1 by norm_num) (by norm_num)
  have a4 := near (hu _ _ _ _ _ e4) h0 h1 (show (0 : ℚ) ≤ 1 by norm_num) (by norm_num)
  rw [← hv]
  dsimp only
  have : p.1 + (u1 + 2 * u2 + 2 * u3 + u4) / 6 * dt =
    ((p.1 + u1 * 1 * dt) + 2 * (p.1 + u2 * 1 * dt) + 2 * (p.1 + u3 * 1 * dt) + (p.1 + u4 * 1 * dt)) / 6 := by ring
  rw [this]
  constructor <;> linarith [a1.1, a2.1, a3.1, a4.1, a1.2, a2.2, a3.2, a4.2]

theorem same_wrap {west h : ℚ} (hh : h ≤ 360) {p q v : ℚ × ℚ × ℚ} (hv : v = p ∨ ∃ k : ℤ, v = shift (360 * k) p) (h0 : west - h ≤ v.1) (h1 : v.1 ≤ west + 360 + h)
    (hq : q = wrap west (west + 360) v) : Same west p q := by
  obtain ⟨k, hv⟩ : ∃ k : ℤ, v = shift (360 * k) p := by
    rcases hv with hv | hv
    · exact ⟨0, by rw [hv]; simp [shift]⟩
    · exact hv
  have e1 : v.1 = p.1 + 360 * k := by rw [hv]; rfl
  have e2 : v.2 = p.2 := by rw [hv]; rfl
  subst hq
  unfold wrap
  split_ifs with c1 c2
  · exact ⟨⟨k + 1, by show v.1 + _ = _; rw [e1]; push_cast; ring⟩, e2, by show _ ≤ v.1 + _; linarith, by show v.1 + _ ≤ _; linarith⟩
  · exact ⟨⟨k - 1, by show v.1 - _ = _; rw [e1]; push_cast; ring⟩, e2, by show _ ≤ v.1 - _; linarith, by show v.1 - _ ≤ _; linarith⟩
  · exact ⟨⟨k, e1⟩, e2, by linarith, by linarith⟩

theorem global_scipy {fs : Nat → SFld} {U : Nat → List ℚ} (hf : ∀ i, Sound (fs i).fld (U i)) {west h dt : ℚ} (hh : 0 ≤ h) (hh' : h ≤ 360)
    (hs : Spans fs U (west - h) (west + 360 + h)) {cosd : ℚ → ℚ} {val : Nat → (t z y x : ℚ) → Option ℚ} (hv : Everywhere cosd fs val)
    (hu : ∀ t z y x w, val 0 t z y x = some w → |w| * |dt| ≤ h) : ∀ (n : Nat) (t : ℚ) (p q : ℚ × ℚ × ℚ), Same west p q →
      match solution (refScheme val rk4) dt n t p, solution (scipyScheme cosd fs (periodic west (west + 360) rk4)) dt n t q with
      | some p', some q' => Same west p' q'
      | none, none => True
      | _, _ => False := by
  intro n
  induction n with
  | zero => intro t p q hpq; exact hpq
  | succ n ih =>
    intro t p q hpq
    obtain ⟨⟨k, e1⟩, e2, b0, b1⟩ := hpq
    have hq : q = shift (360 * k) p := by unfold shift; rw [← e1, ← e2]
    have hturn := rk4_turn (val := val) (c := 360 * k) (fun i t z y x => everywhere_turn hv i t z y x k) t dt p
    rw [← hq] at hturn
    obtain ⟨s1, s2⟩ := stays_scipy hf hs hv (rk4 t dt q) (rk4_stays hh hu t b0 b1)
    rw [solution, solution]
    unfold refScheme scipyScheme periodic
    rw [scipy_andThen]
    cases hw : follow val (rk4 t dt p) with
    | none =>
      rw [hw] at hturn
      obtain ⟨e, he⟩ := s2 hturn
      rw [he]
      trivial
    | some p' =>
      rw [hw] at hturn
      have b := rk4_ends hu b0 b1 hturn
      rw [s1 _ hturn]
      exact ih _ _ _ (same_wrap hh' (Or.inr ⟨k, rfl⟩) b.1 b.2 rfl)

theorem global_jit {fs : Nat → SFld} {U : Nat → List ℚ} (hf : ∀ i, Sound (fs i).fld (U i)) (hg : Grids fs) {west h dt : ℚ} (hh : 0 ≤ h) (hh' : h ≤ 360)
    (hs : Spans fs U (west - h) (west + 360 + h)) {cosd : ℚ → ℚ} {val : Nat → (t z y x : ℚ) → Option ℚ} (hv : Everywhere cosd fs val)
    (hu : ∀ t z y x w, val 0 t z y x = some w → |w| * |dt| ≤ h) : ∀ (n : Nat) (t : ℚ) (p q : ℚ × ℚ × ℚ) (hi : Nat → Hint), Hints fs hi → Same west p q →
      match solution (refScheme val rk4) dt n t p, solution (jitScheme cosd fs (periodic west (west + 360) rk4)) dt n t (q, hi) with
      | some p', some q' => Same west p' q'.1
      | none, none => True
      | _, _ => False := by
  intro n
  induction n with
  | zero => intro t p q hi _ hpq; exact hpq
  | succ n ih =>
    intro t p q hi hhi hpq
    obtain ⟨⟨k, e1⟩, e2, b0, b1⟩ := hpq
    have hq : q = shift (360 * k) p := by unfold shift; rw [← e1, ← e2]
    have hturn := rk4_turn (val := val) (c := 360 * k) (fun i t z y x => everywhere_turn hv i t z y x k) t dt p
    rw [← hq] at hturn
    obtain ⟨s1, s2⟩ := stays_jit hf hg hs hv (rk4 t dt q) hi hhi (rk4_stays hh hu t b0 b1)
    rw [solution, solution]
    unfold refScheme jitScheme periodic
    dsimp only
    rw [jit_andThen]
    cases hw : follow val (rk4 t dt p) with
    | none =>
      rw [hw] at hturn
      obtain ⟨e, he⟩ := s2 hturn
      rw [he]
      trivial
    | some p' =>
      rw [hw] at hturn
      have b := rk4_ends hu b0 b1 hturn
      obtain ⟨hi', he, hhi'⟩ := s1 _ hturn
      rw [he]
      exact ih _ _ _ _ hhi' (same_wrap hh' (Or.inr ⟨k, rfl⟩) b.1 b.2 rfl)

end Parcels.SphereRun
