import Verif.Proofs.DriftRun
import Verif.Props.GridRun
import Verif.Props.AdaptiveRun

/-!
C111: no particle is faster than the data.
-/

namespace Parcels.DriftRun

open GridRun
open Search Interp
open KernelLoop (Exc)
open Recovery (TP RMap)
open WholeRun (Opts Run Exec St execute scipyExec jitExec kernel records)
open RepairRun (Act Recovers)
open PathRun (Account Starts endOf)

section Grids

variable {fs : Nat → Fld} (hf : ∀ i, Sound (fs i)) {lo hi : Nat → ℚ} (hb : ∀ i, Within (fs i) (lo i) (hi i)) {b : Body (ℚ × ℚ × ℚ)} {zl zh : ℚ} (ha : Advects lo hi b zl zh)
  {o : Opts} {S : ℚ} (fuel : ℕ) (file : Output.PFile)

include hf hb ha

theorem bounds_le : lo 0 ≤ hi 0 ∧ lo 1 ≤ hi 1 ∧ zl ≤ zh := by
  refine ⟨within_le (hf 0) (hb 0), within_le (hf 1) (hb 1), ?_⟩
  rcases ha with ⟨-, rfl, rfl⟩ | ⟨-, rfl, rfl⟩
  · exact le_rfl
  · exact within_le (hf 2) (hb 2)

/-- C111. In a run with AdvectionEE, AdvectionRK4 or AdvectionRK4_3D on gridded data, in Scipy mode, wherever it is interrupted: the mean velocity of each particle since its start, in each of the three
directions, lies between the smallest and the largest value in the data of that velocity; for each record in the output file too. -/
theorem C111_scipy {act : Act (ℚ × ℚ × ℚ)} {user : RMap Unit (ℚ × ℚ × ℚ)} {raises : Bool} (hu : Recovers user act raises) (hn : ∀ e t v, act e t v = none)
    {ps : List (TP (ℚ × ℚ × ℚ))} (h : Starts o S ps) (s : St (ℚ × ℚ × ℚ)) (k n : ℕ)
    (hr : execute o (scipyExec (kernel (scipyScheme fs b)) user k n) fuel file ps = some (.done s)) :
    Account (fun q r => r.1 = q.1 ∧ Drift (lo 0) (hi 0) (lo 1) (hi 1) zl zh q.2.time q.2.vars r.2.time r.2.vars) (fun _ => raises = false) ps s.ps ∧
    ∀ c ∈ records s, ∃ q ∈ ps, c.1 = q.1 ∧ Drift (lo 0) (hi 0) (lo 1) (hi 1) zl zh q.2.time q.2.vars c.2.1 c.2.2 := by
  obtain ⟨l1, l2, l3⟩ := bounds_le hf hb ha
  have hm : WholeRun.IsMode (kernel (scipyScheme fs b)) user (scipyExec (kernel (scipyScheme fs b)) user k n) := ⟨k, n, Or.inl rfl⟩
  have key : ∀ (q : TP (ℚ × ℚ × ℚ)) {t' v'}, PathRun.Path (scipyScheme fs b) act o.dt q.2.time q.2.vars t' v' →
      0 ≤ (t' - q.2.time) * sgn o.dt ∧ Drift (lo 0) (hi 0) (lo 1) (hi 1) zl zh q.2.time q.2.vars t' v' := by
    intro q t' v' hp
    refine hp.keeps (fun t' v' => 0 ≤ (t' - q.2.time) * sgn o.dt ∧ Drift (lo 0) (hi 0) (lo 1) (hi 1) zl zh q.2.time q.2.vars t' v')
      ⟨by rw [sub_self, zero_mul], drift_refl l1 l2 l3⟩ ?_ fun t e v v' _ hx => by rw [hn] at hx; cases hx
    rintro t d v v' ⟨hd, -⟩ ⟨i1, i2⟩ he
    refine ⟨?_, drift_step i1 hd i2 (leads_scipy hf hb (b t d v) v' (advects_leads ha t d v) he)⟩
    have : (t + d - q.2.time) * sgn o.dt = (t - q.2.time) * sgn o.dt + d * sgn o.dt := by ring
    rw [this]; linarith
  constructor
  · exact (PathRun.C109_run hu hm h fuel file s hr).imp (fun q _ r _ hp => ⟨hp.1, (key q hp.2).2⟩) fun q _ hg => hg.1
  · intro c hc
    obtain ⟨q, hq, e, hp⟩ := PathRun.C109_records hu hm h fuel file s hr c hc
    exact ⟨q, hq, e, (key q hp).2⟩

/-- C111. The same in JIT mode, where particles remember cells. -/
theorem C111_jit (hg : Grids fs) {act : Act ((ℚ × ℚ × ℚ) × (Nat → Hint))} {user : RMap Unit ((ℚ × ℚ × ℚ) × (Nat → Hint))} {raises : Bool} (hu : Recovers user act raises)
    (hn : ∀ e t v, act e t v = none) {ps : List (TP ((ℚ × ℚ × ℚ) × (Nat → Hint)))} (h : Starts o S ps) (hh : ∀ q ∈ ps, Hints fs q.2.vars.2)
    (s : St ((ℚ × ℚ × ℚ) × (Nat → Hint))) (k n : ℕ) (hr : execute o (jitExec (kernel (jitScheme fs b)) user k n) fuel file ps = some (.done s)) :
    Account (fun q r => r.1 = q.1 ∧ Drift (lo 0) (hi 0) (lo 1) (hi 1) zl zh q.2.time q.2.vars.1 r.2.time r.2.vars.1) (fun _ => raises = false) ps s.ps ∧
    ∀ c ∈ records s, ∃ q ∈ ps, c.1 = q.1 ∧ Drift (lo 0) (hi 0) (lo 1) (hi 1) zl zh q.2.time q.2.vars.1 c.2.1 c.2.2.1 := by
  obtain ⟨l1, l2, l3⟩ := bounds_le hf hb ha
  have hm : WholeRun.IsMode (kernel (jitScheme fs b)) user (jitExec (kernel (jitScheme fs b)) user k n) := ⟨k, n, Or.inr rfl⟩
  have key : ∀ q ∈ ps, ∀ {t' v'}, PathRun.Path (jitScheme fs b) act o.dt q.2.time q.2.vars t' v' →
      Hints fs v'.2 ∧ 0 ≤ (t' - q.2.time) * sgn o.dt ∧ Drift (lo 0) (hi 0) (lo 1) (hi 1) zl zh q.2.time q.2.vars.1 t' v'.1 := by
    intro q hq t' v' hp
    refine hp.keeps (fun t' v' => Hints fs v'.2 ∧ 0 ≤ (t' - q.2.time) * sgn o.dt ∧ Drift (lo 0) (hi 0) (lo 1) (hi 1) zl zh q.2.time q.2.vars.1 t' v'.1)
      ⟨hh q hq, by rw [sub_self, zero_mul], drift_refl l1 l2 l3⟩ ?_ fun t e v v' _ hx => by rw [hn] at hx; cases hx
    rintro t d v v' ⟨hd, -⟩ ⟨i0, i1, i2⟩ he
    obtain ⟨j1, j2⟩ := leads_jit hf hg hb _ _ _ i0 (advects_leads ha t d v.1) he
    refine ⟨j2, ?_, drift_step i1 hd i2 j1⟩
    have : (t + d - q.2.time) * sgn o.dt = (t - q.2.time) * sgn o.dt + d * sgn o.dt := by ring
    rw [this]; linarith
  constructor
  · exact (PathRun.C109_run hu hm h fuel file s hr).imp (fun q hq r _ hp => ⟨hp.1, (key q hq hp.2).2.2⟩) fun q _ hg => hg.1
  · intro c hc
    obtain ⟨q, hq, e, hp⟩ := PathRun.C109_records hu hm h fuel file s hr c hc
    exact ⟨q, hq, e, (key q hq hp).2.2⟩

end Grids

/-- C111. In particular: where all velocities are at most `M`, no particle is further from its start than `M` times the time since then; and where they are all zero, it does not move. -/
theorem C111_distance {M T x x' : ℚ} (h : Mean (-M) M T x x') : |x' - x| ≤ M * |T| := by
  obtain ⟨c, c1, c2, rfl⟩ := h
  rw [add_sub_cancel_left, abs_mul]
  exact mul_le_mul_of_nonneg_right (abs_le.mpr ⟨c1, c2⟩) (abs_nonneg _)

/-! ### AdvectionRK45 -/

/-- The step of AdvectionRK45, if it is taken. -/
theorem fehlberg_mean {uv : Advection.Flow ℚ} {ul uh vl vh : ℚ} (hb : ∀ t z y x u v, uv t z y x = .ok (u, v) → (ul ≤ u ∧ u ≤ uh) ∧ (vl ≤ v ∧ v ≤ vh))
    {t h : ℚ} {v v' : ℚ × ℚ × ℚ} {n : Option ℚ} (hh : h ≠ 0) (e : AdaptiveRun.fehlberg uv t h v = .take v' n) :
    Mean (ul - 1 / 10000) (uh + 1 / 10000) h v.1 v'.1 ∧ Mean (vl - 1 / 10000) (vh + 1 / 10000) h v.2.1 v'.2.1 ∧ Mean 0 0 h v.2.2 v'.2.2 := by
  have conv : ∀ {a b x u1 u3 u4 u5 u6 x4 x5 : ℚ}, (a ≤ u1 ∧ u1 ≤ b) → (a ≤ u3 ∧ u3 ≤ b) → (a ≤ u4 ∧ u4 ≤ b) → (a ≤ u5 ∧ u5 ≤ b) → (a ≤ u6 ∧ u6 ≤ b) →
      x4 = x + (u1 * (25 / 216) + u3 * (1408 / 2565) + u4 * (2197 / 4104) + u5 * (-1 / 5)) * h →
      x5 = x + (u1 * (16 / 135) + u3 * (6656 / 12825) + u4 * (28561 / 56430) + u5 * (-9 / 50) + u6 * (2 / 55)) * h →
      (x5 - x4) ^ 2 ≤ (h / 100000) ^ 2 → Mean (a - 1 / 10000) (b + 1 / 10000) h x x4 := by
    intro a b x u1 u3 u4 u5 u6 x4 x5 h1 h3 h4 h5 h6 e4 e5 hk
    set c4 := u1 * (25 / 216) + u3 * (1408 / 2565) + u4 * (2197 / 4104) + u5 * (-1 / 5) with hc4
    set c5 := u1 * (16 / 135) + u3 * (6656 / 12825) + u4 * (28561 / 56430) + u5 * (-9 / 50) + u6 * (2 / 55) with hc5
    have hd : |c5 - c4| ≤ 1 / 100000 := by
      have e1 : x5 - x4 = (c5 - c4) * h := by rw [e4, e5]; ring
      have e2 := sq_le_sq.mp hk
      rw [e1, abs_mul, abs_div, abs_of_pos (show (0 : ℚ) < 100000 by norm_num)] at e2
      have hp := abs_pos.mpr hh
      rw [div_eq_mul_one_div, mul_comm |h|] at e2
      exact le_of_mul_le_mul_right e2 hp
    obtain ⟨d1, d2⟩ := abs_le.mp hd
    refine ⟨c4, ?_, ?_, e4⟩
    · linarith [h1.1, h3.1, h4.1, h5.1, h6.1]
    · linarith [h1.2, h3.2, h4.2, h5.2, h6.2]
  unfold AdaptiveRun.fehlberg at e
  cases hs : Advection.rk45Sol uv ⟨t, h, v.1, v.2.1, v.2.2⟩ with
  | error x => rw [hs] at e; cases e
  | ok r =>
    obtain ⟨x4, y4, x5, y5⟩ := r
    rw [hs] at e
    simp only [] at e
    split at e
    swap
    · cases e
    rename_i hk
    obtain ⟨rfl, -⟩ := AdaptiveRun.Try.take.inj e
    have k1 : (x5 - x4) ^ 2 ≤ (h / 100000) ^ 2 := le_trans (le_add_of_nonneg_right (sq_nonneg _)) hk
    have k2 : (y5 - y4) ^ 2 ≤ (h / 100000) ^ 2 := le_trans (le_add_of_nonneg_left (sq_nonneg _)) hk
    unfold Advection.rk45Sol at hs
    split at hs
    · cases hs
    rename_i u1 v1 e1
    simp only [] at hs
    split at hs
    · cases hs
    rename_i u2 v2 e2
    split at hs
    · cases hs
    rename_i u3 v3 e3
    split at hs
    · cases hs
    rename_i u4 v4 e4
    split at hs
    · cases hs
    rename_i u5 v5 e5
    split at hs
    · cases hs
    rename_i u6 v6 e6
    simp only [Except.ok.injEq, Prod.mk.injEq, mul_zero, add_zero] at hs
    obtain ⟨q1, q2, q3, q4⟩ := hs
    have b1 := hb _ _ _ _ _ _ e1
    have b3 := hb _ _ _ _ _ _ e3
    have b4 := hb _ _ _ _ _ _ e4
    have b5 := hb _ _ _ _ _ _ e5
    have b6 := hb _ _ _ _ _ _ e6
    exact ⟨conv b1.1 b3.1 b4.1 b5.1 b6.1 q1.symm q3.symm k1, conv b1.2 b3.2 b4.2 b5.2 b6.2 q2.symm q4.symm k2, 0, le_rfl, le_rfl, by ring⟩

/-- C111, with a tolerance. In a run with AdvectionRK45, in any flow, in both modes: the mean velocity of each particle since its start, and since its start at each record in the output file, lies between
bounds for the velocities of the flow, up to 1e-4; the depth is unchanged. -/
theorem C111_rk45_partial {uv : Advection.Flow ℚ} {ul uh vl vh : ℚ} (hb : ∀ t z y x u v, uv t z y x = .ok (u, v) → (ul ≤ u ∧ u ≤ uh) ∧ (vl ≤ v ∧ v ≤ vh)) (lu : ul ≤ uh) (lv : vl ≤ vh)
    {act : Act (ℚ × ℚ × ℚ)} {user : RMap Unit (ℚ × ℚ × ℚ)} {raises : Bool} (hu : Recovers user act raises) (hn : ∀ e t v, act e t v = none)
    {exec : Exec (ℚ × ℚ × ℚ)} (hm : WholeRun.IsMode (Advection.toKern (Advection.rk45 uv)) user exec) {o : Opts} {S : ℚ}
    {ps : List (TP (ℚ × ℚ × ℚ))} (h : Starts o S ps) (fuel : ℕ) (file : Output.PFile) (s : St (ℚ × ℚ × ℚ)) (hr : execute o exec fuel file ps = some (.done s)) :
    Account (fun q r => r.1 = q.1 ∧ r.2.vars.2.2 = q.2.vars.2.2 ∧
      Drift (ul - 1 / 10000) (uh + 1 / 10000) (vl - 1 / 10000) (vh + 1 / 10000) 0 0 q.2.time q.2.vars r.2.time r.2.vars) (fun _ => raises = false) ps s.ps ∧
    ∀ c ∈ records s, ∃ q ∈ ps, c.1 = q.1 ∧ c.2.2.2.2 = q.2.vars.2.2 ∧
      Drift (ul - 1 / 10000) (uh + 1 / 10000) (vl - 1 / 10000) (vh + 1 / 10000) 0 0 q.2.time q.2.vars c.2.1 c.2.2 := by
  obtain ⟨hk, hsn⟩ := AdaptiveRun.C110_rk45 uv
  rw [hk] at hm
  have key : ∀ (q : TP (ℚ × ℚ × ℚ)) {t' v'}, AdaptiveRun.Path (AdaptiveRun.fehlberg uv) act o.dt q.2.time q.2.vars t' v' →
      0 ≤ (t' - q.2.time) * sgn o.dt ∧ Drift (ul - 1 / 10000) (uh + 1 / 10000) (vl - 1 / 10000) (vh + 1 / 10000) 0 0 q.2.time q.2.vars t' v' := by
    intro q t' v' hp
    induction hp with
    | here => exact ⟨by rw [sub_self, zero_mul], drift_refl (by linarith) (by linarith) le_rfl⟩
    | @step t1 v1 d v2 n _ hd he ih =>
      have hd0 : d ≠ 0 := by rintro rfl; rw [zero_mul] at hd; exact lt_irrefl _ hd
      refine ⟨?_, drift_step ih.1 hd ih.2 (fehlberg_mean hb hd0 he)⟩
      have : (t1 + d - q.2.time) * sgn o.dt = (t1 - q.2.time) * sgn o.dt + d * sgn o.dt := by ring
      rw [this]; linarith [ih.1]
    | repair _ _ _ ha => rw [hn] at ha; cases ha
  have deep : ∀ {T z z' : ℚ}, Mean 0 0 T z z' → z' = z := by
    rintro T z z' ⟨c, c1, c2, rfl⟩
    rw [le_antisymm c2 c1, zero_mul, add_zero]
  constructor
  · exact (AdaptiveRun.C110_run hsn hu hm h fuel file s hr).imp (fun q _ r _ hp => ⟨hp.1, deep (key q hp.2).2.2.2, (key q hp.2).2⟩) fun q _ hg => hg.1
  · intro c hc
    obtain ⟨q, hq, e, hp⟩ := AdaptiveRun.C110_records hsn hu hm h fuel file s hr c hc
    exact ⟨q, hq, e, deep (key q hp).2.2.2, (key q hp).2⟩

/-- C111. Velocities of gridded data meet the hypothesis: they lie between the smallest and the largest values in the data. -/
theorem C111_flow {fs : Nat → Fld} (hf : ∀ i, Sound (fs i)) {lo hi : Nat → ℚ} (hb : ∀ i, Within (fs i) (lo i) (hi i)) :
    ∀ t z y x u v, flow fs t z y x = .ok (u, v) → (lo 0 ≤ u ∧ u ≤ hi 0) ∧ (lo 1 ≤ v ∧ v ≤ hi 1) := by
  intro t z y x u v h
  unfold flow at h
  split at h
  · cases h
  rename_i u' e1
  split at h
  · cases h
  rename_i v' e2
  simp only [Except.ok.injEq, Prod.mk.injEq] at h
  obtain ⟨rfl, rfl⟩ := h
  exact ⟨value_within (hf 0) (hb 0) ((eval_iff (hf 0) _ _ _ _ _).mp e1), value_within (hf 1) (hb 1) ((eval_iff (hf 1) _ _ _ _ _).mp e2)⟩

/-- Velocities of three fields, as a function. -/
def flow3 (fs : Nat → Fld) : Advection.Flow3 ℚ := fun t z y x =>
  match eval (fs 0) t z y x with
  | .error e => .error e
  | .ok u =>
    match eval (fs 1) t z y x with
    | .error e => .error e
    | .ok v =>
      match eval (fs 2) t z y x with
      | .error e => .error e
      | .ok w => .ok (u, v, w)

theorem scipy_uv (fs : Nat → Fld) (t z y x : ℚ) (k : ℚ → ℚ → Prog (ℚ × ℚ × ℚ)) :
    scipy fs (uv t z y x k) = match flow fs t z y x with | .error e => .error e | .ok (u, v) => scipy fs (k u v) := by
  unfold uv flow
  rw [scipy]
  cases eval (fs 0) t z y x with
  | error e => rfl
  | ok u =>
    dsimp only
    rw [scipy]
    cases eval (fs 1) t z y x with
    | error e => rfl
    | ok v => rfl

theorem scipy_uvw (fs : Nat → Fld) (t z y x : ℚ) (k : ℚ → ℚ → ℚ → Prog (ℚ × ℚ × ℚ)) :
    scipy fs (uvw t z y x k) = match flow3 fs t z y x with | .error e => .error e | .ok (u, v, w) => scipy fs (k u v w) := by
  unfold uvw flow3
  rw [scipy]
  cases eval (fs 0) t z y x with
  | error e => rfl
  | ok u =>
    dsimp only
    rw [scipy]
    cases eval (fs 1) t z y x with
    | error e => rfl
    | ok v =>
      dsimp only
      rw [scipy]
      cases eval (fs 2) t z y x with
      | error e => rfl
      | ok v => rfl

/-- C111. The kernels are `AdvectionEE` and `AdvectionRK4_3D` in the flow of the gridded data (for `AdvectionRK4` this is C99_rk4). -/
theorem C111_kernels (fs : Nat → Fld) : kernel (scipyScheme fs ee) = Advection.toKern (Advection.plain (Advection.ee (flow fs))) ∧
    kernel (scipyScheme fs rk4_3D) = Advection.toKern (Advection.plain (Advection.rk4_3D (flow3 fs))) := by
  constructor
  · funext w p
    unfold kernel Advection.toKern Advection.plain scipyScheme ee Advection.ee
    simp only [scipy_uv]
    cases flow fs p.time p.vars.2.2 p.vars.2.1 p.vars.1 with
    | error e => rfl
    | ok r => rfl
  · funext w p
    unfold kernel Advection.toKern Advection.plain scipyScheme rk4_3D Advection.rk4_3D
    simp only [scipy_uvw]
    cases flow3 fs p.time p.vars.2.2 p.vars.2.1 p.vars.1 with
    | error e => rfl
    | ok r =>
      obtain ⟨u1, v1, w1⟩ := r
      dsimp only
      cases flow3 fs (p.time + 1 / 2 * p.dt) (p.vars.2.2 + w1 * (1 / 2) * p.dt) (p.vars.2.1 + v1 * (1 / 2) * p.dt) (p.vars.1 + u1 * (1 / 2) * p.dt) with
      | error e => rfl
      | ok r =>
        obtain ⟨u2, v2, w2⟩ := r
        dsimp only
        cases flow3 fs (p.time + 1 / 2 * p.dt) (p.vars.2.2 + w2 * (1 / 2) * p.dt) (p.vars.2.1 + v2 * (1 / 2) * p.dt) (p.vars.1 + u2 * (1 / 2) * p.dt) with
        | error e => rfl
        | ok r =>
          obtain ⟨u3, v3, w3⟩ := r
          dsimp only
          cases flow3 fs (p.time + p.dt) (p.vars.2.2 + w3 * p.dt) (p.vars.2.1 + v3 * p.dt) (p.vars.1 + u3 * p.dt) with
          | error e => rfl
          | ok r => rfl

/-! ### Examples -/

/-- Bounds of the data of `exFs`. -/
def exLo : Nat → ℚ := fun _ => 0
def exHi : Nat → ℚ := fun i => if i = 0 then 5 else if i = 1 then 1 / 4 else 0

theorem exWithin : ∀ i, Within (exFs i) (exLo i) (exHi i) := by
  intro i
  rcases i with _ | _ | i
  · intro i k j l h1 h2 h3 h4
    simp only [exFs, List.length_cons, List.length_nil] at h1 h2 h3 h4
    have : ((i + j + l : ℕ) : ℚ) ≤ (5 : ℕ) := by exact_mod_cast (by omega)
    simp only [exFs, exLo, exHi, if_true]
    push_cast at this
    exact ⟨by positivity, by linarith⟩
  · intro i k j l h1 h2 h3 h4
    simp only [exFs, List.length_cons, List.length_nil] at h1 h2 h3 h4
    have : ((k : ℕ) : ℚ) ≤ (1 : ℕ) := by exact_mod_cast (by omega)
    push_cast at this
    have e : exHi (0 + 1) = 1 / 4 := by norm_num [exHi]
    rw [e]
    change (0 : ℚ) ≤ (k : ℚ) / 4 ∧ (k : ℚ) / 4 ≤ 1 / 4
    exact ⟨by positivity, by linarith⟩
  · intro i k j l h1 h2 h3 h4
    norm_num [exFs, exLo, exHi]

def exOpts : Opts := ⟨1 / 2, .runtime (11 / 4), true, some (3 / 4), none, none, fun _ _ => .pinf⟩

def exParts : List (TP ((ℚ × ℚ × ℚ) × (Nat → Hint))) :=
  [(0, ⟨0, 1 / 2, .success, ((0, 0, 0), newHints)⟩), (1, ⟨0, 1 / 2, .success, ((2, 3, 1), newHints)⟩), (2, ⟨5 / 4, 1 / 2, .success, ((0, 1, 1 / 2), newHints)⟩)]

def exUser {V : Type} : RMap Unit V := fun _ => some fun w p => (w, some { p with state := .delete })

theorem exRecovers {V : Type} : Recovers (exUser (V := V)) (fun _ _ _ => none) false := by
  intro e
  exact ⟨_, by cases e <;> rfl, fun w p => rfl⟩

/-- The hypotheses of C111_scipy and C111_jit can be met, and the runs return: one of three particles leaves the data. -/
example : (∀ i, Sound (exFs i)) ∧ Grids exFs ∧ (∀ i, Within (exFs i) (exLo i) (exHi i)) ∧ Advects exLo exHi rk4 0 0 ∧ Advects exLo exHi rk4_3D 0 0 ∧
    Starts exOpts 0 exParts ∧ Starts exOpts 0 (exParts.map strip) ∧ (∀ q ∈ exParts, Hints exFs q.2.vars.2) ∧
    (match execute exOpts (scipyExec (kernel (scipyScheme exFs rk4)) exUser 20 20) 20 WholeRun.exFile (exParts.map strip) with
    | some (.done s) => decide (s.ps.map (fun q => (q.1, q.2.time)) = [(0, 11 / 4), (2, 11 / 4)] ∧ 5 ≤ (records s).length)
    | _ => false) = true ∧
    (match execute exOpts (jitExec (kernel (jitScheme exFs rk4)) exUser 20 20) 20 WholeRun.exFile exParts with
    | some (.done s) => decide (s.ps.map (fun q => (q.1, q.2.time)) = [(0, 11 / 4), (2, 11 / 4)] ∧ 5 ≤ (records s).length)
    | _ => false) = true := by
  refine ⟨exSound, exGrids, exWithin, Or.inl ⟨Or.inr rfl, rfl, rfl⟩, Or.inr ⟨rfl, rfl, rfl⟩, ⟨⟨_, List.mem_cons_self, rfl⟩, by decide +kernel, by norm_num [exOpts], by decide +kernel⟩,
    ⟨⟨_, List.mem_cons_self, rfl⟩, by decide +kernel, by norm_num [exOpts], by decide +kernel⟩, ?_, by decide +kernel, by decide +kernel⟩
  intro q hq
  simp only [exParts, List.mem_cons, List.not_mem_nil, or_false] at hq
  rcases hq with rfl | rfl | rfl <;> exact exHints

/-- Velocity 1 before 1 s, a little less from then on. -/
def slower : Advection.Flow ℚ := fun t _ _ _ => if t < 1 then .ok (1, 0) else .ok (1 - 1 / 2000, 0)

/-- C111. What is missing in C111_rk45_partial: with AdvectionRK45, a particle can be faster than the flow ever is. Here no velocity exceeds 1, and after 1 s the particle has moved by 1.0001. In both
modes. -/
theorem C111_rk45_fails : (∀ t z y x u v, slower t z y x = .ok (u, v) → (0 ≤ u ∧ u ≤ 1) ∧ (0 ≤ v ∧ v ≤ 0)) ∧
    (match execute ⟨1, .runtime 1, true, some 1, none, none, fun _ _ => .pinf⟩ (scipyExec (Advection.toKern (Advection.rk45 slower)) exUser 20 20) 20 WholeRun.exFile [(0, ⟨0, 1, .success, (0, 0, 0)⟩)] with
    | some (.done s) => decide (s.ps.map (fun r => (r.1, r.2.time, r.2.vars)) = [(0, 1, (1 + 1 / 10000, 0, 0))]) | _ => false) = true ∧
    (match execute ⟨1, .runtime 1, true, some 1, none, none, fun _ _ => .pinf⟩ (jitExec (Advection.toKern (Advection.rk45 slower)) exUser 20 20) 20 WholeRun.exFile [(0, ⟨0, 1, .success, (0, 0, 0)⟩)] with
    | some (.done s) => decide (s.ps.map (fun r => (r.1, r.2.time, r.2.vars)) = [(0, 1, (1 + 1 / 10000, 0, 0))]) | _ => false) = true ∧
    ¬ Mean 0 1 1 0 (1 + 1 / 10000) := by
  refine ⟨?_, by decide +kernel, by decide +kernel, ?_⟩
  · intro t z y x u v h
    unfold slower at h
    split at h <;> (simp only [Except.ok.injEq, Prod.mk.injEq] at h; obtain ⟨rfl, rfl⟩ := h; norm_num)
  · rintro ⟨c, -, c2, e⟩
    linarith

/-- The hypotheses of C111_rk45_partial can be met: that run, and one on gridded data. -/
example : Recovers (exUser (V := ℚ × ℚ × ℚ)) (fun _ _ _ => none) false ∧ Starts exOpts 0 (exParts.map strip) ∧
    (match execute exOpts (scipyExec (Advection.toKern (Advection.rk45 (flow exFs))) exUser 40 20) 20 WholeRun.exFile (exParts.map strip) with
    | some (.done s) => decide (s.ps.map (fun q => (q.1, q.2.time)) = [(0, 11 / 4), (2, 11 / 4)]) | _ => false) = true := by
  refine ⟨exRecovers, ⟨⟨_, List.mem_cons_self, rfl⟩, by decide +kernel, by norm_num [exOpts], by decide +kernel⟩, by decide +kernel⟩

/-- An instance of C111_distance. -/
example : Mean (-2) 2 3 1 (-4) ∧ |(-4 : ℚ) - 1| ≤ 2 * |(3 : ℚ)| := ⟨⟨-5 / 3, by norm_num, by norm_num, by norm_num⟩, C111_distance ⟨-5 / 3, by norm_num, by norm_num, by norm_num⟩⟩

end Parcels.DriftRun
