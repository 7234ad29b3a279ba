import Verif.Spec.FloatAdvect
import Verif.Proofs.FloatTime
import Mathlib.Tactic.Linarith
import Mathlib.Tactic.Ring

/-!
Lemmas for C95.
-/

namespace Parcels.FloatAdvect

open KernelLoop (Exc)
open Advection (Pt Flow Flow3)

/-- `x` is `y` after at most `n` roundings of numbers of size `B`. -/
def Near (ε : ℚ) (n : ℕ) (B x y : ℚ) : Prop := |x - y| ≤ ((1 + ε) ^ n - 1) * B ∧ |y| ≤ B

theorem one_le_pow' {ε : ℚ} (hε : 0 ≤ ε) (n : ℕ) : 1 ≤ (1 + ε) ^ n := one_le_pow₀ (by linarith)

theorem Near.refl {ε : ℚ} (hε : 0 ≤ ε) (n : ℕ) {B y : ℚ} (h : |y| ≤ B) : Near ε n B y y := by
  refine ⟨?_, h⟩
  rw [sub_self, abs_zero]
  exact mul_nonneg (by linarith [one_le_pow' hε n]) (le_trans (abs_nonneg _) h)

theorem Near.mono {ε : ℚ} (hε : 0 ≤ ε) {n m : ℕ} {B B' x y : ℚ} (hn : n ≤ m) (hB : B ≤ B') (h : Near ε n B x y) : Near ε m B' x y := by
  have h0 : 0 ≤ B := le_trans (abs_nonneg _) h.2
  have h1 := one_le_pow' hε n
  have h2 : (1 + ε) ^ n ≤ (1 + ε) ^ m := pow_le_pow_right₀ (by linarith) hn
  exact ⟨le_trans h.1 (mul_le_mul (by linarith) hB h0 (by linarith)), le_trans h.2 hB⟩

theorem Near.round {fl : ℚ → ℚ} {ε : ℚ} (hf : Rounds fl ε) (hε : 0 ≤ ε) {n : ℕ} {B x y : ℚ} (h : Near ε n B x y) : Near ε (n + 1) B (fl x) y := by
  refine ⟨?_, h.2⟩
  have h1 := hf x
  have h2 : |x| ≤ |x - y| + |y| := by simpa using abs_add_le (x - y) y
  have h3 : |fl x - y| ≤ |fl x - x| + |x - y| := by simpa using abs_add_le (fl x - x) (x - y)
  have h4 : ε * |x| ≤ ε * ((1 + ε) ^ n * B) := mul_le_mul_of_nonneg_left (by linarith [h.1, h.2]) hε
  have e : ((1 + ε) ^ (n + 1) - 1) * B = ε * ((1 + ε) ^ n * B) + ((1 + ε) ^ n - 1) * B := by ring
  rw [e]
  linarith [h.1]

theorem Near.add {ε : ℚ} {n : ℕ} {B B' x y x' y' : ℚ} (h : Near ε n B x y) (h' : Near ε n B' x' y') : Near ε n (B + B') (x + x') (y + y') := by
  constructor
  · have := abs_add_le (x - y) (x' - y')
    rw [show x + x' - (y + y') = (x - y) + (x' - y') by ring, mul_add]
    linarith [h.1, h'.1]
  · linarith [abs_add_le y y', h.2, h'.2]

theorem Near.mul {ε : ℚ} {n : ℕ} {B x y : ℚ} (h : Near ε n B x y) (c : ℚ) : Near ε n (B * |c|) (x * c) (y * c) := by
  constructor
  · rw [← sub_mul, abs_mul, ← mul_assoc]
    exact mul_le_mul_of_nonneg_right h.1 (abs_nonneg _)
  · rw [abs_mul]
    exact mul_le_mul_of_nonneg_right h.2 (abs_nonneg _)

section ops
variable {r : Arith} {ε M S : ℚ}

theorem half_near (hr : r.Within ε) (hε : 0 ≤ ε) {x u dt : ℚ} (hx : |x| ≤ M) (hu : |u| ≤ S) :
    |half r x u dt - (x + u * (1 / 2) * dt)| ≤ perStep ε M S dt := by
  have hS : 0 ≤ S := le_trans (abs_nonneg _) hu
  have h1 := (((Near.refl hε 0 hu).mul (1 / 2)).round hr.fl hε).mul dt |>.round hr.fl hε
  have h2 := (((Near.refl hε 2 hx).add h1).round hr.fl hε).round hr.lo hε
  have h3 := h2.mono hε (show 4 ≤ 8 by norm_num) (B' := M + S * |dt|) (by
    have : |(1 / 2 : ℚ)| = 1 / 2 := by norm_num
    rw [this]
    have := mul_nonneg hS (abs_nonneg dt)
    linarith)
  exact h3.1

theorem whole_near (hr : r.Within ε) (hε : 0 ≤ ε) {x u dt : ℚ} (hx : |x| ≤ M) (hu : |u| ≤ S) :
    |whole r x u dt - (x + u * dt)| ≤ perStep ε M S dt := by
  have h1 := ((Near.refl hε 0 hu).mul dt).round hr.fl hε
  have h2 := (((Near.refl hε 1 hx).add h1).round hr.fl hε).round hr.lo hε
  exact (h2.mono hε (show 3 ≤ 8 by norm_num) le_rfl).1

theorem euler_near (hr : r.Within ε) (hε : 0 ≤ ε) {x u dt : ℚ} (hx : |x| ≤ M) (hu : |u| ≤ S) :
    |euler r x u dt - (x + u * dt)| ≤ perStep ε M S dt := by
  have h1 := ((Near.refl hε 0 hu).mul dt).round hr.fl hε
  have h2 := (((Near.refl hε 1 hx).add h1).round hr.fl hε).round hr.st hε
  exact (h2.mono hε (show 3 ≤ 8 by norm_num) le_rfl).1

theorem last_near (hr : r.Within ε) (hε : 0 ≤ ε) {x u1 u2 u3 u4 dt : ℚ} (hx : |x| ≤ M) (h1 : |u1| ≤ S) (h2 : |u2| ≤ S) (h3 : |u3| ≤ S)
    (h4 : |u4| ≤ S) : |last r x u1 u2 u3 u4 dt - (x + (u1 + 2 * u2 + 2 * u3 + u4) / 6 * dt)| ≤ perStep ε M S dt := by
  have a2 : Near ε 1 (S * 2) (r.sm (2 * u2)) (2 * u2) := by
    have := ((Near.refl hε 0 h2).mul 2).round hr.sm hε
    rwa [mul_comm u2 2, show |(2 : ℚ)| = 2 by norm_num] at this
  have a3 : Near ε 1 (S * 2) (r.sm (2 * u3)) (2 * u3) := by
    have := ((Near.refl hε 0 h3).mul 2).round hr.sm hε
    rwa [mul_comm u3 2, show |(2 : ℚ)| = 2 by norm_num] at this
  have b1 := ((Near.refl hε 1 h1).add a2).round hr.sm hε
  have b2 := (b1.add (a3.mono hε (show 1 ≤ 2 by norm_num) le_rfl)).round hr.sm hε
  have b3 := (b2.add (Near.refl hε 3 h4)).round hr.sm hε
  have b4 := (b3.mul (1 / 6)).round hr.fl hε
  have b5 := (b4.mul dt).round hr.fl hε
  have b6 := (((Near.refl hε 6 hx).add b5).round hr.fl hε).round hr.st hε
  have b7 := b6.mono hε (le_refl 8) (B' := M + S * |dt|) (by
    rw [show |(1 / 6 : ℚ)| = 1 / 6 by norm_num]
    have : (S + S * 2 + S * 2 + S) * (1 / 6) = S := by ring
    rw [this])
  have e : last r x u1 u2 u3 u4 dt =
      r.st (r.fl (x + r.fl (r.fl (r.sm (r.sm (r.sm (u1 + r.sm (2 * u2)) + r.sm (2 * u3)) + u4) * (1 / 6)) * dt))) := by
    unfold last
    rw [div_eq_mul_one_div]
  rw [e, div_eq_mul_one_div (u1 + 2 * u2 + 2 * u3 + u4)]
  exact b7.1

end ops

/-- Errors of a stage position: of the position it starts from, of the velocity, and of the roundings. -/
theorem stage {A x' x u' u c e d ρ h : ℚ} (hA : |A - (x' + u' * c)| ≤ ρ) (hx : |x' - x| ≤ e) (hu : |u' - u| ≤ d) (hc : |c| ≤ h) :
    |A - (x + u * c)| ≤ e + d * h + ρ := by
  have e1 : A - (x + u * c) = (A - (x' + u' * c)) + (x' - x) + (u' - u) * c := by ring
  have h1 := abs_add_le (A - (x' + u' * c) + (x' - x)) ((u' - u) * c)
  have h2 := abs_add_le (A - (x' + u' * c)) (x' - x)
  have h3 : |(u' - u) * c| ≤ d * h := by
    rw [abs_mul]
    exact mul_le_mul hu hc (abs_nonneg _) (le_trans (abs_nonneg _) hu)
  rw [e1]
  linarith

/-- The errors of the four stages together. -/
theorem rk4_growth {e h L δ ρ : ℚ} (he : 0 ≤ e) (hh : 0 ≤ h) (hL : 0 ≤ L) (hδ : 0 ≤ δ) (hρ : 0 ≤ ρ) (hhL : h * L ≤ 1) {a1 a2 a3 : ℚ}
    (h1 : a1 = e + (δ + L * e) * (h / 2) + ρ) (h2 : a2 = e + (δ + L * a1) * (h / 2) + ρ) (h3 : a3 = e + (δ + L * a2) * h + ρ) :
    e + ((δ + L * e) + 2 * (δ + L * a1) + 2 * (δ + L * a2) + (δ + L * a3)) / 6 * h + ρ ≤ (1 + 2 * (h * L)) * e + 3 * (ρ + h * δ) := by
  obtain ⟨c, hc⟩ : ∃ c, c = h * L := ⟨_, rfl⟩
  obtain ⟨g, hg⟩ : ∃ g, g = h * δ := ⟨_, rfl⟩
  rw [← hc] at hhL
  have c0 : 0 ≤ c := by rw [hc]; exact mul_nonneg hh hL
  have g0 : 0 ≤ g := by rw [hg]; exact mul_nonneg hh hδ
  have e1 : a1 = e + (g + c * e) / 2 + ρ := by rw [h1, hc, hg]; ring
  have e2 : a2 = e + (g + c * a1) / 2 + ρ := by rw [h2, hc, hg]; ring
  have e3 : a3 = e + (g + c * a2) + ρ := by rw [h3, hc, hg]; ring
  have e4 : e + ((δ + L * e) + 2 * (δ + L * a1) + 2 * (δ + L * a2) + (δ + L * a3)) / 6 * h + ρ
      = e + (6 * g + c * (e + 2 * a1 + 2 * a2 + a3)) / 6 + ρ := by rw [hc, hg]; ring
  rw [e4, ← hc, ← hg]
  have k : ∀ x : ℚ, 0 ≤ x → c * x ≤ x := fun x hx => by nlinarith
  have b0 := k e he
  have b1 : a1 ≤ 3 / 2 * e + (ρ + g) := by linarith
  have a1p : 0 ≤ a1 := by rw [e1]; have := mul_nonneg c0 he; linarith
  have b2 := k a1 a1p
  have b3 : a2 ≤ 7 / 4 * e + 3 / 2 * (ρ + g) := by linarith
  have a2p : 0 ≤ a2 := by rw [e2]; have := mul_nonneg c0 a1p; linarith
  have b4 := k a2 a2p
  have b5 : a3 ≤ 11 / 4 * e + 5 / 2 * (ρ + g) := by linarith
  have b6 : c * (e + 2 * a1 + 2 * a2 + a3) ≤ c * (41 / 4 * e + 15 / 2 * (ρ + g)) := mul_le_mul_of_nonneg_left (by linarith) c0
  have b7 := k (15 / 2 * (ρ + g)) (by linarith)
  have b8 : 0 ≤ c * e := mul_nonneg c0 he
  nlinarith

/-- A sample at a slightly wrong place. -/
theorem sample_err {a u u' δ s : ℚ} (h : |a - u'| ≤ δ) (h' : |u' - u| ≤ s) : |a - u| ≤ δ + s := by
  have := abs_add_le (a - u') (u' - u)
  rw [sub_add_sub_cancel] at this
  linarith

/-- The times of the stages are exact. -/
theorem times_exact {r : Arith} {ε : ℚ} (hr : r.Within ε) {k : ℤ} {t dt : ℚ} (h1 : FloatTime.Tick k (dt / 2)) (h2 : FloatTime.Tick k (t + dt / 2))
    (h3 : FloatTime.Tick k (t + dt)) : r.fl (t + r.fl (1 / 2 * dt)) = t + 1 / 2 * dt ∧ r.fl (t + dt) = t + dt := by
  have ex : ∀ {x : ℚ}, FloatTime.Tick k x → r.fl x = x := fun {x} hx => by
    refine FloatTime.exact_of hr.double hx.1 ?_
    have := hx.2
    have := FloatTime.u_pos k
    linarith
  rw [show 1 / 2 * dt = dt / 2 by ring, ex h1]
  exact ⟨ex h2, ex h3⟩

/-- A step of Euler's method. -/
theorem ee_step {r : Arith} {ε M S L δ : ℚ} (hr : r.Within ε) (hε : 0 ≤ ε) {uv : Flow ℚ} {U V : Vel} (hs : Samples uv U V δ S)
    (hU : Lipschitz U L) (hV : Lipschitz V L) {p q p' : Pt ℚ} {e : ℚ} (htime : p.time = q.time) (hdep : p.depth = q.depth) (hdt : p.dt = q.dt)
    (hx : |p.lon - q.lon| ≤ e) (hy : |p.lat - q.lat| ≤ e) (hMx : |p.lon| ≤ M) (hMy : |p.lat| ≤ M) (hp : ee r uv p = .ok p') :
    ∃ q', Advection.ee (flow U V) q = .ok q' ∧ p'.time = q'.time ∧ p'.depth = q'.depth ∧ p'.dt = q'.dt ∧ p'.dt = p.dt ∧ p'.time = p.time ∧
      |p'.lon - q'.lon| ≤ (1 + |p.dt| * L) * e + (perStep ε M S p.dt + |p.dt| * δ) ∧
      |p'.lat - q'.lat| ≤ (1 + |p.dt| * L) * e + (perStep ε M S p.dt + |p.dt| * δ) := by
  unfold ee at hp
  split at hp
  · cases hp
  · rename_i u1 v1 h1
    cases hp
    obtain ⟨⟨s1, s2⟩, s3, s4⟩ := hs _ _ _ _ _ _ h1
    refine ⟨_, rfl, htime, hdep, hdt, rfl, rfl, ?_, ?_⟩
    · have := stage (euler_near hr hε hMx s2) hx (sample_err s1 (hU _ _ _ _ _ _ e hy hx)) (le_refl |p.dt|)
      dsimp only
      rw [← htime, ← hdep, ← hdt]
      refine le_trans this (le_of_eq (by ring))
    · have := stage (euler_near hr hε hMy s4) hy (sample_err s3 (hV _ _ _ _ _ _ e hy hx)) (le_refl |p.dt|)
      dsimp only
      rw [← htime, ← hdep, ← hdt]
      refine le_trans this (le_of_eq (by ring))

theorem avg4 {a1 a2 a3 a4 b1 b2 b3 b4 d1 d2 d3 d4 : ℚ} (h1 : |a1 - b1| ≤ d1) (h2 : |a2 - b2| ≤ d2) (h3 : |a3 - b3| ≤ d3) (h4 : |a4 - b4| ≤ d4) :
    |(a1 + 2 * a2 + 2 * a3 + a4) / 6 - (b1 + 2 * b2 + 2 * b3 + b4) / 6| ≤ (d1 + 2 * d2 + 2 * d3 + d4) / 6 := by
  rw [abs_le] at *
  constructor <;> linarith

/-- A step of the Runge-Kutta method. -/
theorem rk4_step {r : Arith} {ε M S L δ : ℚ} (hr : r.Within ε) (hε : 0 ≤ ε) (hL : 0 ≤ L) (hδ : 0 ≤ δ) {uv : Flow ℚ} {U V : Vel}
    (hs : Samples uv U V δ S) (hU : Lipschitz U L) (hV : Lipschitz V L) {p q p' : Pt ℚ} {e : ℚ} {k : ℤ} (hk1 : FloatTime.Tick k (p.dt / 2))
    (hk2 : FloatTime.Tick k (p.time + p.dt / 2)) (hk3 : FloatTime.Tick k (p.time + p.dt)) (hhL : |p.dt| * L ≤ 1)
    (htime : p.time = q.time) (hdep : p.depth = q.depth) (hdt : p.dt = q.dt)
    (hx : |p.lon - q.lon| ≤ e) (hy : |p.lat - q.lat| ≤ e) (hMx : |p.lon| ≤ M) (hMy : |p.lat| ≤ M) (hp : rk4 r uv p = .ok p') :
    ∃ q', Advection.rk4 (flow U V) q = .ok q' ∧ p'.time = q'.time ∧ p'.depth = q'.depth ∧ p'.dt = q'.dt ∧ p'.dt = p.dt ∧ p'.time = p.time ∧
      |p'.lon - q'.lon| ≤ (1 + 2 * (|p.dt| * L)) * e + 3 * (perStep ε M S p.dt + |p.dt| * δ) ∧
      |p'.lat - q'.lat| ≤ (1 + 2 * (|p.dt| * L)) * e + 3 * (perStep ε M S p.dt + |p.dt| * δ) := by
  have he : 0 ≤ e := le_trans (abs_nonneg _) hx
  have hM0 : 0 ≤ M := le_trans (abs_nonneg _) hMx
  obtain ⟨tq1, tq2⟩ := times_exact hr hk1 hk2 hk3
  have hhalf : |1 / 2 * p.dt| ≤ |p.dt| / 2 := by rw [abs_mul, show |(1 / 2 : ℚ)| = 1 / 2 by norm_num]; exact le_of_eq (by ring)
  unfold rk4 at hp
  rw [tq1, tq2] at hp
  split at hp
  · cases hp
  rename_i u1 v1 h1
  split at hp
  · cases hp
  rename_i u2 v2 h2
  split at hp
  · cases hp
  rename_i u3 v3 h3
  split at hp
  · cases hp
  rename_i u4 v4 h4
  cases hp
  obtain ⟨⟨su1, bu1⟩, sv1, bv1⟩ := hs _ _ _ _ _ _ h1
  obtain ⟨⟨su2, bu2⟩, sv2, bv2⟩ := hs _ _ _ _ _ _ h2
  obtain ⟨⟨su3, bu3⟩, sv3, bv3⟩ := hs _ _ _ _ _ _ h3
  obtain ⟨⟨su4, bu4⟩, sv4, bv4⟩ := hs _ _ _ _ _ _ h4
  have hS0 : 0 ≤ S := le_trans (abs_nonneg _) bu1
  have hρ : 0 ≤ perStep ε M S p.dt :=
    mul_nonneg (by linarith [one_le_pow' hε 8]) (add_nonneg hM0 (mul_nonneg hS0 (abs_nonneg _)))
  have half' : ∀ {x u : ℚ}, |x| ≤ M → |u| ≤ S → |half r x u p.dt - (x + u * (1 / 2 * p.dt))| ≤ perStep ε M S p.dt := fun hx hu => by
    have := half_near (dt := p.dt) hr hε hx hu
    rwa [mul_assoc] at this
  -- the exact stages
  refine ⟨_, rfl, htime, hdep, hdt, rfl, rfl, ?_⟩
  dsimp only
  rw [← htime, ← hdep, ← hdt]
  have du1 := sample_err su1 (hU _ _ _ _ _ _ e hy hx)
  have dv1 := sample_err sv1 (hV _ _ _ _ _ _ e hy hx)
  have x1 := stage (half' hMx bu1) hx du1 hhalf
  have y1 := stage (half' hMy bv1) hy dv1 hhalf
  have du2 := sample_err su2 (hU _ _ _ _ _ _ _ y1 x1)
  have dv2 := sample_err sv2 (hV _ _ _ _ _ _ _ y1 x1)
  have x2 := stage (half' hMx bu2) hx du2 hhalf
  have y2 := stage (half' hMy bv2) hy dv2 hhalf
  have du3 := sample_err su3 (hU _ _ _ _ _ _ _ y2 x2)
  have dv3 := sample_err sv3 (hV _ _ _ _ _ _ _ y2 x2)
  have x3 := stage (whole_near hr hε hMx bu3) hx du3 (le_refl |p.dt|)
  have y3 := stage (whole_near hr hε hMy bv3) hy dv3 (le_refl |p.dt|)
  have du4 := sample_err su4 (hU _ _ _ _ _ _ _ y3 x3)
  have dv4 := sample_err sv4 (hV _ _ _ _ _ _ _ y3 x3)
  have fx := stage (last_near hr hε hMx bu1 bu2 bu3 bu4) hx (avg4 du1 du2 du3 du4) (le_refl |p.dt|)
  have fy := stage (last_near hr hε hMy bv1 bv2 bv3 bv4) hy (avg4 dv1 dv2 dv3 dv4) (le_refl |p.dt|)
  have key := rk4_growth he (abs_nonneg p.dt) hL hδ hρ hhL rfl rfl rfl
  simp only [mul_assoc _ (1 / 2 : ℚ) _]
  constructor
  · exact le_trans fx key
  · exact le_trans fy key

/-- A step of the Runge-Kutta method in three dimensions. -/
theorem rk4_3D_step {r : Arith} {ε M S L δ : ℚ} (hr : r.Within ε) (hε : 0 ≤ ε) (hL : 0 ≤ L) (hδ : 0 ≤ δ) {uvw : Flow3 ℚ} {U V W : Vel}
    (hs : Samples3 uvw U V W δ S) (hU : Lipschitz3 U L) (hV : Lipschitz3 V L) (hW : Lipschitz3 W L) {p q p' : Pt ℚ} {e : ℚ} {k : ℤ}
    (hk1 : FloatTime.Tick k (p.dt / 2))
    (hk2 : FloatTime.Tick k (p.time + p.dt / 2)) (hk3 : FloatTime.Tick k (p.time + p.dt)) (hhL : |p.dt| * L ≤ 1)
    (htime : p.time = q.time) (hdt : p.dt = q.dt)
    (hx : |p.lon - q.lon| ≤ e) (hy : |p.lat - q.lat| ≤ e) (hz : |p.depth - q.depth| ≤ e) (hMx : |p.lon| ≤ M) (hMy : |p.lat| ≤ M)
    (hMz : |p.depth| ≤ M) (hp : rk4_3D r uvw p = .ok p') :
    ∃ q', Advection.rk4_3D (flow3 U V W) q = .ok q' ∧ p'.time = q'.time ∧ p'.dt = q'.dt ∧ p'.dt = p.dt ∧ p'.time = p.time ∧
      |p'.lon - q'.lon| ≤ (1 + 2 * (|p.dt| * L)) * e + 3 * (perStep ε M S p.dt + |p.dt| * δ) ∧
      |p'.lat - q'.lat| ≤ (1 + 2 * (|p.dt| * L)) * e + 3 * (perStep ε M S p.dt + |p.dt| * δ) ∧
      |p'.depth - q'.depth| ≤ (1 + 2 * (|p.dt| * L)) * e + 3 * (perStep ε M S p.dt + |p.dt| * δ) := by
  have he : 0 ≤ e := le_trans (abs_nonneg _) hx
  have hM0 : 0 ≤ M := le_trans (abs_nonneg _) hMx
  obtain ⟨tq1, tq2⟩ := times_exact hr hk1 hk2 hk3
  have hhalf : |1 / 2 * p.dt| ≤ |p.dt| / 2 := by rw [abs_mul, show |(1 / 2 : ℚ)| = 1 / 2 by norm_num]; exact le_of_eq (by ring)
  unfold rk4_3D at hp
  rw [tq1, tq2] at hp
  split at hp
  · cases hp
  rename_i u1 v1 w1 h1
  split at hp
  · cases hp
  rename_i u2 v2 w2 h2
  split at hp
  · cases hp
  rename_i u3 v3 w3 h3
  split at hp
  · cases hp
  rename_i u4 v4 w4 h4
  cases hp
  obtain ⟨⟨su1, bu1⟩, ⟨sv1, bv1⟩, sw1, bw1⟩ := hs _ _ _ _ _ _ _ h1
  obtain ⟨⟨su2, bu2⟩, ⟨sv2, bv2⟩, sw2, bw2⟩ := hs _ _ _ _ _ _ _ h2
  obtain ⟨⟨su3, bu3⟩, ⟨sv3, bv3⟩, sw3, bw3⟩ := hs _ _ _ _ _ _ _ h3
  obtain ⟨⟨su4, bu4⟩, ⟨sv4, bv4⟩, sw4, bw4⟩ := hs _ _ _ _ _ _ _ h4
  have hS0 : 0 ≤ S := le_trans (abs_nonneg _) bu1
  have hρ : 0 ≤ perStep ε M S p.dt :=
    mul_nonneg (by linarith [one_le_pow' hε 8]) (add_nonneg hM0 (mul_nonneg hS0 (abs_nonneg _)))
  have half' : ∀ {x u : ℚ}, |x| ≤ M → |u| ≤ S → |half r x u p.dt - (x + u * (1 / 2 * p.dt))| ≤ perStep ε M S p.dt := fun hx hu => by
    have := half_near (dt := p.dt) hr hε hx hu
    rwa [mul_assoc] at this
  refine ⟨_, rfl, htime, hdt, rfl, rfl, ?_⟩
  dsimp only
  rw [← htime, ← hdt]
  have du1 := sample_err su1 (hU _ _ _ _ _ _ _ e hz hy hx)
  have dv1 := sample_err sv1 (hV _ _ _ _ _ _ _ e hz hy hx)
  have dw1 := sample_err sw1 (hW _ _ _ _ _ _ _ e hz hy hx)
  have x1 := stage (half' hMx bu1) hx du1 hhalf
  have y1 := stage (half' hMy bv1) hy dv1 hhalf
  have z1 := stage (half' hMz bw1) hz dw1 hhalf
  have du2 := sample_err su2 (hU _ _ _ _ _ _ _ _ z1 y1 x1)
  have dv2 := sample_err sv2 (hV _ _ _ _ _ _ _ _ z1 y1 x1)
  have dw2 := sample_err sw2 (hW _ _ _ _ _ _ _ _ z1 y1 x1)
  have x2 := stage (half' hMx bu2) hx du2 hhalf
  have y2 := stage (half' hMy bv2) hy dv2 hhalf
  have z2 := stage (half' hMz bw2) hz dw2 hhalf
  have du3 := sample_err su3 (hU _ _ _ _ _ _ _ _ z2 y2 x2)
  have dv3 := sample_err sv3 (hV _ _ _ _ _ _ _ _ z2 y2 x2)
  have dw3 := sample_err sw3 (hW _ _ _ _ _ _ _ _ z2 y2 x2)
  have x3 := stage (whole_near hr hε hMx bu3) hx du3 (le_refl |p.dt|)
  have y3 := stage (whole_near hr hε hMy bv3) hy dv3 (le_refl |p.dt|)
  have z3 := stage (whole_near hr hε hMz bw3) hz dw3 (le_refl |p.dt|)
  have du4 := sample_err su4 (hU _ _ _ _ _ _ _ _ z3 y3 x3)
  have dv4 := sample_err sv4 (hV _ _ _ _ _ _ _ _ z3 y3 x3)
  have dw4 := sample_err sw4 (hW _ _ _ _ _ _ _ _ z3 y3 x3)
  have fx := stage (last_near hr hε hMx bu1 bu2 bu3 bu4) hx (avg4 du1 du2 du3 du4) (le_refl |p.dt|)
  have fy := stage (last_near hr hε hMy bv1 bv2 bv3 bv4) hy (avg4 dv1 dv2 dv3 dv4) (le_refl |p.dt|)
  have fz := stage (last_near hr hε hMz bw1 bw2 bw3 bw4) hz (avg4 dw1 dw2 dw3 dw4) (le_refl |p.dt|)
  have key := rk4_growth he (abs_nonneg p.dt) hL hδ hρ hhL rfl rfl rfl
  simp only [mul_assoc _ (1 / 2 : ℚ) _]
  exact ⟨le_trans fx key, le_trans fy key, le_trans fz key⟩

/-- Errors that grow by a factor and a constant in each step. -/
theorem growth {a c e : ℚ} (ha : 1 ≤ a) (hc : 0 ≤ c) (n : ℕ) (he : e ≤ n * c * a ^ n) : a * e + c ≤ ((n + 1 : ℕ) : ℚ) * c * a ^ (n + 1) := by
  have h1 : a * e ≤ a * (n * c * a ^ n) := mul_le_mul_of_nonneg_left he (by linarith)
  have h2 : 1 ≤ a ^ (n + 1) := one_le_pow₀ ha
  have h3 : c ≤ c * a ^ (n + 1) := le_mul_of_one_le_right hc h2
  have e1 : ((n + 1 : ℕ) : ℚ) * c * a ^ (n + 1) = a * (n * c * a ^ n) + c * a ^ (n + 1) := by push_cast; ring
  rw [e1]
  linarith

theorem f32_rounds : Rounds f32 (1 / 2 ^ 24) := by
  intro x
  by_cases h : x = 0
  · subst h; simp [f32]
  · unfold f32
    rw [if_neg h]
    have hu := FloatTime.u_pos (FloatTime.ilog2 x - 23)
    have h1 := FloatTime.nearest_err (x / 2 ^ (FloatTime.ilog2 x - 23))
    have h2 := (FloatTime.ilog2_spec h).1
    have e : (FloatTime.nearest (x / 2 ^ (FloatTime.ilog2 x - 23)) : ℚ) * 2 ^ (FloatTime.ilog2 x - 23) - x =
        ((FloatTime.nearest (x / 2 ^ (FloatTime.ilog2 x - 23)) : ℚ) - x / 2 ^ (FloatTime.ilog2 x - 23)) * 2 ^ (FloatTime.ilog2 x - 23) := by
      field_simp
    rw [e, abs_mul, abs_of_pos hu, one_div_mul_eq_div, le_div_iff₀ (by norm_num)]
    have e2 : (2 : ℚ) ^ (FloatTime.ilog2 x - 23) * 2 ^ 23 = 2 ^ FloatTime.ilog2 x := by
      rw [show (2 : ℚ) ^ 23 = 2 ^ (23 : ℤ) by norm_num, ← zpow_add₀ (by norm_num)]; congr 1; ring
    nlinarith

theorem rounds_of_double {fl : ℚ → ℚ} (h : FloatTime.Double fl) {ε : ℚ} (hε : 1 / 2 ^ 53 ≤ ε) : Rounds fl ε := by
  intro x
  have h1 := h.rel x
  have h2 := mul_le_mul_of_nonneg_right hε (abs_nonneg x)
  rw [one_div_mul_eq_div] at h2
  linarith

end Parcels.FloatAdvect
