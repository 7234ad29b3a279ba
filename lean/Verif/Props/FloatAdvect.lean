import Verif.Proofs.FloatAdvect
import Verif.Spec.Advection

/-!
C95: rounding errors of positions.

In all theorems `r` is the arithmetic of a mode, with relative errors at most `ε`; `uv` is the field as the code samples it, whose samples are within `δ`
of velocities `U`, `V` and at most `S`; `U` and `V` have Lipschitz constant `L`; the positions stay within `M`; times and half steps are multiples of a
power of two of seconds (see C94).
-/

namespace Parcels.FloatAdvect

open KernelLoop (Exc)
open Advection (Pt Flow Flow3)

theorem after_succ {f : Pt ℚ → Except Exc (Pt ℚ)} {n : ℕ} {p q : Pt ℚ} (h : after f (n + 1) p = .ok q) :
    ∃ a b, after f n p = .ok a ∧ f a = .ok b ∧ q = { b with time := b.time + b.dt } := by
  rw [after] at h
  split at h
  · cases h
  rename_i a ha
  split at h
  · cases h
  rename_i b hb
  cases h
  exact ⟨a, b, ha, hb, rfl⟩

/-- C95: Euler's method. -/
theorem C95_ee (r : Arith) (ε : ℚ) (hr : r.Within ε) (hε : 0 ≤ ε) (uv : Flow ℚ) (U V : Vel) (δ S L M : ℚ) (hδ : 0 ≤ δ) (hL : 0 ≤ L)
    (hs : Samples uv U V δ S) (hU : Lipschitz U L) (hV : Lipschitz V L) (p : Pt ℚ) (n : ℕ) (hS : 0 ≤ S) (hM0 : 0 ≤ M)
    (hM : ∀ i < n, ∀ q, after (ee r uv) i p = .ok q → |q.lon| ≤ M ∧ |q.lat| ≤ M) (q : Pt ℚ) (hq : after (ee r uv) n p = .ok q) :
    ∃ q', after (Advection.ee (flow U V)) n p = .ok q' ∧ q.time = q'.time ∧ q.depth = q'.depth ∧
      |q.lon - q'.lon| ≤ n * (perStep ε M S p.dt + |p.dt| * δ) * (1 + |p.dt| * L) ^ n ∧
      |q.lat - q'.lat| ≤ n * (perStep ε M S p.dt + |p.dt| * δ) * (1 + |p.dt| * L) ^ n := by
  have hc : 0 ≤ perStep ε M S p.dt + |p.dt| * δ :=
    add_nonneg (mul_nonneg (by linarith [one_le_pow' hε 8]) (add_nonneg hM0 (mul_nonneg hS (abs_nonneg _)))) (mul_nonneg (abs_nonneg _) hδ)
  have ha : 1 ≤ 1 + |p.dt| * L := by linarith [mul_nonneg (abs_nonneg p.dt) hL]
  suffices H : ∃ q', after (Advection.ee (flow U V)) n p = .ok q' ∧ q.time = q'.time ∧ q.depth = q'.depth ∧ q.dt = q'.dt ∧ q.dt = p.dt ∧
      |q.lon - q'.lon| ≤ n * (perStep ε M S p.dt + |p.dt| * δ) * (1 + |p.dt| * L) ^ n ∧
      |q.lat - q'.lat| ≤ n * (perStep ε M S p.dt + |p.dt| * δ) * (1 + |p.dt| * L) ^ n by
    obtain ⟨q', h1, h2, h3, -, -, h4, h5⟩ := H
    exact ⟨q', h1, h2, h3, h4, h5⟩
  induction n generalizing q with
  | zero =>
    rw [after] at hq
    cases hq
    exact ⟨p, rfl, rfl, rfl, rfl, rfl, by simp, by simp⟩
  | succ n ih =>
    obtain ⟨a, b, h1, h2, rfl⟩ := after_succ hq
    obtain ⟨a', e1, e2, e3, e4, e5, e6, e7⟩ := ih (fun i hi => hM i (by omega)) a h1
    obtain ⟨m1, m2⟩ := hM n (by omega) a h1
    obtain ⟨b', f1, f2, f3, f4, f5, f6, f7, f8⟩ := ee_step hr hε hs hU hV e2 e3 e4 e6 e7 m1 m2 h2
    rw [e5] at f7 f8
    refine ⟨{ b' with time := b'.time + b'.dt }, ?_, ?_, f3, f4, by rw [← e5]; exact f5, ?_, ?_⟩
    · rw [after, e1]
      simp only [f1]
    · dsimp only; rw [f2, f4]
    · exact le_trans f7 (growth ha hc n le_rfl)
    · exact le_trans f8 (growth ha hc n le_rfl)

/-- C95: the Runge-Kutta method. -/
theorem C95_rk4 (r : Arith) (ε : ℚ) (hr : r.Within ε) (hε : 0 ≤ ε) (uv : Flow ℚ) (U V : Vel) (δ S L M : ℚ) (hδ : 0 ≤ δ) (hL : 0 ≤ L)
    (hs : Samples uv U V δ S) (hU : Lipschitz U L) (hV : Lipschitz V L) (p : Pt ℚ) (n : ℕ) (hS : 0 ≤ S) (hM0 : 0 ≤ M)
    (k : ℤ) (hk : FloatTime.Tick k (p.dt / 2)) (hkt : ∀ i : ℕ, i ≤ 2 * n → FloatTime.Tick k (p.time + i * (p.dt / 2))) (hhL : |p.dt| * L ≤ 1)
    (hM : ∀ i < n, ∀ q, after (rk4 r uv) i p = .ok q → |q.lon| ≤ M ∧ |q.lat| ≤ M) (q : Pt ℚ) (hq : after (rk4 r uv) n p = .ok q) :
    ∃ q', after (Advection.rk4 (flow U V)) n p = .ok q' ∧ q.time = q'.time ∧ q.depth = q'.depth ∧
      |q.lon - q'.lon| ≤ n * (3 * (perStep ε M S p.dt + |p.dt| * δ)) * (1 + 2 * (|p.dt| * L)) ^ n ∧
      |q.lat - q'.lat| ≤ n * (3 * (perStep ε M S p.dt + |p.dt| * δ)) * (1 + 2 * (|p.dt| * L)) ^ n := by
  have hc : 0 ≤ 3 * (perStep ε M S p.dt + |p.dt| * δ) :=
    mul_nonneg (by norm_num) (add_nonneg (mul_nonneg (by linarith [one_le_pow' hε 8]) (add_nonneg hM0 (mul_nonneg hS (abs_nonneg _))))
      (mul_nonneg (abs_nonneg _) hδ))
  have ha : 1 ≤ 1 + 2 * (|p.dt| * L) := by linarith [mul_nonneg (abs_nonneg p.dt) hL]
  suffices H : ∃ q', after (Advection.rk4 (flow U V)) n p = .ok q' ∧ q.time = q'.time ∧ q.depth = q'.depth ∧ q.dt = q'.dt ∧ q.dt = p.dt ∧
      q.time = p.time + n * p.dt ∧
      |q.lon - q'.lon| ≤ n * (3 * (perStep ε M S p.dt + |p.dt| * δ)) * (1 + 2 * (|p.dt| * L)) ^ n ∧
      |q.lat - q'.lat| ≤ n * (3 * (perStep ε M S p.dt + |p.dt| * δ)) * (1 + 2 * (|p.dt| * L)) ^ n by
    obtain ⟨q', h1, h2, h3, -, -, -, h4, h5⟩ := H
    exact ⟨q', h1, h2, h3, h4, h5⟩
  induction n generalizing q with
  | zero =>
    rw [after] at hq
    cases hq
    exact ⟨p, rfl, rfl, rfl, rfl, rfl, by simp, by simp, by simp⟩
  | succ n ih =>
    obtain ⟨a, b, h1, h2, rfl⟩ := after_succ hq
    obtain ⟨a', e1, e2, e3, e4, e5, e5', e6, e7⟩ := ih (fun i hi => hkt i (by omega)) (fun i hi => hM i (by omega)) a h1
    obtain ⟨m1, m2⟩ := hM n (by omega) a h1
    have t1 : FloatTime.Tick k (a.time + a.dt / 2) := by
      have := hkt (2 * n + 1) (by omega)
      rw [e5', e5]
      convert this using 1
      push_cast; ring
    have t2 : FloatTime.Tick k (a.time + a.dt) := by
      have := hkt (2 * n + 2) (by omega)
      rw [e5', e5]
      convert this using 1
      push_cast; ring
    obtain ⟨b', f1, f2, f3, f4, f5, f6, f7, f8⟩ :=
      rk4_step hr hε hL hδ hs hU hV (by rw [e5]; exact hk) t1 t2 (by rw [e5]; exact hhL) e2 e3 e4 e6 e7 m1 m2 h2
    rw [e5] at f7 f8
    refine ⟨{ b' with time := b'.time + b'.dt }, ?_, ?_, f3, f4, by rw [← e5]; exact f5, ?_, ?_, ?_⟩
    · rw [after, e1]
      simp only [f1]
    · dsimp only; rw [f2, f4]
    · dsimp only; rw [f6, f5, e5', e5]; push_cast; ring
    · exact le_trans f7 (growth ha hc n le_rfl)
    · exact le_trans f8 (growth ha hc n le_rfl)

/-- C95: the Runge-Kutta method in three dimensions. -/
theorem C95_rk4_3D (r : Arith) (ε : ℚ) (hr : r.Within ε) (hε : 0 ≤ ε) (uvw : Flow3 ℚ) (U V W : Vel) (δ S L M : ℚ) (hδ : 0 ≤ δ) (hL : 0 ≤ L)
    (hs : Samples3 uvw U V W δ S) (hU : Lipschitz3 U L) (hV : Lipschitz3 V L) (hW : Lipschitz3 W L) (p : Pt ℚ) (n : ℕ) (hS : 0 ≤ S) (hM0 : 0 ≤ M)
    (k : ℤ) (hk : FloatTime.Tick k (p.dt / 2)) (hkt : ∀ i : ℕ, i ≤ 2 * n → FloatTime.Tick k (p.time + i * (p.dt / 2))) (hhL : |p.dt| * L ≤ 1)
    (hM : ∀ i < n, ∀ q, after (rk4_3D r uvw) i p = .ok q → |q.lon| ≤ M ∧ |q.lat| ≤ M ∧ |q.depth| ≤ M) (q : Pt ℚ)
    (hq : after (rk4_3D r uvw) n p = .ok q) :
    ∃ q', after (Advection.rk4_3D (flow3 U V W)) n p = .ok q' ∧ q.time = q'.time ∧
      |q.lon - q'.lon| ≤ n * (3 * (perStep ε M S p.dt + |p.dt| * δ)) * (1 + 2 * (|p.dt| * L)) ^ n ∧
      |q.lat - q'.lat| ≤ n * (3 * (perStep ε M S p.dt + |p.dt| * δ)) * (1 + 2 * (|p.dt| * L)) ^ n ∧
      |q.depth - q'.depth| ≤ n * (3 * (perStep ε M S p.dt + |p.dt| * δ)) * (1 + 2 * (|p.dt| * L)) ^ n := by
  have hc : 0 ≤ 3 * (perStep ε M S p.dt + |p.dt| * δ) :=
    mul_nonneg (by norm_num) (add_nonneg (mul_nonneg (by linarith [one_le_pow' hε 8]) (add_nonneg hM0 (mul_nonneg hS (abs_nonneg _))))
      (mul_nonneg (abs_nonneg _) hδ))
  have ha : 1 ≤ 1 + 2 * (|p.dt| * L) := by linarith [mul_nonneg (abs_nonneg p.dt) hL]
  suffices H : ∃ q', after (Advection.rk4_3D (flow3 U V W)) n p = .ok q' ∧ q.time = q'.time ∧ q.dt = q'.dt ∧ q.dt = p.dt ∧
      q.time = p.time + n * p.dt ∧
      |q.lon - q'.lon| ≤ n * (3 * (perStep ε M S p.dt + |p.dt| * δ)) * (1 + 2 * (|p.dt| * L)) ^ n ∧
      |q.lat - q'.lat| ≤ n * (3 * (perStep ε M S p.dt + |p.dt| * δ)) * (1 + 2 * (|p.dt| * L)) ^ n ∧
      |q.depth - q'.depth| ≤ n * (3 * (perStep ε M S p.dt + |p.dt| * δ)) * (1 + 2 * (|p.dt| * L)) ^ n by
    obtain ⟨q', h1, h2, -, -, -, h3, h4, h5⟩ := H
    exact ⟨q', h1, h2, h3, h4, h5⟩
  induction n generalizing q with
  | zero =>
    rw [after] at hq
    cases hq
    exact ⟨p, rfl, rfl, rfl, rfl, by simp, by simp, by simp, by simp⟩
  | succ n ih =>
    obtain ⟨a, b, h1, h2, rfl⟩ := after_succ hq
    obtain ⟨a', e1, e2, e4, e5, e5', e6, e7, e8⟩ := ih (fun i hi => hkt i (by omega)) (fun i hi => hM i (by omega)) a h1
    obtain ⟨m1, m2, m3⟩ := hM n (by omega) a h1
    have t1 : FloatTime.Tick k (a.time + a.dt / 2) := by
      have := hkt (2 * n + 1) (by omega)
      rw [e5', e5]
      convert this using 1
      push_cast; ring
    have t2 : FloatTime.Tick k (a.time + a.dt) := by
      have := hkt (2 * n + 2) (by omega)
      rw [e5', e5]
      convert this using 1
      push_cast; ring
    obtain ⟨b', f1, f2, f4, f5, f6, f7, f8, f9⟩ :=
      rk4_3D_step hr hε hL hδ hs hU hV hW (by rw [e5]; exact hk) t1 t2 (by rw [e5]; exact hhL) e2 e4 e6 e7 e8 m1 m2 m3 h2
    rw [e5] at f7 f8 f9
    refine ⟨{ b' with time := b'.time + b'.dt }, ?_, ?_, f4, by rw [← e5]; exact f5, ?_, ?_, ?_, ?_⟩
    · rw [after, e1]
      simp only [f1]
    · dsimp only; rw [f2, f4]
    · dsimp only; rw [f6, f5, e5', e5]; push_cast; ring
    · exact le_trans f7 (growth ha hc n le_rfl)
    · exact le_trans f8 (growth ha hc n le_rfl)
    · exact le_trans f9 (growth ha hc n le_rfl)

/-! ### Non-vacuity -/

example : jit32.Within (1 / 2 ^ 24) :=
  have h := rounds_of_double FloatTime.f64_double (ε := 1 / 2 ^ 24) (by norm_num)
  ⟨h, f32_rounds, f32_rounds, f32_rounds, FloatTime.f64_double⟩

example : scipy64.Within (1 / 2 ^ 53) :=
  have h := rounds_of_double FloatTime.f64_double (ε := 1 / 2 ^ 53) le_rfl
  ⟨h, h, fun x => by simp [scipy64], h, FloatTime.f64_double⟩

/-- Water that turns around the origin, known for |lon|, |lat| ≤ 90. -/
def exFlow : Flow ℚ := fun _ _ y x => if |x| ≤ 90 ∧ |y| ≤ 90 then .ok (-y / 1000000, x / 1000000) else .error .outOfBound

def exU : Vel := fun _ _ y _ => -y / 1000000
def exV : Vel := fun _ _ _ x => x / 1000000

/-- The hypotheses of C95_rk4 with δ = 0, S = 10^-4, L = 10^-6, M = 90 and steps of five minutes. -/
example : Samples exFlow exU exV 0 (1 / 10000) ∧ Lipschitz exU (1 / 1000000) ∧ Lipschitz exV (1 / 1000000) ∧ |(300 : ℚ)| * (1 / 1000000) ≤ 1 ∧
    FloatTime.Tick 0 (300 / 2) := by
  refine ⟨?_, ?_, ?_, by norm_num, ⟨150, by norm_num⟩, by norm_num⟩
  · intro t z y x a b h
    unfold exFlow at h
    split at h
    · rename_i c
      cases h
      refine ⟨⟨by simp [exU], ?_⟩, by simp [exV], ?_⟩ <;> rw [abs_div] <;> norm_num <;> linarith [c.1, c.2]
    · cases h
  · intro t z y x y' x' e hy _
    unfold exU
    rw [show -y / 1000000 - -y' / 1000000 = -((y - y') / 1000000) by ring, abs_neg, abs_div]
    norm_num
    linarith
  · intro t z y x y' x' e _ hx
    unfold exV
    rw [show x / 1000000 - x' / 1000000 = (x - x') / 1000000 by ring, abs_div]
    norm_num
    linarith

/-- Three steps are possible, and the particle moves. -/
example : (match after (rk4 jit32 exFlow) 3 ⟨0, 300, 10, 20, 0⟩ with
    | .ok q => decide (q.time = 900 ∧ q.lon < 10 ∧ 20 < q.lat) | .error _ => false) = true := by decide +kernel

/-! ### Slow currents -/

/-- C95: the growth with the number of steps cannot be avoided. If the displacement of one step is lost in rounding, the particle never moves, while
in exact arithmetic it drifts away for ever. -/
theorem C95_drift_lost (r : Arith) (u : ℚ) (p : Pt ℚ) (hlon : last r p.lon u u u u p.dt = p.lon) (hlat : last r p.lat 0 0 0 0 p.dt = p.lat) (n : ℕ) :
    (∃ q, after (rk4 r (Advection.uniform u 0)) n p = .ok q ∧ q.lon = p.lon ∧ q.lat = p.lat ∧ q.time = p.time + n * p.dt) ∧
    ∃ q', after (Advection.rk4 (Advection.uniform u 0)) n p = .ok q' ∧ q'.lon = p.lon + n * (u * p.dt) ∧ q'.time = p.time + n * p.dt := by
  constructor
  · suffices H : after (rk4 r (Advection.uniform u 0)) n p = .ok { p with time := p.time + n * p.dt } from ⟨_, H, rfl, rfl, rfl⟩
    induction n with
    | zero => rw [after]; simp
    | succ n ih =>
      rw [after, ih]
      simp only [rk4, Advection.uniform, hlon, hlat]
      congr 2
      push_cast; ring
  · suffices H : after (Advection.rk4 (Advection.uniform u 0)) n p = .ok { p with time := p.time + n * p.dt, lon := p.lon + n * (u * p.dt) } from
      ⟨_, H, rfl, rfl⟩
    induction n with
    | zero => rw [after]; simp
    | succ n ih =>
      rw [after, ih]
      simp only [Advection.rk4, Advection.uniform]
      congr 2
      · push_cast; ring
      · push_cast; ring
      · ring

/-- For instance in JIT mode with positions in single precision: at 170 degrees east, in a current of 10^-8 degrees (about a millimetre) per second,
with steps of five minutes. -/
example : last jit32 170 (f32 (1 / 10 ^ 8)) (f32 (1 / 10 ^ 8)) (f32 (1 / 10 ^ 8)) (f32 (1 / 10 ^ 8)) 300 = 170 ∧ last jit32 30 0 0 0 0 300 = 30 := by
  decide +kernel

end Parcels.FloatAdvect
