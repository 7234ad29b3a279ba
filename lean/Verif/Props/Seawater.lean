import Verif.Model.Seawater
import Verif.Spec.Seawater
import Mathlib.Algebra.Order.Ring.Pow
import Mathlib.Tactic.Ring
import Mathlib.Tactic.FieldSimp
import Mathlib.Tactic.Linarith
import Mathlib.Tactic.NormNum
import Mathlib.Tactic.Positivity

/-!
C80: the seawater kernels compute the published formulas.
-/

namespace Parcels.Seawater

/-- `p'` is the particle `p` with the variable `name` set to `x` and nothing else changed. -/
def Sets (p p' : Part) (name : String) (x : ℝ) : Prop :=
  p'.lon = p.lon ∧ p'.lat = p.lat ∧ p'.depth = p.depth ∧ p'.var name = x ∧ ∀ n, n ≠ name → p'.var n = p.var n

theorem sets_set (p : Part) (name : String) (x : ℝ) : Sets p (p.set name x) name x :=
  ⟨rfl, rfl, rfl, if_pos rfl, fun _ h => if_neg h⟩

theorem fpow_half {x : ℝ} (h : 0 ≤ x) : fpow x 0.5 = some (Real.sqrt x) := by
  rw [fpow, if_neg (not_lt.mpr h), Real.sqrt_eq_rpow]; norm_num

theorem fpow_three_halves {x : ℝ} (h : 0 ≤ x) : fpow x 1.5 = some (x * Real.sqrt x) := by
  rw [fpow, if_neg (not_lt.mpr h), show (1.5 : ℝ) = 1 + 1 / 2 by norm_num, Real.rpow_add_of_nonneg h (by norm_num) (by norm_num),
    Real.rpow_one, Real.sqrt_eq_rpow]

theorem sin_max_sq (x : ℝ) : Real.sin (max x (-x)) ^ 2 = Real.sin x ^ 2 := by
  rcases max_choice x (-x) with h | h <;> rw [h]
  rw [Real.sin_neg]; ring

/-- The factor of the pressure in Saunders's formula. -/
noncomputable def factor (lat : ℝ) : ℝ := 1 - (5.92e-3 + 5.25e-3 * Real.sin (lat * Real.pi / 180) ^ 2)

theorem factor_pos (lat : ℝ) : 0 < factor lat := by
  unfold factor
  have := Real.sin_sq_le_one (lat * Real.pi / 180)
  norm_num1; linarith

theorem pressure_eq (p : Part) : pressureFromLatDepth p =
    (fpow (factor p.lat ^ 2 - 8.84e-6 * p.depth) 0.5).map fun r => p.set "pressure" ((factor p.lat - r) / 4.42e-6) := by
  unfold pressureFromLatDepth
  have h : Real.sin (max (p.lat * (Real.pi / 180.0)) (-1 * p.lat * (Real.pi / 180.0))) ^ 2 = Real.sin (p.lat * Real.pi / 180) ^ 2 := by
    rw [show -1 * p.lat * (Real.pi / 180.0) = -(p.lat * (Real.pi / 180.0)) by rw [neg_one_mul, neg_mul], sin_max_sq]
    rw [show p.lat * (Real.pi / 180.0) = p.lat * Real.pi / 180 by rw [show (180.0 : ℝ) = 180 by norm_num]; ring]
  dsimp only
  rw [h, show (5.92e-3 + Real.sin (p.lat * Real.pi / 180) ^ 2 * 5.25e-3 : ℝ) = 5.92e-3 + 5.25e-3 * Real.sin (p.lat * Real.pi / 180) ^ 2 by
    rw [mul_comm]]
  rfl

/-- C80: the pressure is the one at which Saunders's formula gives the depth of the particle: the only one below the pressure where the
formula has its maximum. Deeper than that maximum (more than 100 km) there is no result. -/
theorem C80_pressure (p : Part) :
    (p.depth ≤ factor p.lat ^ 2 / 8.84e-6 →
      ∃ p' x, pressureFromLatDepth p = some p' ∧ Sets p p' "pressure" x ∧ saundersDepth p.lat x = p.depth ∧
        ∀ y, y ≤ factor p.lat / 4.42e-6 → saundersDepth p.lat y = p.depth → y = x) ∧
    (factor p.lat ^ 2 / 8.84e-6 < p.depth → pressureFromLatDepth p = none ∧ ∀ y, saundersDepth p.lat y < p.depth) := by
  have hS : ∀ y, saundersDepth p.lat y = factor p.lat * y - 2.21e-6 * y ^ 2 := fun y => rfl
  have hf := factor_pos p.lat
  rw [pressure_eq]
  generalize factor p.lat = f at *
  constructor
  · intro h
    have h' : 0 ≤ f ^ 2 - 8.84e-6 * p.depth := by
      rw [le_div_iff₀ (by norm_num)] at h; linarith
    rw [fpow_half h']
    refine ⟨_, _, rfl, sets_set _ _ _, ?_, ?_⟩
    · rw [hS]
      have := Real.sq_sqrt h'
      generalize Real.sqrt (f ^ 2 - 8.84e-6 * p.depth) = r at *
      norm_num at *; nlinarith
    · intro y hy hd
      rw [hS] at hd
      have h2 : f ^ 2 - 8.84e-6 * p.depth = (f - 4.42e-6 * y) ^ 2 := by rw [← hd]; norm_num; ring
      rw [h2, Real.sqrt_sq]
      · norm_num
      · rw [le_div_iff₀ (by norm_num)] at hy; linarith
  · intro h
    rw [div_lt_iff₀ (by norm_num)] at h
    constructor
    · rw [fpow, if_pos (by linarith)]; rfl
    · intro y
      rw [hS]
      norm_num at *
      nlinarith [sq_nonneg (f - 4.42e-6 * y)]

/-- C80: the pressure is zero at the surface and grows with depth; it is the same north and south of the equator. -/
theorem C80_pressure_order (p q : Part) (hl : |p.lat| = |q.lat|) {x y : ℝ} {p' q' : Part} (hp : pressureFromLatDepth p = some p')
    (hq : pressureFromLatDepth q = some q') (hx : Sets p p' "pressure" x) (hy : Sets q q' "pressure" y) :
    (p.depth = 0 → x = 0) ∧ (p.depth = q.depth → x = y) ∧ (p.depth < q.depth → x < y) := by
  have hlat : factor p.lat = factor q.lat := by
    rcases abs_eq_abs.mp hl with h | h
    · rw [h]
    · unfold factor; rw [h, show -q.lat * Real.pi / 180 = -(q.lat * Real.pi / 180) by ring, Real.sin_neg]; ring
  have key : ∀ r r' : Part, ∀ z, pressureFromLatDepth r = some r' → Sets r r' "pressure" z →
      0 ≤ factor r.lat ^ 2 - 8.84e-6 * r.depth ∧ z = (factor r.lat - Real.sqrt (factor r.lat ^ 2 - 8.84e-6 * r.depth)) / 4.42e-6 := by
    intro r r' z h hz
    rw [pressure_eq] at h
    by_cases h' : 0 ≤ factor r.lat ^ 2 - 8.84e-6 * r.depth
    · refine ⟨h', ?_⟩
      rw [fpow_half h'] at h
      cases h
      rw [← hz.2.2.2.1]; rfl
    · rw [fpow, if_pos (not_le.mp h')] at h; cases h
  obtain ⟨hp0, hxv⟩ := key p p' x hp hx
  obtain ⟨hq0, hyv⟩ := key q q' y hq hy
  refine ⟨?_, ?_, ?_⟩
  · intro h
    rw [hxv, h, mul_zero, sub_zero, Real.sqrt_sq (factor_pos _).le, sub_self, zero_div]
  · intro h
    rw [hxv, hyv, h, hlat]
  · intro h
    rw [hxv, hyv, ← hlat]
    apply div_lt_div_of_pos_right _ (by norm_num)
    have : Real.sqrt (factor p.lat ^ 2 - 8.84e-6 * q.depth) < Real.sqrt (factor p.lat ^ 2 - 8.84e-6 * p.depth) := by
      apply Real.sqrt_lt_sqrt
      · rw [hlat]; exact hq0
      · have : (0 : ℝ) < 8.84e-6 := by norm_num
        nlinarith
    linarith

/-- Two particles at 1000 and 2000 m and opposite latitudes. -/
example : |(⟨0, 30, 1000, fun _ => 0⟩ : Part).lat| = |(⟨5, -30, 2000, fun _ => 0⟩ : Part).lat| ∧
    (2000 : ℝ) ≤ factor (-30) ^ 2 / 8.84e-6 := by
  constructor
  · norm_num
  · have h : (0.98 : ℝ) ≤ factor (-30) := by
      unfold factor
      have := Real.sin_sq_le_one (-30 * Real.pi / 180)
      generalize Real.sin (-30 * Real.pi / 180) ^ 2 = x at *
      norm_num1; linarith
    rw [le_div_iff₀ (by norm_num)]
    norm_num at *; nlinarith

theorem adtg_eq (s t p : ℝ) : adtg s t p = lapse s t p := by
  unfold adtg lapse
  simp only [poly]
  ring

/-- C80: `AdiabticTemperatureGradient` gives the published gradient at the salinity, the temperature (on the older scale) and the pressure
of the particle. -/
theorem C80_gradient (p : Part) : Sets p (adiabaticGradient p) "adtg" (lapse (p.var "S") (1.00024 * p.var "T") (p.var "pressure")) := by
  unfold adiabaticGradient
  dsimp only
  rw [adtg_eq, mul_comm (p.var "T")]
  exact sets_set _ _ _

theorem fromTo_eq (s t pres pr : ℝ) :
    fromTo s t pres pr = gill.step (fun x y => lapse s y x) pres (1.00024 * t) (pr - pres) / 1.00024 := by
  have h2 : Real.sqrt 2 * Real.sqrt 2 = 2 := Real.mul_self_sqrt (by norm_num)
  have h0 : Real.sqrt 2 ≠ 0 := by positivity
  have h1 : 1 / Real.sqrt 2 = Real.sqrt 2 / 2 := by field_simp; linarith
  have h3 : 3 / Real.sqrt 2 = 3 * (Real.sqrt 2 / 2) := by rw [← h1]; ring
  unfold fromTo Tableau.step
  simp only [adtg_eq, h1, h3]
  generalize hr : Real.sqrt 2 = r at *
  have hg : gill = ⟨1 / 2, 1 / 2, 1, 1 / 2, (r - 1) / 2, (2 - r) / 2, 0, -(r / 2), (2 + r) / 2, 1 / 6, (2 - r) / 6, (2 + r) / 6, 1 / 6⟩ := by
    rw [← hr]; rfl
  rw [hg]
  dsimp only
  generalize hd : pr - pres = d
  rw [mul_comm t 1.00024]
  generalize 1.00024 * t = T
  congr 1
  generalize hk1 : lapse s T pres = k1
  rw [show T + 0.5 * (d * k1) = T + d * (1 / 2 * k1) by norm_num; ring, show pres + 0.5 * d = pres + 1 / 2 * d by norm_num]
  generalize hk2 : lapse s (T + d * (1 / 2 * k1)) (pres + 1 / 2 * d) = k2
  rw [show T + d * (1 / 2 * k1) + (1 - r / 2) * (d * k2 - d * k1) = T + d * ((r - 1) / 2 * k1 + (2 - r) / 2 * k2) by ring]
  generalize hk3 : lapse s (T + d * ((r - 1) / 2 * k1 + (2 - r) / 2 * k2)) (pres + 1 / 2 * d) = k3
  rw [show T + d * ((r - 1) / 2 * k1 + (2 - r) / 2 * k2) + (1 + r / 2) * (d * k3 - ((2 - r) * (d * k2) + (-2 + 3 * (r / 2)) * (d * k1)))
      = T + d * (0 * k1 + -(r / 2) * k2 + (2 + r) / 2 * k3) by linear_combination (1 / 2 * d * k2 - 3 / 4 * d * k1) * h2, one_mul]
  generalize lapse s (T + d * (0 * k1 + -(r / 2) * k2 + (2 + r) / 2 * k3)) (pres + d) = k4
  linear_combination (-(1 / 2) * d * k2 + 3 / 4 * d * k1) * h2

/-- C80: `PtempFromTemp` integrates the published gradient from the pressure of the particle to the reference pressure in one step of Gill's
method, with the salinity and the temperature at the position of the particle. -/
theorem C80_potential_temperature (fs : Fset) (time : ℝ) (p : Part) :
    Sets p (ptempFromTemp fs time p) "potemp"
      (gill.step (fun x y => lapse (fs.psu_salinity time p.depth p.lat p.lon) y x) (p.var "pressure")
        (1.00024 * fs.temperature time p.depth p.lat p.lon) (fs.refpressure - p.var "pressure") / 1.00024) := by
  rw [← fromTo_eq]; exact sets_set _ _ _

/-- C80: `TempFromPtemp` does the same from the reference pressure to the pressure of the particle. -/
theorem C80_temperature (fs : Fset) (time : ℝ) (p : Part) :
    Sets p (tempFromPtemp fs time p) "temp"
      (gill.step (fun x y => lapse (fs.psu_salinity time p.depth p.lat p.lon) y x) fs.refpressure
        (1.00024 * fs.potemperature time p.depth p.lat p.lon) (p.var "pressure" - fs.refpressure) / 1.00024) := by
  rw [← fromTo_eq]; exact sets_set _ _ _

/-- C80: Gill's method has order four. -/
theorem C80_order_four : gill.OrderFour := by
  have h2 : Real.sqrt 2 * Real.sqrt 2 = 2 := Real.mul_self_sqrt (by norm_num)
  constructor <;> simp only [gill] <;> first | (ring1) | nlinarith [h2]

/-- C80: at the reference pressure, the potential temperature is the temperature. -/
theorem C80_reference (fs : Fset) (time : ℝ) (p : Part) (h : p.var "pressure" = fs.refpressure) :
    (ptempFromTemp fs time p).var "potemp" = fs.temperature time p.depth p.lat p.lon ∧
    (tempFromPtemp fs time p).var "temp" = fs.potemperature time p.depth p.lat p.lon := by
  rw [(C80_potential_temperature fs time p).2.2.2.1, (C80_temperature fs time p).2.2.2.1, h]
  simp only [Tableau.step, sub_self, zero_mul, add_zero]
  constructor <;> norm_num

/-- A particle at 1000 m with the pressure as reference. -/
noncomputable example : ∃ (fs : Fset) (p : Part), p.var "pressure" = fs.refpressure ∧ fs.refpressure ≠ 0 :=
  ⟨⟨fun _ _ _ _ => 35, fun _ _ _ _ => 10, fun _ _ _ _ => 10, fun _ _ _ _ => 10, fun _ _ _ _ => 0, fun _ _ _ _ => 35, 1000⟩,
    ⟨0, 0, 1000, fun _ => 1000⟩, rfl, by norm_num⟩

/-- C80: `PolyTEOS10_bsq` is the polynomial with the published coefficients, at the values of the fields at the position of the particle,
and fails only for absolute salinities below -32. -/
theorem C80_teos (fs : Fset) (time : ℝ) (p : Part) :
    (-32 ≤ fs.abs_salinity time p.depth p.lat p.lon → ∃ p', polyTEOS10 fs time p = some p' ∧
      Sets p p' "density" (teos (fs.abs_salinity time p.depth p.lat p.lon) (fs.cons_temperature time p.depth p.lat p.lon) p.depth)) ∧
    (fs.abs_salinity time p.depth p.lat p.lon < -32 → polyTEOS10 fs time p = none) := by
  unfold polyTEOS10
  generalize fs.abs_salinity time p.depth p.lat p.lon = SA
  generalize fs.cons_temperature time p.depth p.lat p.lon = CT
  constructor
  · intro h
    have h' : 0 ≤ (SA + 32) / (40 * 35.16504 / 35) := div_nonneg (by linarith) (by norm_num)
    dsimp only
    rw [fpow_half h']
    refine ⟨_, rfl, ?_⟩
    have e : (SA + 32) / (40 * 35.16504 / 35) = (SA + 32) * 35 / (40 * 35.16504) := by norm_num; ring
    rw [e]
    unfold teos
    generalize Real.sqrt ((SA + 32) * 35 / (40 * 35.16504)) = ss
    rw [neg_neg, show (1e4 : ℝ) = 10000 by norm_num]
    generalize CT / 40 = tt
    generalize p.depth / 10000 = zz
    have e : ∀ x y, x = y → Sets p (p.set "density" x) "density" y := fun x y h => h ▸ sets_set _ _ _
    apply e
    simp only [teosTable, List.map_cons, List.map_nil, List.sum_cons, List.sum_nil]
    ring
  · intro h
    dsimp only
    rw [fpow, if_pos (div_neg_of_neg_of_pos (by linarith) (by norm_num))]
    rfl

/-- The oceanographic range of the equation of state: salinity, temperature, pressure in bar. -/
structure InOcean (S T P : ℝ) : Prop where
  s0 : 0 ≤ S
  s1 : S ≤ 42
  t0 : -2 ≤ T
  t1 : T ≤ 40
  p0 : 0 ≤ P
  p1 : P ≤ 1000

theorem rhoSt0_eq (S T : ℝ) : rhoSt0 S T (S * Real.sqrt S) = density0 S T := by
  unfold rhoSt0 density0; simp only [poly]; ring
theorem kSt0_eq (S T : ℝ) : kSt0 S T (S * Real.sqrt S) = modulus0 S T := by
  unfold kSt0 modulus0; simp only [poly]; ring
theorem bulkA_eq (S T : ℝ) : bulkA S T (S * Real.sqrt S) = modulus1 S T := by
  unfold bulkA modulus1; simp only [poly]; ring
theorem bulkB_eq (S T : ℝ) : bulkB S T = modulus2 S T := by
  unfold bulkB modulus2; simp only [poly]; ring

/-- The kernel in terms of the published coefficients. -/
theorem unesco_eq (fs : Fset) (time : ℝ) (p : Part) {S T P K : ℝ} (hS : fs.psu_salinity time p.depth p.lat p.lon = S)
    (hT : fs.cons_temperature time p.depth p.lat p.lon = T) (hP : fs.cons_pressure time p.depth p.lat p.lon = P) (h0 : 0 ≤ S)
    (hK : modulus0 S T + modulus1 S T * P + modulus2 S T * T ^ 2 = K) :
    unescoDensity fs time p = if K = 0 then none else if 1 - P / K = 0 then none else some (p.set "density" (density0 S T / (1 - P / K))) := by
  unfold unescoDensity
  dsimp only
  rw [hS, hT, hP, fpow_three_halves h0, Option.bind_some, rhoSt0_eq, kSt0_eq, bulkA_eq, bulkB_eq, hK]

theorem powers {T : ℝ} (h0 : -2 ≤ T) (h1 : T ≤ 40) :
    0 ≤ T ^ 2 ∧ T ^ 2 ≤ 1600 ∧ -8 ≤ T ^ 3 ∧ T ^ 3 ≤ 64000 ∧ 0 ≤ T ^ 4 ∧ T ^ 4 ≤ 2560000 ∧ -32 ≤ T ^ 5 ∧ T ^ 5 ≤ 102400000 := by
  have m3 := (Odd.strictMono_pow (R := ℝ) (n := 3) (by decide)).monotone
  have m5 := (Odd.strictMono_pow (R := ℝ) (n := 5) (by decide)).monotone
  have a := m3 h0; have b := m3 h1; have c := m5 h0; have d := m5 h1
  norm_num at a b c d
  have e : T ^ 2 ≤ 1600 := by nlinarith
  refine ⟨by positivity, e, a, b, by positivity, ?_, c, d⟩
  have : T ^ 4 = T ^ 2 * T ^ 2 := by ring
  rw [this]; nlinarith [sq_nonneg T]

theorem halfCube {S : ℝ} (h0 : 0 ≤ S) (h1 : S ≤ 42) : 0 ≤ S * Real.sqrt S ∧ S * Real.sqrt S ≤ 273 := by
  have : Real.sqrt S ≤ 6.5 := by rw [Real.sqrt_le_left (by norm_num)]; norm_num; linarith
  have hs := Real.sqrt_nonneg S
  exact ⟨mul_nonneg h0 hs, by norm_num at *; nlinarith⟩

/-- Bounds of the published coefficients in the oceanographic range. -/
theorem bounds {S T P : ℝ} (h : InOcean S T P) :
    (900 ≤ density0 S T ∧ density0 S T ≤ 1100) ∧ 15000 ≤ modulus0 S T ∧ 3 ≤ modulus1 S T ∧
      (-2.1e-4 ≤ modulus2 S T ∧ modulus2 S T ≤ 2.1e-4) := by
  obtain ⟨s0, s1, t0, t1, -, -⟩ := h
  obtain ⟨a2, b2, a3, b3, a4, b4, a5, b5⟩ := powers t0 t1
  obtain ⟨q0, q1⟩ := halfCube s0 s1
  have s2 : 0 ≤ S ^ 2 ∧ S ^ 2 ≤ 1764 := ⟨by positivity, by nlinarith⟩
  have prod : ∀ {l u x y m : ℝ}, l ≤ x → x ≤ u → l ≤ 0 → 0 ≤ u → 0 ≤ y → y ≤ m → l * m ≤ x * y ∧ x * y ≤ u * m := by
    intro l u x y m h1 h2 h3 h4 h5 h6
    constructor <;> nlinarith
  refine ⟨?_, ?_, ?_, ?_⟩
  · have hB := prod (x := poly [8.2449e-1, -4.0899e-3, 7.6438e-5, -8.2467e-7, 5.3875e-9] T) (l := 0) (u := 1) (y := S) (m := 42)
      (by simp only [poly]; norm_num1; ring_nf; linarith) (by simp only [poly]; norm_num1; ring_nf; linarith) le_rfl (by norm_num) s0 s1
    have hC := prod (x := poly [-5.7246e-3, 1.0227e-4, -1.6546e-6] T) (l := -0.01) (u := 0.01) (y := S * Real.sqrt S) (m := 273)
      (by simp only [poly]; norm_num1; ring_nf; linarith) (by simp only [poly]; norm_num1; ring_nf; linarith) (by norm_num) (by norm_num) q0 q1
    have hA : 950 ≤ poly [999.842594, 6.793953e-2, -9.095290e-3, 1.001685e-4, -1.120083e-6, 6.536332e-9] T ∧
        poly [999.842594, 6.793953e-2, -9.095290e-3, 1.001685e-4, -1.120083e-6, 6.536332e-9] T ≤ 1020 := by
      simp only [poly]; constructor <;> (norm_num1; ring_nf; linarith)
    unfold density0
    norm_num1 at hB hC
    constructor <;> (norm_num1; linarith [hB.1, hB.2, hC.1, hC.2, hA.1, hA.2, s2.1, s2.2])
  · have hF := prod (x := poly [54.6746, -0.603459, 1.09987e-2, -6.1670e-5] T) (l := 0) (u := 100) (y := S) (m := 42)
      (by simp only [poly]; norm_num1; ring_nf; linarith) (by simp only [poly]; norm_num1; ring_nf; linarith) le_rfl (by norm_num) s0 s1
    have hG := prod (x := poly [7.944e-2, 1.6483e-2, -5.3009e-4] T) (l := -0.82) (u := 1) (y := S * Real.sqrt S) (m := 273)
      (by simp only [poly]; norm_num1; ring_nf; linarith) (by simp only [poly]; norm_num1; ring_nf; linarith) (by norm_num) (by norm_num) q0 q1
    have hK : 15300 ≤ poly [19652.21, 148.4206, -2.327105, 1.360477e-2, -5.155288e-5] T := by
      simp only [poly]; norm_num1; ring_nf; linarith
    unfold modulus0
    norm_num1 at hF hG
    linarith [hF.1, hG.1]
  · have hI := prod (x := poly [2.2838e-3, -1.0981e-5, -1.6078e-6] T) (l := -0.001) (u := 1) (y := S) (m := 42)
      (by simp only [poly]; norm_num1; ring_nf; linarith) (by simp only [poly]; norm_num1; ring_nf; linarith) (by norm_num) (by norm_num) s0 s1
    have hA : 3.1 ≤ poly [3.2399, 1.43713e-3, 1.16092e-4, -5.77905e-7] T := by
      simp only [poly]; norm_num1; ring_nf; linarith
    unfold modulus1
    norm_num1 at hI hA ⊢
    linarith [hI.1]
  · have hM := prod (x := poly [-9.9348e-7, 2.0816e-8, 9.1697e-10] T) (l := -1.04e-6) (u := 1.4e-6) (y := S) (m := 42)
      (by simp only [poly]; norm_num1; ring_nf; linarith) (by simp only [poly]; norm_num1; ring_nf; linarith) (by norm_num) (by norm_num) s0 s1
    have hB : -1.61e-4 ≤ poly [8.50935e-5, -6.12293e-6, 5.2787e-8] T ∧ poly [8.50935e-5, -6.12293e-6, 5.2787e-8] T ≤ 1.5e-4 := by
      constructor
      · simp only [poly]; norm_num1; ring_nf; linarith
      · simp only [poly]; norm_num1; ring_nf; nlinarith
    unfold modulus2
    norm_num1 at hM hB ⊢
    constructor <;> linarith [hM.1, hM.2, hB.1, hB.2]

theorem secant {ρ P K : ℝ} (hK : P < K) (hP : 0 ≤ P) : K ≠ 0 ∧ 1 - P / K ≠ 0 ∧ ρ / (1 - P / K) = ρ + ρ * (P / (K - P)) := by
  have h0 : K ≠ 0 := by linarith
  have h1 : K - P ≠ 0 := by linarith
  have e : 1 - P / K = (K - P) / K := by field_simp
  refine ⟨h0, ?_, ?_⟩
  · rw [e]; exact div_ne_zero h1 h0
  · rw [e]; field_simp; ring

/-- C80: in the oceanographic range `UNESCODensity` gives a density that is at most 1.2 kg/m³ from the equation of state of UNESCO, not less
than the density at the surface, and equal to the published one only at the surface, where the pressure in bar and the temperature in degrees
have the same magnitude, or where the coefficient of the last term vanishes. Missing: equality (false, `C80_density_fails`). -/
theorem C80_density_partial (fs : Fset) (time : ℝ) (p : Part) {S T P : ℝ} (hS : fs.psu_salinity time p.depth p.lat p.lon = S)
    (hT : fs.cons_temperature time p.depth p.lat p.lon = T) (hP : fs.cons_pressure time p.depth p.lat p.lon = P) (h : InOcean S T P) :
    ∃ p' x, unescoDensity fs time p = some p' ∧ Sets p p' "density" x ∧ |x - density S T P| ≤ 1.2 ∧ density S T 0 ≤ x ∧
      (x = density S T P ↔ P = 0 ∨ P ^ 2 = T ^ 2 ∨ modulus2 S T = 0) := by
  obtain ⟨⟨r0, r1⟩, k0, k1, b0, b1⟩ := bounds h
  rw [unesco_eq fs time p hS hT hP h.s0 rfl]
  unfold density
  obtain ⟨a2, b2, -⟩ := powers h.t0 h.t1
  have p2 : 0 ≤ P ^ 2 ∧ P ^ 2 ≤ 1000000 := ⟨by positivity, by nlinarith [h.p0, h.p1]⟩
  obtain ⟨-, -, -, -, hp0, hp1⟩ := h
  rw [zero_div, sub_zero, div_one]
  generalize density0 S T = ρ at *
  generalize modulus0 S T = A at *
  generalize modulus1 S T = B at *
  generalize modulus2 S T = C at *
  norm_num1 at b0 b1
  have hBP : 3 * P ≤ B * P := by nlinarith
  have hc : -(0.4 : ℝ) ≤ C * T ^ 2 := by norm_num1; nlinarith
  have hu : -(210 : ℝ) ≤ C * P ^ 2 := by nlinarith
  have hcK : 14000 ≤ A + B * P + C * T ^ 2 - P := by norm_num1 at hc; linarith
  have huK : 14000 ≤ A + B * P + C * P ^ 2 - P := by linarith
  have hd : |C * P ^ 2 - C * T ^ 2| ≤ 210 := by
    rw [← mul_sub, abs_mul]
    have h1 : |C| ≤ 21 / 100000 := abs_le.mpr ⟨by linarith, by linarith⟩
    have h2 : |P ^ 2 - T ^ 2| ≤ 1000000 := abs_le.mpr ⟨by linarith [p2.1], by linarith [p2.2]⟩
    have := mul_le_mul h1 h2 (abs_nonneg _) (by norm_num)
    linarith
  have hiff : (C * P ^ 2 - C * T ^ 2 = 0) ↔ (P ^ 2 = T ^ 2 ∨ C = 0) := by
    rw [← mul_sub, mul_eq_zero, sub_eq_zero, or_comm]
  generalize hK : A + B * P + C * T ^ 2 = K at *
  generalize hL : A + B * P + C * P ^ 2 = L at *
  obtain ⟨e1, e2, e3⟩ := secant (ρ := ρ) (show P < K by linarith) hp0
  obtain ⟨-, -, e4⟩ := secant (ρ := ρ) (show P < L by linarith) hp0
  rw [if_neg e1, if_neg e2]
  have hLK : C * P ^ 2 - C * T ^ 2 = L - K := by rw [← hK, ← hL]; ring
  rw [hLK] at hd hiff
  have hK0 : K - P ≠ 0 := by linarith
  have hL0 : L - P ≠ 0 := by linarith
  have key : ρ / (1 - P / K) - ρ / (1 - P / L) = ρ * P * (L - K) / ((K - P) * (L - P)) := by
    rw [e3, e4]; field_simp; ring
  refine ⟨_, _, rfl, sets_set _ _ _, ?_, ?_, ?_⟩
  · rw [key, abs_div, abs_mul, abs_of_nonneg (show 0 ≤ ρ * P by positivity), abs_of_pos (show 0 < (K - P) * (L - P) by nlinarith),
      div_le_iff₀ (by nlinarith)]
    have h1 : ρ * P ≤ 1100 * 1000 := mul_le_mul r1 hp1 hp0 (by norm_num)
    have h2 : ρ * P * |L - K| ≤ 1100 * 1000 * 210 := mul_le_mul h1 hd (abs_nonneg _) (by norm_num)
    have h3 : (14000 : ℝ) * 14000 ≤ (K - P) * (L - P) := mul_le_mul hcK huK (by norm_num) (by linarith)
    norm_num1 at h2 h3 ⊢; linarith
  · rw [e3]
    have : 0 ≤ P / (K - P) := div_nonneg hp0 (by linarith)
    nlinarith
  · rw [← sub_eq_zero, key, div_eq_zero_iff, ← hiff]
    have : (K - P) * (L - P) ≠ 0 := mul_ne_zero hK0 hL0
    have hρ : ρ ≠ 0 := by linarith
    simp only [this, or_false, mul_eq_zero, hρ, false_or]

/-- C80: at the same salinity and temperature, the density grows with the pressure. -/
theorem C80_density_order (fs fs' : Fset) (time time' : ℝ) (p q p' q' : Part) {S T P Q : ℝ} (hS : fs.psu_salinity time p.depth p.lat p.lon = S)
    (hT : fs.cons_temperature time p.depth p.lat p.lon = T) (hP : fs.cons_pressure time p.depth p.lat p.lon = P)
    (hS' : fs'.psu_salinity time' q.depth q.lat q.lon = S) (hT' : fs'.cons_temperature time' q.depth q.lat q.lon = T)
    (hQ : fs'.cons_pressure time' q.depth q.lat q.lon = Q) (h : InOcean S T P) (h' : InOcean S T Q) (hlt : P < Q)
    (hp : unescoDensity fs time p = some p') (hq : unescoDensity fs' time' q = some q') : p'.var "density" < q'.var "density" := by
  obtain ⟨⟨r0, r1⟩, k0, k1, b0, b1⟩ := bounds h
  rw [unesco_eq fs time p hS hT hP h.s0 rfl] at hp
  rw [unesco_eq fs' time' q hS' hT' hQ h.s0 rfl] at hq
  obtain ⟨a2, b2, -⟩ := powers h.t0 h.t1
  have hp0 := h.p0
  have hq0 := h'.p0
  generalize density0 S T = ρ at *
  generalize modulus0 S T = A at *
  generalize modulus1 S T = B at *
  generalize modulus2 S T = C at *
  norm_num1 at b0 b1
  have hc : -(0.4 : ℝ) ≤ C * T ^ 2 := by norm_num1; nlinarith
  norm_num1 at hc
  have hBP : 3 * P ≤ B * P := by nlinarith
  have hBQ : 3 * Q ≤ B * Q := by nlinarith
  obtain ⟨e1, e2, e3⟩ := secant (ρ := ρ) (show P < A + B * P + C * T ^ 2 by linarith) hp0
  obtain ⟨f1, f2, f3⟩ := secant (ρ := ρ) (show Q < A + B * Q + C * T ^ 2 by linarith) hq0
  rw [if_neg e1, if_neg e2] at hp
  rw [if_neg f1, if_neg f2] at hq
  cases hp; cases hq
  rw [(sets_set p "density" _).2.2.2.1, (sets_set q "density" _).2.2.2.1, e3, f3]
  have : P / (A + B * P + C * T ^ 2 - P) < Q / (A + B * Q + C * T ^ 2 - Q) := by
    rw [div_lt_div_iff₀ (by linarith) (by linarith)]
    have : 0 < (A + C * T ^ 2) * (Q - P) := mul_pos (by linarith) (by linarith)
    nlinarith
  nlinarith

/-- Fields with one value everywhere. -/
def flat (S T P : ℝ) : Fset :=
  ⟨fun _ _ _ _ => S, fun _ _ _ _ => T, fun _ _ _ _ => T, fun _ _ _ _ => T, fun _ _ _ _ => P, fun _ _ _ _ => S, 0⟩

/-- Salinity 35, 10 degrees, at about 1000 m. -/
example : InOcean 35 10 100 := by constructor <;> norm_num

/-- C80 fails: the last term of the bulk modulus has the square of the temperature where the equation of state has the square of the
pressure. In fresh water of 0 degrees at 1000 bar the density is wrong by more than 0.16 kg/m³. -/
theorem C80_density_fails (p : Part) :
    ∃ p' x, unescoDensity (flat 0 0 1000) 0 p = some p' ∧ Sets p p' "density" x ∧ density 0 0 1000 + 0.16 < x := by
  rw [unesco_eq (flat 0 0 1000) 0 p (S := 0) (T := 0) (P := 1000) rfl rfl rfl le_rfl rfl]
  have hm : modulus0 0 0 + modulus1 0 0 * 1000 + modulus2 0 0 * 0 ^ 2 = 22892.11 := by
    simp only [modulus0, modulus1, modulus2, poly, zero_mul, mul_zero, add_zero]; norm_num
  rw [hm, if_neg (by norm_num), if_neg (by norm_num)]
  refine ⟨_, _, rfl, sets_set _ _ _, ?_⟩
  simp only [density, density0, modulus0, modulus1, modulus2, poly, zero_mul, mul_zero, add_zero]
  norm_num

end Parcels.Seawater
