import Verif.Model.Converters
import Mathlib.Tactic.FieldSimp
import Mathlib.Tactic.Linarith
import Mathlib.Tactic.Ring

/-!
C36, C37: conversion of units and of times.
-/

namespace Parcels.Converters

/-- The latitude (degrees) is not a pole, in the sense that its cosine does not vanish. -/
theorem cos_pos_of_lat {y : ℝ} (h1 : -90 < y) (h2 : y < 90) : 0 < Real.cos (y * Real.pi / 180) := by
  have hp := Real.pi_pos
  apply Real.cos_pos_of_mem_Ioo
  constructor
  · nlinarith
  · nlinarith

/-- C36: away from the poles, converting to the grid's units and back returns the value, in both orders, for every
converter. -/
theorem C36_roundtrip (c : Unit') (v y : ℝ) (h1 : -90 < y) (h2 : y < 90) :
    toSource c (toTarget c v y) y = v ∧ toTarget c (toSource c v y) y = v := by
  have h := (cos_pos_of_lat h1 h2).ne'
  cases c <;> simp only [toSource, toTarget, and_self] <;> constructor <;> field_simp

/-- C36: multiplication with the factor in the generated C code is the Python conversion, in both directions, for every
value and latitude (at the poles too). -/
theorem C36_modes_agree (c : Unit') (v y : ℝ) :
    v * cToTarget c y = toTarget c v y ∧ v * cToSource c y = toSource c v y := by
  cases c <;> simp only [cToTarget, cToSource, toSource, toTarget] <;> constructor <;>
    first
      | ring1
      | (simp only [div_eq_mul_inv, one_mul, mul_inv, mul_pow, inv_pow] <;> ring1)

/-- Length in metres of one degree along the meridian, and along the circle of latitude `y`, on a sphere with
60 nautical miles of 1852 m to the degree. -/
noncomputable def metresPerDegreeNorth : ℝ := 60 * 1852
noncomputable def metresPerDegreeEast (y : ℝ) : ℝ := 60 * 1852 * Real.cos (y * Real.pi / 180)

/-- C36: what the conversions mean. On a spherical mesh a zonal velocity of `v` m/s becomes the number of degrees of
longitude per second that amounts to `v` metres, and so on; on a flat mesh, and for other fields, nothing is changed. -/
theorem C36_meaning (v y : ℝ) (h1 : -90 < y) (h2 : y < 90) :
    (∃ c, chooseUnit "spherical" "U" = some c ∧ toTarget c v y * metresPerDegreeEast y = v) ∧
    (∃ c, chooseUnit "spherical" "V" = some c ∧ toTarget c v y * metresPerDegreeNorth = v) ∧
    (∃ c, chooseUnit "spherical" "Kh_zonal" = some c ∧ toTarget c v y * metresPerDegreeEast y ^ 2 = v) ∧
    (∃ c, chooseUnit "spherical" "Kh_meridional" = some c ∧ toTarget c v y * metresPerDegreeNorth ^ 2 = v) := by
  have h := (cos_pos_of_lat h1 h2).ne'
  refine ⟨⟨.geographicPolar, by decide, ?_⟩, ⟨.geographic, by decide, ?_⟩, ⟨.geographicPolarSquare, by decide, ?_⟩,
    ⟨.geographicSquare, by decide, ?_⟩⟩ <;>
    simp only [toTarget, metresPerDegreeEast, metresPerDegreeNorth] <;> field_simp <;> norm_num <;> ring

theorem C36_unchanged (name : String) (v y : ℝ) :
    (chooseUnit "flat" name = some .none ∧ toTarget .none v y = v) ∧
    (name ∉ ["U", "V", "Kh_zonal", "Kh_meridional"] → ∀ mesh, chooseUnit mesh name = some .none) := by
  refine ⟨⟨by simp [chooseUnit], rfl⟩, ?_⟩
  intro h mesh
  have : (List.lookup name [("U", Unit'.geographicPolar), ("V", .geographic), ("Kh_zonal", .geographicPolarSquare),
      ("Kh_meridional", .geographicSquare)]).isNone = true := by
    rw [Option.isNone_iff_eq_none, List.lookup_eq_none_iff]
    intro p hp
    simp only [List.mem_cons, List.not_mem_nil, or_false, not_or] at h hp
    rcases hp with rfl | rfl | rfl | rfl <;> simp [h]
  simp [chooseUnit, this]

example : chooseUnit "spherical" "P" = some .none := by decide
example : (-90 : ℝ) < 45 ∧ (45 : ℝ) < 90 := by norm_num

/-! ### Times (C37) -/

theorem ticks_pos (c : Calendar) : 0 < ticks c := by cases c <;> norm_num [ticks]

/-- C37: conversion to seconds preserves order, strictly, and equality. -/
theorem C37_order (c : Calendar) (origin t u : ℚ) :
    (reltime c origin t < reltime c origin u ↔ t < u) ∧ (reltime c origin t = reltime c origin u ↔ t = u) := by
  have h := ticks_pos c
  unfold reltime
  refine ⟨by rw [div_lt_div_iff_of_pos_right h]; constructor <;> intro <;> linarith, ?_⟩
  rw [div_left_inj' h.ne']; constructor <;> intro <;> linarith

/-- C37, for numbers, cftime dates, and numpy dates a whole number of seconds from the origin: converting to seconds and
back returns the time. Missing: numpy dates with fractions of seconds, see `C37_subsecond_lost`. -/
theorem C37_roundtrip_partial (c : Calendar) (origin t : ℚ) (ho : IsTime c origin) (ht : IsTime c t)
    (hnp : c = .np → ∃ s : ℤ, t - origin = s * ticks .np) : fulltime c origin (reltime c origin t) = t := by
  cases c with
  | number => simp [fulltime, reltime, ticks]
  | np =>
    obtain ⟨s, hs⟩ := hnp rfl
    have : reltime .np origin t = s := by rw [reltime, hs]; field_simp [(ticks_pos .np).ne']
    rw [fulltime, this]
    have h2 : truncInt (s : ℚ) = s := by unfold truncInt; split <;> simp
    rw [h2, ← hs]; ring
  | cf =>
    rcases ho with h | ⟨a, rfl⟩
    · exact absurd h (by decide)
    rcases ht with h | ⟨b, rfl⟩
    · exact absurd h (by decide)
    have : reltime .cf a b * ticks .cf = ((b - a : ℤ) : ℚ) := by
      rw [reltime]; push_cast; field_simp [(ticks_pos .cf).ne']
    simp only [fulltime, this, round_intCast]
    push_cast; ring

example : IsTime .np 86400000000000 ∧ ∃ s : ℤ, (86400000000000 : ℚ) - 0 = s * ticks .np :=
  ⟨Or.inr ⟨86400000000000, by norm_num⟩, 86400, by norm_num [ticks]⟩

/-- Truncation drops less than one, toward zero. -/
theorem truncInt_bound (r : ℚ) : |(truncInt r : ℚ)| ≤ |r| ∧ |r - truncInt r| < 1 := by
  unfold truncInt
  split
  · rename_i h
    have h1 := Int.floor_le r
    have h2 := Int.lt_floor_add_one r
    have h3 : (0 : ℚ) ≤ (⌊r⌋ : ℚ) := by exact_mod_cast Int.floor_nonneg.2 h
    rw [abs_of_nonneg h, abs_of_nonneg h3, abs_of_nonneg (by linarith)]
    exact ⟨h1, by linarith⟩
  · rename_i h
    have h := not_le.1 h
    have h1 := Int.le_ceil r
    have h2 := Int.ceil_lt_add_one r
    have h3 : (⌈r⌉ : ℚ) ≤ 0 := by exact_mod_cast Int.ceil_nonpos.2 h.le
    rw [abs_of_neg h, abs_of_nonpos h3, abs_of_nonpos (by linarith)]
    exact ⟨by linarith, by linarith⟩

/-- C37, for all numpy dates: the date that comes back is less than one second off, on the origin's side. -/
theorem C37_numpy_within_a_second (origin t : ℚ) :
    |fulltime .np origin (reltime .np origin t) - t| < ticks .np ∧
    |fulltime .np origin (reltime .np origin t) - origin| ≤ |t - origin| := by
  have hp := ticks_pos .np
  obtain ⟨h1, h2⟩ := truncInt_bound (reltime .np origin t)
  have e : t - origin = reltime .np origin t * ticks .np := by rw [reltime]; field_simp
  constructor
  · have : fulltime .np origin (reltime .np origin t) - t
        = -((reltime .np origin t - truncInt (reltime .np origin t)) * ticks .np) := by
      have : t = origin + reltime .np origin t * ticks .np := by linarith
      conv_lhs => rw [fulltime]
      linear_combination -this
    rw [this, abs_neg, abs_mul, abs_of_pos hp]
    nlinarith
  · rw [e, fulltime, add_sub_cancel_left, abs_mul, abs_mul, abs_of_pos hp]
    exact mul_le_mul_of_nonneg_right h1 hp.le

/-- C37 fails for numpy dates with fractions of seconds: they do not come back. -/
theorem C37_subsecond_lost : ∃ origin t, IsTime .np origin ∧ IsTime .np t ∧
    fulltime .np origin (reltime .np origin t) ≠ t ∧
    -- two different times come back as one
    ∃ u, IsTime .np u ∧ u ≠ t ∧ fulltime .np origin (reltime .np origin u) = fulltime .np origin (reltime .np origin t) := by
  refine ⟨0, 1500000000, Or.inr ⟨0, by norm_num⟩, Or.inr ⟨1500000000, by norm_num⟩, by decide +kernel, 1000000000,
    Or.inr ⟨1000000000, by norm_num⟩, by norm_num, by decide +kernel⟩

/-- C37: seconds to a date and back: whole seconds (numpy), whole microseconds (cftime) and all numbers return. -/
theorem C37_from_seconds (c : Calendar) (origin r : ℚ)
    (h : c = .np → ∃ s : ℤ, r = s) (h' : c = .cf → ∃ s : ℤ, r * ticks .cf = s) :
    reltime c origin (fulltime c origin r) = r := by
  cases c with
  | number => simp [fulltime, reltime, ticks]
  | np =>
    obtain ⟨s, rfl⟩ := h rfl
    have h2 : truncInt (s : ℚ) = s := by unfold truncInt; split <;> simp
    rw [fulltime, h2, reltime, add_sub_cancel_left]; field_simp [(ticks_pos .np).ne']
  | cf =>
    obtain ⟨s, hs⟩ := h' rfl
    simp only [fulltime, hs, round_intCast, reltime, add_sub_cancel_left]
    rw [← hs]; field_simp [(ticks_pos .cf).ne']

example : reltime .cf 5 (fulltime .cf 5 (1 / 2)) = 1 / 2 := C37_from_seconds .cf 5 (1 / 2) (by simp) (fun _ => ⟨500000, by norm_num [ticks]⟩)

end Parcels.Converters
