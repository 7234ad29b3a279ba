import Verif.Proofs.Rng

/-!
C54: random numbers lie in the documented range.
-/

namespace Parcels.Rng

theorem draw_le {f : ℝ → ℝ} (h : Rounding f) {draw : ℕ} (hd : draw ≤ randMax) :
    0 ≤ f draw ∧ f draw ≤ f randMax ∧ 1 ≤ f randMax := by
  refine ⟨?_, h.mono (by exact_mod_cast hd), ?_⟩
  · rw [← h.zero]
    exact h.mono (Nat.cast_nonneg _)
  · calc (1 : ℝ) = f 1 := h.one.symm
      _ ≤ f randMax := h.mono (by norm_num [randMax])

/-- C54. `random()` lies in [0, 1], whatever the generator gives and however results are rounded. -/
theorem C54_random (r : Fl) (h : Rounding r.f) (draw : ℕ) (hd : draw ≤ randMax) : 0 ≤ random r draw ∧ random r draw ≤ 1 := by
  obtain ⟨h0, h1, h2⟩ := draw_le h hd
  constructor
  · rw [random, ← h.zero]
    exact h.mono (div_nonneg h0 (by linarith))
  · rw [random, ← h.one]
    exact h.mono ((div_le_one (by linarith)).mpr h1)

/-- Roundings to a nearest number are such roundings, and they exist, for 24 bits (`float`) and 53 bits (`double`). -/
theorem C54_roundings : (∀ n rnd, Nearest n rnd → Rounding rnd) ∧ Nearest 24 (roundTo 24) ∧ Nearest 53 (roundTo 53) ∧ Rounding exact.f :=
  ⟨fun _ _ h => h.rounding, roundTo_nearest 24 (by norm_num), roundTo_nearest 53 (by norm_num), ⟨monotone_id, rfl, rfl⟩⟩

/-- C54. In exact arithmetic `uniform(a, b)` lies between a and b, in either order. -/
theorem C54_uniform_partial (low high : ℝ) (draw : ℕ) (hd : draw ≤ randMax) :
    min low high ≤ uniform exact low high draw ∧ uniform exact low high draw ≤ max low high := by
  have e : uniform exact low high draw = draw / randMax * (high - low) + low := by
    simp only [uniform, uniformC, exact, id]
    rw [div_div_eq_mul_div]
    ring
  have hm : (0 : ℝ) < randMax := by norm_num [randMax]
  have hq0 : (0 : ℝ) ≤ draw / randMax := by positivity
  have hq1 : (draw : ℝ) / randMax ≤ 1 := (div_le_one hm).mpr (by exact_mod_cast hd)
  rw [e]
  rcases le_total low high with h | h
  · rw [min_eq_left h, max_eq_right h]
    constructor <;> nlinarith
  · rw [min_eq_right h, max_eq_left h]
    constructor <;> nlinarith

/-- C54. With rounding, `uniform(a, b)` with floats a ≤ b is at least a. -/
theorem C54_uniform_low (r : Fl) (h : Rounding r.f) (low high : ℝ) (hl : r.f low = low) (hh : r.f high = high) (hlh : low ≤ high)
    (draw : ℕ) (hd : draw ≤ randMax) : low ≤ uniform r low high draw := by
  obtain ⟨h0, h1, h2⟩ := draw_le h hd
  have n : ∀ x, 0 ≤ x → 0 ≤ r.f x := fun x hx => by rw [← h.zero]; exact h.mono hx
  rw [uniform, hl, hh, uniformC]
  calc low = r.f low := hl.symm
    _ ≤ _ := h.mono ?_
  have := n _ (div_nonneg h0 (n _ (div_nonneg (by linarith : 0 ≤ r.f randMax) (n _ (sub_nonneg.mpr hlh)))))
  linarith

/-- The full claim is false of `float` arithmetic: `uniform(0, 61)` can be greater than 61, whatever rule for ties. -/
theorem C54_uniform_fails (r : Fl) (h : Nearest 24 r.f) : ∃ draw ≤ randMax, 61 < uniform r 0 61 draw := by
  refine ⟨randMax, le_refl _, ?_⟩
  have i0 : r.f 0 = 0 := h.rounding.zero
  have i61 : r.f 61 = 61 := by
    have := h.fix (rep_int 24 61 (by norm_num))
    exact_mod_cast this
  have e1 : r.f (randMax : ℕ) = 2 ^ 31 := by
    have := h.up (by norm_num) (2 ^ 24 - 1) 7 (x := (randMax : ℕ)) (by norm_num) (by norm_num) (by norm_num [randMax])
      (by norm_num [randMax])
    rw [this]
    norm_num
  have e2 : r.f (2 ^ 31 / 61) = 35204648 := by
    have := h.up (by norm_num) 8801161 2 (x := 2 ^ 31 / 61) (by norm_num) (by norm_num) (by norm_num) (by norm_num)
    rw [this]
    norm_num
  have e3 : r.f (2 ^ 31 / 35204648) = 15990785 / 262144 := by
    have := h.up (by norm_num) 15990784 (-18) (x := 2 ^ 31 / 35204648) (by norm_num) (by norm_num) (by norm_num) (by norm_num)
    rw [this]
    norm_num
  have e4 : r.f (15990785 / 262144) = 15990785 / 262144 := by
    have := h.fix (rep_mul 24 15990785 (-18) (by norm_num))
    rw [show (15990785 : ℝ) / 262144 = ((15990785 : ℤ) : ℝ) * 2 ^ (-18 : ℤ) by norm_num]
    exact this
  rw [uniform, uniformC, i0, i61, e1, sub_zero, i61, e2, e3, add_zero, e4]
  norm_num

/-- C54. `randint(a, b)` for a < b (with a range that fits an int) is defined and lies in {a, ..., b-1}, and every one of these
values occurs. -/
theorem C54_randint (low high : ℤ) (hl : -2 ^ 31 ≤ low) (hh : high < 2 ^ 31) (h : low < high) (hs : high - low < 2 ^ 31) :
    (∀ draw, ∃ v, randint low high draw = some v ∧ low ≤ v ∧ v < high) ∧
    (∀ v, low ≤ v → v < high → ∃ draw ≤ randMax, randint low high draw = some v) := by
  have key : ∀ draw : ℕ, randint low high draw = some ((draw : ℤ) % (high - low) + low) ∧
      0 ≤ (draw : ℤ) % (high - low) ∧ (draw : ℤ) % (high - low) < high - low := by
    intro draw
    have e : (draw : ℤ).tmod (high - low) = (draw : ℤ) % (high - low) := Int.tmod_eq_emod_of_nonneg (by positivity)
    have h1 := Int.emod_nonneg (draw : ℤ) (show high - low ≠ 0 by omega)
    have h2 := Int.emod_lt_of_pos (draw : ℤ) (show 0 < high - low by omega)
    refine ⟨?_, h1, h2⟩
    simp only [randint, e]
    rw [if_neg (by omega), if_neg (by omega)]
  refine ⟨fun draw => ⟨_, (key draw).1, by have := (key draw).2; omega, by have := (key draw).2; omega⟩, fun v hv hv' => ?_⟩
  refine ⟨(v - low).toNat, by simp only [randMax]; omega, ?_⟩
  rw [(key _).1]
  have : (((v - low).toNat : ℕ) : ℤ) = v - low := Int.toNat_of_nonneg (by omega)
  rw [this, Int.emod_eq_of_lt (by omega) (by omega)]
  congr 1
  omega

example : randint (-3) 4 123456789 = some (-2) := by decide
example : randint (-2 ^ 31) (2 ^ 31 - 1) 5 = none := by decide

/-- With a = b the C code divides by zero; with a > b the result is a or more. -/
theorem C54_randint_order_fails : (∀ a draw, randint a a draw = none) ∧ randint 5 0 3 = some 8 := by
  refine ⟨fun a draw => ?_, by decide⟩
  simp [randint]

/-- C54. In exact arithmetic `expovariate(lambda)` is not negative. -/
theorem C54_expovariate_partial (lamb : ℝ) (hl : 0 < lamb) (draw : ℕ) (hd : draw ≤ randMax) :
    expoU exact draw < 1 ∧ 0 ≤ expovariate exact lamb draw := by
  have hm : (0 : ℝ) < randMax := by norm_num [randMax]
  have e : expoU exact draw = draw / (randMax + 1) := rfl
  have h0 : (0 : ℝ) ≤ draw / (randMax + 1) := by positivity
  have h1 : (draw : ℝ) / (randMax + 1) < 1 := by
    rw [div_lt_one (by linarith)]
    have : (draw : ℝ) ≤ randMax := by exact_mod_cast hd
    linarith
  refine ⟨by rw [e]; exact h1, ?_⟩
  have e2 : expovariate exact lamb draw = -(Real.log (1 - draw / (randMax + 1))) / lamb := rfl
  rw [e2]
  exact div_nonneg (neg_nonneg.mpr (Real.log_nonpos (by linarith) (by linarith))) hl.le

/-- With `float` and `double` arithmetic the number whose logarithm is taken can be 0, which gives infinity in C. -/
theorem C54_expovariate_fails (r : Fl) (h : Nearest 24 r.f) (h' : Nearest 53 r.d) : ∃ draw ≤ randMax, 1 - expoU r draw = 0 := by
  refine ⟨randMax, le_refl _, ?_⟩
  have e1 : r.f (randMax : ℕ) = 2 ^ 31 := by
    have := h.up (by norm_num) (2 ^ 24 - 1) 7 (x := (randMax : ℕ)) (by norm_num) (by norm_num) (by norm_num [randMax])
      (by norm_num [randMax])
    rw [this]
    norm_num
  have e2 : r.d (2 ^ 31 + 1) = 2 ^ 31 + 1 := by
    have := h'.fix (rep_int 53 (2 ^ 31 + 1) (by norm_num))
    exact_mod_cast this
  rw [expoU, e1, e2]
  have lo : r.f (1 - 1 / 2 ^ 26) = 1 := by
    have := h.up (by norm_num) (2 ^ 24 - 1) (-24) (x := 1 - 1 / 2 ^ 26) (by norm_num) (by norm_num) (by norm_num) (by norm_num)
    rw [this]
    norm_num
  have d1 : r.d (1 - 1 / 2 ^ 26) = 1 - 1 / 2 ^ 26 := by
    have := h'.fix (rep_mul 53 (2 ^ 26 - 1) (-26) (by norm_num))
    rw [show (1 : ℝ) - 1 / 2 ^ 26 = ((2 ^ 26 - 1 : ℤ) : ℝ) * 2 ^ (-26 : ℤ) by norm_num]
    exact this
  have a1 : 1 - 1 / 2 ^ 26 ≤ r.d (2 ^ 31 / (2 ^ 31 + 1)) := by
    rw [← d1]
    exact h'.mono (by norm_num)
  have a2 : r.d (2 ^ 31 / (2 ^ 31 + 1)) ≤ 1 :=
    calc r.d (2 ^ 31 / (2 ^ 31 + 1)) ≤ r.d 1 := h'.mono (by norm_num)
      _ = 1 := h'.rounding.one
  have : r.f (r.d (2 ^ 31 / (2 ^ 31 + 1))) = 1 := by
    apply le_antisymm
    · rw [← h.rounding.one]
      exact h.mono (by rw [h.rounding.one]; exact a2)
    · rw [← lo]
      exact h.mono (by rw [lo]; exact a1)
  rw [this]
  norm_num

/-- In `normalvariate` the number `w`, by which it divides, can be 0. -/
theorem C54_normalvariate_fails (r : Fl) (h : Nearest 24 r.f) (h' : Nearest 53 r.d) :
    ∃ d1 ≤ randMax, ∃ d2 ≤ randMax, (polar r d1 d2).2.2 = 0 := by
  have e1 : r.f (randMax : ℕ) = 2 ^ 31 := by
    have := h.up (by norm_num) (2 ^ 24 - 1) 7 (x := (randMax : ℕ)) (by norm_num) (by norm_num) (by norm_num [randMax])
      (by norm_num [randMax])
    rw [this]
    norm_num
  have e2 : r.f ((2 ^ 30 : ℕ) : ℝ) = 2 ^ 30 := by
    have := h.fix (rep_mul 24 1 30 (by norm_num))
    rw [show (((2 ^ 30 : ℕ)) : ℝ) = ((1 : ℤ) : ℝ) * 2 ^ (30 : ℤ) by norm_num, this]
    norm_num
  refine ⟨2 ^ 30, by norm_num [randMax], 2 ^ 30, by norm_num [randMax], ?_⟩
  have e3 : (2 : ℝ) * 2 ^ 30 / 2 ^ 31 = 1 := by norm_num
  simp only [polar, e1, e2, e3, h'.rounding.one, h'.rounding.zero, h.rounding.zero, sub_self, mul_zero, add_zero]

/-- C54. In exact arithmetic `vonmisesvariate(mu, kappa)` lies in [0, 2π]. -/
theorem C54_vonmises_partial (mu kappa : ℝ) (draws : List ℕ) (hd : ∀ n ∈ draws, n ≤ randMax) (x : ℝ)
    (h : vonmisesvariate exact mu kappa draws = some x) : 0 ≤ x ∧ x ≤ 2 * Real.pi := by
  have hpi := Real.pi_pos
  have hm : (0 : ℝ) < randMax := by norm_num [randMax]
  rw [vonmisesvariate] at h
  split at h
  · rcases draws with _ | ⟨n, draws⟩
    · simp at h
    · have hn : (n : ℝ) ≤ randMax := by exact_mod_cast hd n (by simp)
      simp only [List.head?_cons, Option.map_some, Option.some.injEq, exact, id] at h
      rw [← h]
      constructor
      · positivity
      · rw [div_le_iff₀ hm]
        nlinarith
  · rename_i hk
    have hk : 0 < kappa := lt_trans (by norm_num) (not_le.mp hk)
    have hs : (0 : ℝ) < 1 / 2 / kappa := by positivity
    simp only at h
    split at h
    · rename_i hc
      simp only [exact, id] at hc
      rw [abs_of_pos hs] at hc
      norm_num at hc
      nlinarith
    · generalize exact.f (exact.f (1 / 2 / kappa) + √(1 + exact.f (1 / 2 / kappa) * exact.f (1 / 2 / kappa))) = rr at h
      induction draws using vonmisesvariate.go.induct exact rr with
      | case1 a b rest z dd u2 hcond ih =>
        rw [vonmisesvariate.go] at h
        simp only at h
        rw [if_pos hcond] at h
        exact ih (fun n hn => hd n (by simp [hn])) h
      | case2 a b rest z dd u2 hcond =>
        rw [vonmisesvariate.go] at h
        simp only at h
        rw [if_neg hcond] at h
        rcases rest with _ | ⟨n, rest⟩
        · simp at h
        · simp only [List.head?_cons, Option.map_some, Option.some.injEq] at h
          subst h
          generalize exact.f (exact.d (exact.f (1 / rr) + _) / _) = c
          have fin : ∀ y : ℝ, 0 ≤ (if fmod y (2 * Real.pi) < 0 then 2 * Real.pi + fmod y (2 * Real.pi) else fmod y (2 * Real.pi)) ∧
              (if fmod y (2 * Real.pi) < 0 then 2 * Real.pi + fmod y (2 * Real.pi) else fmod y (2 * Real.pi)) ≤ 2 * Real.pi := by
            intro y
            have hf := fmod_range y (2 * Real.pi) (by positivity)
            rcases le_or_gt 0 y with hy | hy
            · have := hf.1 hy
              rw [if_neg (not_lt.mpr this.1)]
              exact ⟨this.1, this.2.le⟩
            · have := hf.2 hy
              split <;> constructor <;> linarith
          simp only [vonMisesEnd]
          split
          · exact fin _
          · exact fin _
      | case3 l hl =>
        rw [vonmisesvariate.go] at h
        · cases h
        · exact hl

end Parcels.Rng
