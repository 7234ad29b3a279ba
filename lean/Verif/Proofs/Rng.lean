import Verif.Model.Rng
import Verif.Spec.Rng
import Mathlib.Tactic.Linarith
import Mathlib.Tactic.NormNum
import Mathlib.Tactic.Ring
import Mathlib.Tactic.FieldSimp
import Mathlib.Tactic.Positivity

namespace Parcels.Rng

theorem rep_int (n : ℕ) (m : ℤ) (h : |m| ≤ 2 ^ n) : Rep n m := ⟨m, 0, h, by simp⟩

theorem rep_mul (n : ℕ) (m k : ℤ) (h : |m| ≤ 2 ^ n) : Rep n (m * (2 : ℝ) ^ k) := ⟨m, k, h, rfl⟩

theorem Nearest.fix {n : ℕ} {rnd : ℝ → ℝ} (h : Nearest n rnd) {x : ℝ} (hx : Rep n x) : rnd x = x := by
  have := h.nearest x x hx
  simp only [sub_self, abs_zero] at this
  have := abs_nonpos_iff.mp this
  linarith

theorem Nearest.mono {n : ℕ} {rnd : ℝ → ℝ} (h : Nearest n rnd) : Monotone rnd := by
  intro x y hxy
  by_contra hlt
  have hlt := lt_of_not_ge hlt
  have h1 := h.nearest x (rnd y) (h.rep y)
  have h2 := h.nearest y (rnd x) (h.rep x)
  rcases eq_or_lt_of_le hxy with rfl | hxy
  · exact lt_irrefl _ hlt
  · rcases abs_cases (rnd x - x) with ⟨e1, c1⟩ | ⟨e1, c1⟩ <;> rcases abs_cases (rnd y - x) with ⟨e2, c2⟩ | ⟨e2, c2⟩ <;>
    rcases abs_cases (rnd y - y) with ⟨e3, c3⟩ | ⟨e3, c3⟩ <;> rcases abs_cases (rnd x - y) with ⟨e4, c4⟩ | ⟨e4, c4⟩ <;>
    linarith

theorem Nearest.rounding {n : ℕ} {rnd : ℝ → ℝ} (h : Nearest n rnd) : Rounding rnd := by
  refine ⟨h.mono, ?_, ?_⟩
  · simpa using h.fix (rep_int n 0 (by simp))
  · simpa using h.fix (rep_int n 1 (by simpa using one_le_pow₀ (by norm_num)))

/-- If a representable number is strictly nearest, it is the result. -/
theorem Nearest.eq {n : ℕ} {rnd : ℝ → ℝ} (h : Nearest n rnd) {x lo y hi : ℝ} (hlo : Rep n lo) (hy : Rep n y) (hhi : Rep n hi)
    (hr : rnd x ≤ lo ∨ rnd x = y ∨ hi ≤ rnd x) (h1 : |y - x| < x - lo) (h2 : |y - x| < hi - x) : rnd x = y := by
  have hn := h.nearest x y hy
  rcases hr with hr | hr | hr
  · exfalso
    have : x - lo ≤ |rnd x - x| := by
      rw [abs_sub_comm]
      exact le_trans (by linarith) (le_abs_self _)
    linarith
  · exact hr
  · exfalso
    have : hi - x ≤ |rnd x - x| := le_trans (by linarith) (le_abs_self _)
    linarith

/-- There is such a rounding: divide by the unit in the last place, round to an integer, multiply. -/
noncomputable def roundTo (n : ℕ) (x : ℝ) : ℝ := round (x / 2 ^ (Int.log 2 |x| + 1 - n)) * (2 : ℝ) ^ (Int.log 2 |x| + 1 - n)

theorem abs_round_sub (x : ℝ) (z : ℤ) : |(round x : ℝ) - x| ≤ |(z : ℝ) - x| := by
  rw [abs_sub_comm, abs_sub_comm (z : ℝ)]
  exact round_le x z

theorem round_le_round {x y : ℝ} (h : x ≤ y) : round x ≤ round y := by
  rw [round_eq, round_eq]
  exact Int.floor_mono (by linarith)

theorem roundTo_nearest (n : ℕ) (hn : 1 ≤ n) : Nearest n (roundTo n) := by
  have key : ∀ x : ℝ, x ≠ 0 → ∃ e : ℤ, (2 : ℝ) ^ e ≤ |x| ∧ |x| < 2 ^ (e + 1) ∧
      roundTo n x = round (x / 2 ^ (e + 1 - n)) * (2 : ℝ) ^ (e + 1 - n) := by
    intro x hx
    refine ⟨Int.log 2 |x|, ?_, ?_, rfl⟩
    · have := Int.zpow_log_le_self (b := 2) (by norm_num) (abs_pos.mpr hx)
      exact_mod_cast this
    · have := Int.lt_zpow_succ_log_self (b := 2) (by norm_num) |x|
      exact_mod_cast this
  have two : (2 : ℝ) ≠ 0 := by norm_num
  constructor
  · intro x
    by_cases hx : x = 0
    · subst hx
      refine ⟨0, 0, by simp, ?_⟩
      simp [roundTo]
    · obtain ⟨e, h1, h2, h3⟩ := key x hx
      rw [h3]
      refine rep_mul _ _ _ ?_
      have hp : (0 : ℝ) < 2 ^ (e + 1 - (n : ℤ)) := by positivity
      have hb : |x / 2 ^ (e + 1 - (n : ℤ))| ≤ ((2 ^ n : ℤ) : ℝ) := by
        rw [abs_div, abs_of_pos hp, div_le_iff₀ hp]
        push_cast
        rw [← zpow_natCast, ← zpow_add₀ two]
        refine le_trans h2.le (le_of_eq ?_)
        congr 1
        ring
      rw [abs_le] at hb ⊢
      constructor
      · have := round_le_round hb.1
        rwa [show -(((2 ^ n : ℤ)) : ℝ) = ((-(2 ^ n : ℤ) : ℤ) : ℝ) by push_cast; ring, round_intCast] at this
      · have := round_le_round hb.2
        rwa [round_intCast] at this
  · intro x z hz
    by_cases hx : x = 0
    · subst hx
      simp [roundTo]
    · obtain ⟨e, h1, h2, h3⟩ := key x hx
      have hp : (0 : ℝ) < 2 ^ (e + 1 - (n : ℤ)) := by positivity
      have mul : ∀ c : ℤ, |roundTo n x - x| ≤ |c * (2 : ℝ) ^ (e + 1 - (n : ℤ)) - x| := by
        intro c
        have e1 : ∀ c : ℝ, c * (2 : ℝ) ^ (e + 1 - (n : ℤ)) - x = (c - x / 2 ^ (e + 1 - (n : ℤ))) * 2 ^ (e + 1 - (n : ℤ)) := by
          intro c
          field_simp
        rw [h3, e1, e1, abs_mul, abs_mul]
        exact mul_le_mul_of_nonneg_right (abs_round_sub _ _) (abs_nonneg _)
      have pw : ∀ k : ℤ, e + 1 - n ≤ k → ∃ c : ℤ, (2 : ℝ) ^ k = c * (2 : ℝ) ^ (e + 1 - (n : ℤ)) := by
        intro k hk
        obtain ⟨j, hj⟩ := Int.eq_ofNat_of_zero_le (show 0 ≤ k - (e + 1 - n) by omega)
        refine ⟨2 ^ j, ?_⟩
        push_cast
        rw [← zpow_natCast, ← zpow_add₀ two, ← hj]
        congr 1
        ring
      obtain ⟨m, k, hm, rfl⟩ := hz
      by_cases hk : e + 1 - n ≤ k
      · obtain ⟨c, hc⟩ := pw k hk
        have := mul (m * c)
        push_cast at this
        rwa [mul_assoc, ← hc] at this
      · -- then |z| ≤ 2^e ≤ |x|
        have hz : |(m : ℝ) * 2 ^ k| ≤ 2 ^ e := by
          rw [abs_mul, abs_of_pos (show (0 : ℝ) < 2 ^ k by positivity)]
          have hm' : |(m : ℝ)| ≤ 2 ^ (n : ℤ) := by
            rw [zpow_natCast]
            exact_mod_cast hm
          calc |(m : ℝ)| * 2 ^ k ≤ 2 ^ (n : ℤ) * 2 ^ (e - n) :=
                mul_le_mul hm' (zpow_le_zpow_right₀ (by norm_num) (by omega)) (by positivity) (by positivity)
            _ = 2 ^ e := by rw [← zpow_add₀ two]; congr 1; ring
        obtain ⟨c, hc⟩ := pw e (by omega)
        rcases le_total 0 x with hx0 | hx0
        · rw [abs_of_nonneg hx0] at h1
          have := mul c
          rw [← hc, abs_sub_comm ((2 : ℝ) ^ e) x, abs_of_nonneg (sub_nonneg.mpr h1)] at this
          refine le_trans this ?_
          rw [abs_sub_comm]
          refine le_trans ?_ (le_abs_self _)
          have := le_trans (le_abs_self _) hz
          linarith
        · rw [abs_of_nonpos hx0] at h1
          have := mul (-c)
          push_cast at this
          rw [neg_mul, ← hc, abs_of_nonneg (show 0 ≤ -(2 : ℝ) ^ e - x by linarith)] at this
          refine le_trans this ?_
          refine le_trans ?_ (le_abs_self _)
          have := le_trans (neg_abs_le _) (le_refl ((m : ℝ) * 2 ^ k))
          linarith

/-- Between two neighbouring multiples of a unit there is no representable number. -/
theorem gap {n : ℕ} {x : ℝ} (hx : Rep n x) (m k : ℤ) (hm : 2 ^ (n - 1) ≤ m) (hn : 1 ≤ n) :
    x ≤ m * (2 : ℝ) ^ k ∨ (m + 1) * (2 : ℝ) ^ k ≤ x := by
  obtain ⟨m', k', hm', rfl⟩ := hx
  have two : (2 : ℝ) ≠ 0 := by norm_num
  by_cases hk : k ≤ k'
  · obtain ⟨j, hj⟩ := Int.eq_ofNat_of_zero_le (show 0 ≤ k' - k by omega)
    have e : (m' : ℝ) * 2 ^ k' = ((m' * 2 ^ j : ℤ) : ℝ) * 2 ^ k := by
      push_cast
      rw [mul_assoc, ← zpow_natCast (2 : ℝ) j, ← zpow_add₀ two, ← hj]
      congr 2
      ring
    rw [e]
    have hp : (0 : ℝ) < 2 ^ k := by positivity
    rcases le_or_gt (m' * 2 ^ j) m with h | h
    · left
      exact mul_le_mul_of_nonneg_right (by exact_mod_cast h) hp.le
    · right
      exact mul_le_mul_of_nonneg_right (by exact_mod_cast h) hp.le
  · left
    calc (m' : ℝ) * 2 ^ k' ≤ 2 ^ (n : ℤ) * 2 ^ (k - 1) := by
          refine mul_le_mul ?_ (zpow_le_zpow_right₀ (by norm_num) (by omega)) (by positivity) (by positivity)
          rw [zpow_natCast]
          exact_mod_cast (abs_le.mp hm').2
      _ = (2 ^ (n - 1) : ℕ) * 2 ^ k := by
          push_cast
          rw [← zpow_natCast (2 : ℝ) (n - 1), ← zpow_add₀ two, ← zpow_add₀ two]
          congr 1
          push_cast [hn]
          ring
      _ ≤ m * 2 ^ k := by
          refine mul_le_mul_of_nonneg_right ?_ (by positivity)
          exact_mod_cast hm

/-- Rounding to the nearest of two neighbouring numbers. -/
theorem Nearest.up {n : ℕ} {rnd : ℝ → ℝ} (h : Nearest n rnd) (hn : 1 ≤ n) (m k : ℤ) (hm : 2 ^ (n - 1) ≤ m) (hm' : m + 1 ≤ 2 ^ n) {x : ℝ}
    (h1 : (m + 1 / 2) * (2 : ℝ) ^ k < x) (h2 : x < (m + 3 / 2) * (2 : ℝ) ^ k) : rnd x = (m + 1) * (2 : ℝ) ^ k := by
  have hp : (0 : ℝ) < 2 ^ k := by positivity
  have h0 : (0 : ℤ) ≤ m := le_trans (by positivity) hm
  have r1 : Rep n (((m : ℝ) + 1) * 2 ^ k) := ⟨m + 1, k, by rw [abs_of_nonneg (by omega)]; exact hm', by push_cast; ring⟩
  have hne := h.nearest x _ r1
  have hd : |((m : ℝ) + 1) * 2 ^ k - x| < 1 / 2 * 2 ^ k := by
    rw [abs_lt]
    constructor <;> nlinarith
  have hc := lt_of_le_of_lt hne hd
  rw [abs_lt] at hc
  rcases gap (h.rep x) m k hm hn with g | g
  · exfalso
    nlinarith [hc.1]
  · rcases gap (h.rep x) (m + 1) k (by omega) hn with g' | g'
    · push_cast at g'
      exact le_antisymm g' g
    · exfalso
      push_cast at g'
      nlinarith [hc.2]

theorem fmod_range (x y : ℝ) (hy : 0 < y) : (0 ≤ x → 0 ≤ fmod x y ∧ fmod x y < y) ∧ (x < 0 → -y < fmod x y ∧ fmod x y ≤ 0) := by
  constructor
  · intro hx
    simp only [fmod, if_pos hx]
    have h1 := Int.floor_le (x / y)
    have h2 := Int.lt_floor_add_one (x / y)
    rw [le_div_iff₀ hy] at h1
    rw [div_lt_iff₀ hy] at h2
    constructor <;> nlinarith
  · intro hx
    simp only [fmod, if_neg (not_le.mpr hx)]
    have h1 := Int.le_ceil (x / y)
    have h2 := Int.ceil_lt_add_one (x / y)
    rw [div_le_iff₀ hy] at h1
    have h2' : (⌈x / y⌉ : ℝ) - 1 < x / y := by linarith
    rw [lt_div_iff₀ hy] at h2'
    constructor <;> nlinarith

end Parcels.Rng
