import Verif.Spec.FloatSample
import Verif.Proofs.FloatAdvect
import Verif.Proofs.Search
import Mathlib.Tactic.Linarith
import Mathlib.Tactic.Ring
import Mathlib.Tactic.NormNum

/-!
Lemmas for C96.
-/

namespace Parcels.FloatSample
open Parcels.Search Parcels.Interp Parcels.TimeInterp
open FloatAdvect (Rounds Near)
open FloatTime (nearest ilog2 ilog2_spec nearest_int nearest_err u_pos)

/-! ### The roundings of single and double precision -/

theorem nearest_mono {x y : ℚ} (h : x ≤ y) : nearest x ≤ nearest y := by
  have hf : ⌊x⌋ ≤ ⌊y⌋ := Int.floor_le_floor h
  have lo : ∀ z : ℚ, ⌊z⌋ ≤ nearest z := by intro z; unfold nearest; split_ifs <;> omega
  have hi : ∀ z : ℚ, nearest z ≤ ⌊z⌋ + 1 := by intro z; unfold nearest; split_ifs <;> omega
  rcases lt_or_eq_of_le hf with h1 | h1
  · have := lo y; have := hi x; omega
  · unfold nearest
    rw [← h1]
    split_ifs <;> first | omega | (exfalso; linarith)

/-- Rounding to `p + 1` significant bits. -/
def fp (p : ℕ) (q : ℚ) : ℚ := if q = 0 then 0 else (nearest (q / 2 ^ (ilog2 q - p)) : ℚ) * 2 ^ (ilog2 q - p)

theorem f64_fp : FloatTime.f64 = fp 52 := rfl
theorem f32_fp : FloatAdvect.f32 = fp 23 := rfl

theorem fp_between (p : ℕ) {q : ℚ} (hq : q ≠ 0) (z w : ℤ) (h1 : z * (2 : ℚ) ^ (ilog2 q - p) ≤ q) (h2 : q ≤ w * 2 ^ (ilog2 q - p)) :
    z * (2 : ℚ) ^ (ilog2 q - p) ≤ fp p q ∧ fp p q ≤ w * 2 ^ (ilog2 q - p) := by
  have hu := u_pos (ilog2 q - p)
  unfold fp
  rw [if_neg hq]
  have a1 := nearest_mono ((le_div_iff₀ hu).mpr h1)
  have a2 := nearest_mono ((div_le_iff₀ hu).mpr h2)
  rw [nearest_int] at a1 a2
  exact ⟨mul_le_mul_of_nonneg_right (by exact_mod_cast a1) hu.le, mul_le_mul_of_nonneg_right (by exact_mod_cast a2) hu.le⟩

theorem pow_shift (p : ℕ) (e : ℤ) : ((2 ^ p : ℤ) : ℚ) * 2 ^ (e - p) = 2 ^ e := by
  push_cast
  rw [← zpow_natCast, ← zpow_add₀ (by norm_num)]
  congr 1
  ring

theorem pow_shift' (p : ℕ) (e : ℤ) : ((2 ^ (p + 1) : ℤ) : ℚ) * 2 ^ (e - p) = 2 ^ (e + 1) := by
  push_cast
  rw [← zpow_natCast, ← zpow_add₀ (by norm_num)]
  congr 1
  push_cast
  ring

/-- The result has the same binade, or is the next power of two. -/
theorem fp_pos (p : ℕ) {q : ℚ} (hq : 0 < q) : (2 : ℚ) ^ ilog2 q ≤ fp p q ∧ fp p q ≤ 2 ^ (ilog2 q + 1) := by
  obtain ⟨h1, h2⟩ := ilog2_spec (ne_of_gt hq)
  rw [abs_of_pos hq] at h1 h2
  have := fp_between p (ne_of_gt hq) (2 ^ p) (2 ^ (p + 1)) (by rw [pow_shift]; exact h1) (by rw [pow_shift']; exact h2.le)
  rwa [pow_shift, pow_shift'] at this

theorem fp_neg (p : ℕ) {q : ℚ} (hq : q < 0) : -(2 : ℚ) ^ (ilog2 q + 1) ≤ fp p q ∧ fp p q ≤ -2 ^ ilog2 q := by
  obtain ⟨h1, h2⟩ := ilog2_spec (ne_of_lt hq)
  rw [abs_of_neg hq] at h1 h2
  have e1 : ((-(2 ^ (p + 1)) : ℤ) : ℚ) * 2 ^ (ilog2 q - p) = -2 ^ (ilog2 q + 1) := by
    rw [Int.cast_neg, neg_mul, pow_shift']
  have e2 : ((-(2 ^ p) : ℤ) : ℚ) * 2 ^ (ilog2 q - p) = -2 ^ ilog2 q := by
    rw [Int.cast_neg, neg_mul, pow_shift]
  have := fp_between p (ne_of_lt hq) (-(2 ^ (p + 1))) (-(2 ^ p)) (by rw [e1]; linarith) (by rw [e2]; linarith)
  rwa [e1, e2] at this

theorem ilog2_mono {x y : ℚ} (hx : x ≠ 0) (hy : y ≠ 0) (h : |x| ≤ |y|) : ilog2 x ≤ ilog2 y := by
  have h1 := (ilog2_spec hx).1
  have h2 := (ilog2_spec hy).2
  have : (2 : ℚ) ^ ilog2 x < 2 ^ (ilog2 y + 1) := by linarith
  have := (zpow_lt_zpow_iff_right₀ (by norm_num : (1 : ℚ) < 2)).mp this
  omega

theorem fp_same (p : ℕ) {x y : ℚ} (hx : x ≠ 0) (hy : y ≠ 0) (h : x ≤ y) (he : ilog2 x = ilog2 y) : fp p x ≤ fp p y := by
  unfold fp
  rw [if_neg hx, if_neg hy, he]
  have hu := u_pos (ilog2 y - p)
  exact mul_le_mul_of_nonneg_right (by exact_mod_cast nearest_mono (div_le_div_of_nonneg_right h hu.le)) hu.le

theorem fp_mono (p : ℕ) (x y : ℚ) (h : x ≤ y) : fp p x ≤ fp p y := by
  have z0 : fp p 0 = 0 := by simp [fp]
  rcases lt_trichotomy x 0 with hx | hx | hx
  · have a := fp_neg p hx
    have ua := u_pos (ilog2 x)
    rcases lt_trichotomy y 0 with hy | hy | hy
    · have hl := ilog2_mono (ne_of_lt hy) (ne_of_lt hx) (by rw [abs_of_neg hx, abs_of_neg hy]; linarith)
      rcases lt_or_eq_of_le hl with he | he
      · have b := fp_neg p hy
        have : (2 : ℚ) ^ (ilog2 y + 1) ≤ 2 ^ ilog2 x := zpow_le_zpow_right₀ (by norm_num) (by omega)
        linarith
      · exact fp_same p (ne_of_lt hx) (ne_of_lt hy) h he.symm
    · rw [hy, z0]; linarith
    · have b := fp_pos p hy
      have ub := u_pos (ilog2 y)
      linarith
  · rw [hx, z0]
    rcases lt_or_eq_of_le (hx ▸ h) with hy | hy
    · have b := fp_pos p hy
      have ub := u_pos (ilog2 y)
      linarith
    · rw [← hy, z0]
  · have hy : 0 < y := by linarith
    have a := fp_pos p hx
    have b := fp_pos p hy
    have hl := ilog2_mono (ne_of_gt hx) (ne_of_gt hy) (by rw [abs_of_pos hx, abs_of_pos hy]; exact h)
    rcases lt_or_eq_of_le hl with he | he
    · have : (2 : ℚ) ^ (ilog2 x + 1) ≤ 2 ^ ilog2 y := zpow_le_zpow_right₀ (by norm_num) (by omega)
      linarith
    · exact fp_same p (ne_of_gt hx) (ne_of_gt hy) h he

theorem Nearest.mono_err {fl : ℚ → ℚ} {ε ε' : ℚ} (h : Nearest fl ε) (he : ε ≤ ε') : Nearest fl ε' :=
  ⟨fun x => le_trans (h.rounds x) (mul_le_mul_of_nonneg_right he (abs_nonneg _)), h.mono, h.one⟩

theorem Rounds.mono_err {fl : ℚ → ℚ} {ε ε' : ℚ} (h : Rounds fl ε) (he : ε ≤ ε') : Rounds fl ε' :=
  fun x => le_trans (h x) (mul_le_mul_of_nonneg_right he (abs_nonneg _))

theorem f32_nearest : Nearest FloatAdvect.f32 (1 / 2 ^ 24) :=
  ⟨FloatAdvect.f32_rounds, by rw [f32_fp]; exact fp_mono 23, by decide +kernel⟩

theorem f64_nearest : Nearest FloatTime.f64 (1 / 2 ^ 53) :=
  ⟨FloatAdvect.rounds_of_double FloatTime.f64_double le_rfl, by rw [f64_fp]; exact fp_mono 52, by decide +kernel⟩

/-- A single-precision number is a double-precision number. -/
theorem f64_of_f32 (w : ℚ) (h : FloatAdvect.f32 w = w) : FloatTime.f64 w = w := by
  by_cases h0 : w = 0
  · subst h0; simp [FloatTime.f64]
  have h1 := (ilog2_spec h0).2
  refine FloatTime.exact_of FloatTime.f64_double (k := ilog2 w - 23) ?_ ?_
  · unfold FloatAdvect.f32 at h
    rw [if_neg h0] at h
    exact ⟨_, h.symm⟩
  · have e : (2 : ℚ) ^ (ilog2 w + 1) = 2 ^ 24 * 2 ^ (ilog2 w - 23) := by
      rw [← zpow_natCast, ← zpow_add₀ (by norm_num)]
      congr 1
      push_cast
      ring
    have := u_pos (ilog2 w - 23)
    rw [e] at h1
    have : (2 : ℚ) ^ 24 * 2 ^ (ilog2 w - 23) ≤ 2 ^ 53 * 2 ^ (ilog2 w - 23) := mul_le_mul_of_nonneg_right (by norm_num) this.le
    linarith

theorem id_rounds {ε : ℚ} (h : 0 ≤ ε) : Rounds id ε := fun x => by
  simpa using mul_nonneg h (abs_nonneg x)

/-! ### Relative coordinates -/

theorem Near.mul2 {ε : ℚ} {n m : ℕ} {B B' x y x' y' : ℚ} (h : Near ε n B x y) (h' : Near ε m B' x' y') :
    Near ε (n + m) (B * B') (x * x') (y * y') := by
  have b0 : 0 ≤ B := le_trans (abs_nonneg _) h.2
  have b0' : 0 ≤ B' := le_trans (abs_nonneg _) h'.2
  constructor
  · have e : x * x' - y * y' = (x - y) * (x' - y') + (x - y) * y' + y * (x' - y') := by ring
    have k1 : |(x - y) * (x' - y')| ≤ ((1 + ε) ^ n - 1) * B * (((1 + ε) ^ m - 1) * B') := by
      rw [abs_mul]; exact mul_le_mul h.1 h'.1 (abs_nonneg _) (le_trans (abs_nonneg _) h.1)
    have k2 : |(x - y) * y'| ≤ ((1 + ε) ^ n - 1) * B * B' := by
      rw [abs_mul]; exact mul_le_mul h.1 h'.2 (abs_nonneg _) (le_trans (abs_nonneg _) h.1)
    have k3 : |y * (x' - y')| ≤ B * (((1 + ε) ^ m - 1) * B') := by
      rw [abs_mul]; exact mul_le_mul h.2 h'.1 (abs_nonneg _) b0
    have k4 := abs_add_le ((x - y) * (x' - y') + (x - y) * y') (y * (x' - y'))
    have k5 := abs_add_le ((x - y) * (x' - y')) ((x - y) * y')
    rw [e, pow_add]
    nlinarith
  · rw [abs_mul]
    exact mul_le_mul h.2 h'.2 (abs_nonneg _) b0

theorem Near.div {fl : ℚ → ℚ} {ε : ℚ} (hf : Rounds fl ε) (hε : 0 ≤ ε) (hε' : ε ≤ 1 / 2) {n : ℕ} {B x y w : ℚ} (hw : w ≠ 0) (h : Near ε n B x y) :
    Near ε (n + 2) (B / |w|) (x / fl w) (y / w) := by
  have b0 : 0 ≤ B := le_trans (abs_nonneg _) h.2
  have hp := FloatAdvect.one_le_pow' hε n
  have w0 : 0 < |w| := abs_pos.mpr hw
  have hr := hf w
  have v1 : (1 - ε) * |w| ≤ |fl w| := by
    have := abs_sub_abs_le_abs_sub w (fl w)
    rw [abs_sub_comm w] at this
    linarith
  have v0 : 0 < |fl w| := lt_of_lt_of_le (mul_pos (by linarith) w0) v1
  have hv : fl w ≠ 0 := abs_pos.mp v0
  constructor
  · have e : x / fl w - y / w = ((x - y) * w + y * (w - fl w)) / (fl w * w) := by field_simp; ring
    have k1 : |(x - y) * w + y * (w - fl w)| ≤ ((1 + ε) ^ n - 1) * B * |w| + B * (ε * |w|) := by
      refine le_trans (abs_add_le _ _) (add_le_add ?_ ?_)
      · rw [abs_mul]; exact mul_le_mul_of_nonneg_right h.1 w0.le
      · rw [abs_mul, abs_sub_comm]; exact mul_le_mul h.2 hr (abs_nonneg _) b0
    rw [e, abs_div, abs_mul (fl w), div_le_iff₀ (mul_pos v0 w0)]
    refine le_trans k1 ?_
    have e2 : ((1 + ε) ^ (n + 2) - 1) * (B / |w|) * (|fl w| * |w|) = ((1 + ε) ^ (n + 2) - 1) * B * |fl w| := by field_simp
    rw [e2]
    have q : 1 ≤ (1 + ε) ^ (n + 2) := FloatAdvect.one_le_pow' hε _
    have k2 : ((1 + ε) ^ (n + 2) - 1) * B * ((1 - ε) * |w|) ≤ ((1 + ε) ^ (n + 2) - 1) * B * |fl w| :=
      mul_le_mul_of_nonneg_left v1 (mul_nonneg (by linarith) b0)
    refine le_trans ?_ k2
    have k3 : (1 + ε) ^ n - 1 + ε ≤ ((1 + ε) ^ (n + 2) - 1) * (1 - ε) := by
      have : ((1 + ε) ^ (n + 2) - 1) * (1 - ε) = (1 + ε) ^ n * (1 + ε * (1 - ε - ε ^ 2)) - 1 + ε := by rw [pow_add]; ring
      rw [this]
      have : 0 ≤ ε * (1 - ε - ε ^ 2) := mul_nonneg hε (by nlinarith)
      nlinarith
    have := mul_le_mul_of_nonneg_right k3 (mul_nonneg b0 w0.le)
    nlinarith
  · rw [abs_div]
    exact div_le_div_of_nonneg_right h.2 w0.le

theorem fl_zero' {fl : ℚ → ℚ} {ε : ℚ} (hf : Rounds fl ε) : fl 0 = 0 := by
  have := hf 0
  rw [abs_zero, mul_zero, sub_zero] at this
  exact abs_nonpos_iff.mp this

/-- The rounded relative coordinate is in [0, 1] and close to the exact one: `s` is the distance from the first node, `w` the width of the cell. -/
theorem rel_near {fl nd : ℚ → ℚ} {ε s w : ℚ} (hf : Nearest fl ε) (hn : Nearest nd ε) (hε : 0 ≤ ε) (hε' : ε ≤ 1 / 2)
    (hs : (0 ≤ s ∧ s ≤ w ∧ 0 < w) ∨ (s ≤ 0 ∧ w ≤ s ∧ w < 0)) (hfit : |fl w| ≤ |nd w|) :
    0 ≤ fl (fl s / nd w) ∧ fl (fl s / nd w) ≤ 1 ∧ |fl (fl s / nd w) - s / w| ≤ err ε 4 := by
  have hw : w ≠ 0 := by rcases hs with h | h <;> [exact ne_of_gt h.2.2; exact ne_of_lt h.2.2]
  have z := fl_zero' hf.rounds
  have zn := fl_zero' hn.rounds
  have hq : 0 ≤ fl s / nd w ∧ fl s / nd w ≤ 1 := by
    have key : |fl s| ≤ |nd w| ∧ 0 ≤ fl s / nd w := by
      rcases hs with ⟨h1, h2, h3⟩ | ⟨h1, h2, h3⟩
      · have a := hf.mono _ _ h1
        have b := hf.mono _ _ h2
        have c := hn.mono _ _ h3.le
        rw [z] at a; rw [zn] at c
        refine ⟨le_trans ?_ hfit, div_nonneg a c⟩
        rw [abs_of_nonneg a, abs_of_nonneg (le_trans a b)]; exact b
      · have a := hf.mono _ _ h1
        have b := hf.mono _ _ h2
        have c := hn.mono _ _ h3.le
        rw [z] at a; rw [zn] at c
        refine ⟨le_trans ?_ hfit, div_nonneg_of_nonpos a c⟩
        rw [abs_of_nonpos a, abs_of_nonpos (le_trans b a)]; linarith
    refine ⟨key.2, ?_⟩
    have : fl s / nd w = |fl s| / |nd w| := by rw [← abs_div, abs_of_nonneg key.2]
    rw [this]
    exact div_le_one_of_le₀ key.1 (abs_nonneg _)
  have h0 := hf.mono _ _ hq.1
  have h1 := hf.mono _ _ hq.2
  rw [z] at h0; rw [hf.one] at h1
  refine ⟨h0, h1, ?_⟩
  have hb : |s| ≤ |w| := by
    rcases hs with ⟨h1, h2, h3⟩ | ⟨h1, h2, h3⟩
    · rw [abs_of_nonneg h1, abs_of_pos h3]; exact h2
    · rw [abs_of_nonpos h1, abs_of_neg h3]; linarith
  have n1 := (Near.div hn.rounds hε hε' hw ((Near.refl hε 0 hb).round hf.rounds hε)).round hf.rounds hε
  rw [div_self (abs_pos.mpr hw).ne'] at n1
  have := n1.1
  rw [mul_one] at this
  exact this

/-! ### The search -/

section search
variable {r : Arith} {ε : ℚ}

theorem rel_some (l : List ℚ) (x : ℚ) {n : Nat} (h : n + 1 < l.length) :
    rel r l x (n : ℤ) = some (r.fl (r.fl (x - l.getD n 0) / r.nd (l.getD (n + 1) 0 - l.getD n 0))) := by
  unfold rel
  rw [pyGet_nat (by omega)]
  have := pyGet_nat (l := l) (n := n + 1) h
  rw [show ((n : ℤ) + 1) = ((n + 1 : Nat) : ℤ) by push_cast; ring, this]

theorem fits_getD {l : List ℚ} (h : Fits r l) {n : Nat} (hn : n + 1 < l.length) :
    |r.fl (l.getD (n + 1) 0 - l.getD n 0)| ≤ |r.nd (l.getD (n + 1) 0 - l.getD n 0)| :=
  h n _ _ (getD_some (by omega)) (getD_some hn)

theorem fits_self (r : Arith) (l : List ℚ) (h : r.fl = r.nd) : Fits r l := by
  intro n a b _ _; rw [h]

/-- A relative coordinate as in Spec: in [0, 1] and within `err ε 4`. -/
def Rel (ε q q' : ℚ) : Prop := 0 ≤ q' ∧ q' ≤ 1 ∧ |q' - q| ≤ err ε 4

theorem cell_rel (hr : r.Within ε) (hε : 0 ≤ ε) (hε' : ε ≤ 1 / 2) {l : List ℚ} (hfit : Fits r l) {n : Nat} (hn : n + 1 < l.length) {x : ℚ}
    (h : (l.getD n 0 < l.getD (n + 1) 0 ∧ l.getD n 0 ≤ x ∧ x ≤ l.getD (n + 1) 0) ∨
      (l.getD (n + 1) 0 < l.getD n 0 ∧ x ≤ l.getD n 0 ∧ l.getD (n + 1) 0 ≤ x)) :
    Rel ε ((x - l.getD n 0) / (l.getD (n + 1) 0 - l.getD n 0)) (r.fl (r.fl (x - l.getD n 0) / r.nd (l.getD (n + 1) 0 - l.getD n 0))) := by
  apply rel_near hr.fl hr.nd hε hε' _ (fits_getD hfit hn)
  rcases h with ⟨a, b, c⟩ | ⟨a, b, c⟩
  · left; exact ⟨by linarith, by linarith, by linarith⟩
  · right; exact ⟨by linarith, by linarith, by linarith⟩

theorem axis_rel (hr : r.Within ε) (hε : 0 ≤ ε) (hε' : ε ≤ 1 / 2) {l : List ℚ} (h : Increasing l) (hl : 2 ≤ l.length) (hfit : Fits r l) {x : ℚ}
    (h1 : l.getD 0 0 ≤ x) (h2 : x ≤ l.getD (l.length - 1) 0) :
    ∃ n q q', Search.axisSearch l x = some (n, q) ∧ axisSearch r l x = some (n, q') ∧ (0 ≤ q ∧ q ≤ 1) ∧ Rel ε q q' := by
  obtain ⟨n, hn, ha, hb, hg⟩ := guess_found h hl h1 h2
  have hlt := inc_lt h (Nat.lt_succ_self n) hn
  obtain ⟨r1, r2, _⟩ := rel_bounds hlt ha hb
  have hR := cell_rel hr hε hε' hfit hn (Or.inl ⟨hlt, ha, hb⟩)
  refine ⟨n, _, _, ?_, ?_, ⟨r1, r2⟩, hR⟩
  · unfold Search.axisSearch
    rw [hg, rel_nat hn]
    simp only
    rw [if_neg (not_lt.mpr r1), if_neg (not_lt.mpr r2)]
  · unfold axisSearch
    rw [hg, rel_some l x hn]
    simp only
    rw [if_neg (not_lt.mpr hR.1), if_neg (not_lt.mpr hR.2.1)]

/-- The same error, or the same layer with close relative coordinates. -/
def SameLayer (ε : ℚ) : Except Err (ℤ × ℚ) → Except Err (ℤ × ℚ) → Prop
  | .error e, .error e' => e = e'
  | .ok p, .ok q => q.1 = p.1 ∧ (0 ≤ p.2 ∧ p.2 ≤ 1) ∧ Rel ε p.2 q.2
  | _, _ => False

theorem z_rel (hr : r.Within ε) (hε : 0 ≤ ε) (hε' : ε ≤ 1 / 2) {d : List ℚ} (h : Increasing d ∨ Decreasing d) (hl : 2 ≤ d.length) {z : ℚ} (hz : r.nd z = z) :
    SameLayer ε (Search.searchZ d false z) (searchZ r d false z) := by
  have hr' : Arith.Within { r with fl := r.nd } ε := ⟨hr.nd, hr.nd, hr.ar, hr.st, hr.tm, hr.df, hr.bl⟩
  have hfit : Fits { r with fl := r.nd } d := fits_self _ _ rfl
  unfold Search.searchZ searchZ
  rw [headD_getD, getLastD_getD, hz]
  simp only [Bool.false_and, Bool.false_eq_true, if_false]
  rcases h with h | h
  · have hfl : d.getD 0 0 < d.getD (d.length - 1) 0 := inc_lt h (by omega) (by omega)
    simp only [hfl, if_true]
    by_cases c1 : z < d.getD 0 0
    · simp only [c1, if_true, SameLayer]
    by_cases c2 : d.getD (d.length - 1) 0 < z
    · simp only [c1, c2, if_true, if_false, SameLayer]
    simp only [c1, c2, if_false]
    obtain ⟨n, hn, ha, hb, hg⟩ := zi_found_inc h hl (not_lt.mp c1) (not_lt.mp c2)
    have hlt := inc_lt h (Nat.lt_succ_self n) hn
    obtain ⟨r1, r2, _⟩ := rel_bounds hlt ha hb
    have hR := cell_rel hr' hε hε' hfit hn (Or.inl ⟨hlt, ha, hb⟩)
    rw [hg, rel_nat hn, rel_some d z hn]
    exact ⟨rfl, ⟨r1, r2⟩, hR⟩
  · have hfl : d.getD (d.length - 1) 0 < d.getD 0 0 := dec_gt h (by omega) (by omega)
    simp only [not_lt.mpr hfl.le, if_false]
    by_cases c1 : d.getD 0 0 < z
    · simp only [c1, if_true, SameLayer]
    by_cases c2 : z < d.getD (d.length - 1) 0
    · simp only [c1, c2, if_true, if_false, SameLayer]
    simp only [c1, c2, if_false]
    obtain ⟨n, hn, ha, hb, hg⟩ := zi_found_dec h hl (not_lt.mp c1) (not_lt.mp c2)
    have hlt := dec_gt h (Nat.lt_succ_self n) hn
    obtain ⟨r1, r2, _⟩ := rel_bounds_dec hlt ha hb
    have hR := cell_rel hr' hε hε' hfit hn (Or.inr ⟨hlt, ha, hb⟩)
    rw [hg, rel_nat hn, rel_some d z hn]
    exact ⟨rfl, ⟨r1, r2⟩, hR⟩

theorem c_axis_rel (hr : r.Within ε) (hε : 0 ≤ ε) (hε' : ε ≤ 1 / 2) {l : List ℚ} (h : Increasing l) (hl : 2 ≤ l.length) (hfit : Fits r l) {x : ℚ}
    (h1 : l.getD 0 0 ≤ x) (h2 : x ≤ l.getD (l.length - 1) 0) {s : Nat} (hs : s + 1 < l.length) :
    (cAxis r l x s).1 = (Search.cAxis l x s).1 ∧ (0 ≤ (Search.cAxis l x s).2 ∧ (Search.cAxis l x s).2 ≤ 1) ∧
    Rel ε (Search.cAxis l x s).2 (cAxis r l x s).2 := by
  obtain ⟨w1, w2, w3, w4⟩ := cWalk_spec (lt := ltB) hl s (by omega) (x := x) (by simpa [ltB] using h1)
    (fun i hi => by simpa [ltB] using inc_lt h (Nat.lt_succ_self i) hi)
    (fun a b c h1 h2 => by simp only [ltB, decide_eq_true_eq] at *; linarith)
    (fun a => by simp [ltB])
  have hw := w4 (by omega) (by simpa [ltB] using h2)
  unfold cAxis Search.cAxis
  rw [if_neg (by omega), if_neg (by omega)]
  simp only [ltB, decide_eq_false_iff_not, not_lt] at w2 w3
  have hlt := inc_lt h (Nat.lt_succ_self (cWalk ltB l x s)) (by omega)
  obtain ⟨r1, r2, _⟩ := rel_bounds hlt w2 (w3 hw)
  exact ⟨rfl, ⟨r1, r2⟩, cell_rel hr hε hε' hfit (by omega) (Or.inl ⟨hlt, w2, w3 hw⟩)⟩

theorem c_z_rel (hr : r.Within ε) (hε : 0 ≤ ε) (hε' : ε ≤ 1 / 2) {d : List ℚ} (h : Increasing d ∨ Decreasing d) (hl : 2 ≤ d.length) (hfit : Fits r d)
    {z : ℚ} {s : Nat} (hs : s ≤ d.length - 1) :
    SameLayer ε (Search.cSearchZ d false z s) (cSearchZ r d false z s) := by
  unfold Search.cSearchZ cSearchZ
  rw [headD_getD, getLastD_getD]
  simp only [Bool.and_false, Bool.false_and, Bool.false_eq_true, if_false]
  rcases h with h | h
  · have hfl : d.getD 0 0 < d.getD (d.length - 1) 0 := inc_lt h (by omega) (by omega)
    simp only [hfl, if_true]
    by_cases c1 : z < d.getD 0 0
    · simp only [c1, if_true, SameLayer]
    by_cases c2 : d.getD (d.length - 1) 0 < z
    · simp only [c1, c2, if_true, if_false, SameLayer]
    simp only [c1, c2, if_false]
    obtain ⟨w1, w2, w3, _⟩ := cWalk_spec (lt := ltB) hl s hs (x := z) (by simpa [ltB] using c1)
      (fun i hi => by simpa [ltB] using inc_lt h (Nat.lt_succ_self i) hi)
      (fun a b c h1 h2 => by simp only [ltB, decide_eq_true_eq] at *; linarith)
      (fun a => by simp [ltB])
    generalize cWalk ltB d z s = w at *
    simp only [ltB, decide_eq_false_iff_not, not_lt] at w2 w3
    have main : ∀ n, n + 1 < d.length → d.getD n 0 ≤ z → z ≤ d.getD (n + 1) 0 →
        SameLayer ε (.ok ((n : ℤ), Search.cRel d z n)) (.ok ((n : ℤ), cRel r d z n)) := by
      intro n hn ha hb
      have hlt := inc_lt h (Nat.lt_succ_self n) hn
      obtain ⟨r1, r2, _⟩ := rel_bounds hlt ha hb
      exact ⟨rfl, ⟨r1, r2⟩, cell_rel hr hε hε' hfit hn (Or.inl ⟨hlt, ha, hb⟩)⟩
    by_cases hw : w = d.length - 1
    · simp only [if_pos hw]
      refine main _ (by omega) (le_trans (inc_le h (by omega) (by omega)) w2) ?_
      rw [show w - 1 + 1 = d.length - 1 by omega]; exact not_lt.mp c2
    · simp only [if_neg hw]
      exact main _ (by omega) w2 (w3 (by omega))
  · have hfl : d.getD (d.length - 1) 0 < d.getD 0 0 := dec_gt h (by omega) (by omega)
    simp only [not_lt.mpr hfl.le, if_false]
    by_cases c1 : d.getD 0 0 < z
    · simp only [c1, if_true, SameLayer]
    by_cases c2 : z < d.getD (d.length - 1) 0
    · simp only [c1, c2, if_true, if_false, SameLayer]
    simp only [c1, c2, if_false]
    obtain ⟨w1, w2, w3, _⟩ := cWalk_spec (lt := gtB) hl s hs (x := z) (by simpa [gtB] using c1)
      (fun i hi => by simpa [gtB] using dec_gt h (Nat.lt_succ_self i) hi)
      (fun a b c h1 h2 => by simp only [gtB, decide_eq_true_eq] at *; linarith)
      (fun a => by simp [gtB])
    generalize cWalk gtB d z s = w at *
    simp only [gtB, decide_eq_false_iff_not, not_lt] at w2 w3
    have main : ∀ n, n + 1 < d.length → z ≤ d.getD n 0 → d.getD (n + 1) 0 ≤ z →
        SameLayer ε (.ok ((n : ℤ), Search.cRel d z n)) (.ok ((n : ℤ), cRel r d z n)) := by
      intro n hn ha hb
      have hlt := dec_gt h (Nat.lt_succ_self n) hn
      obtain ⟨r1, r2, _⟩ := rel_bounds_dec hlt ha hb
      exact ⟨rfl, ⟨r1, r2⟩, cell_rel hr hε hε' hfit hn (Or.inr ⟨hlt, ha, hb⟩)⟩
    by_cases hw : w = d.length - 1
    · simp only [if_pos hw]
      refine main _ (by omega) (le_trans w2 (dec_ge h (by omega) (by omega))) ?_
      rw [show w - 1 + 1 = d.length - 1 by omega]; exact not_lt.mp c2
    · simp only [if_neg hw]
      exact main _ (by omega) w2 (w3 (by omega))

end search

section rect
variable {r : Arith} {ε : ℚ}

/-- Two searches with the same outcome, and what is needed of it for the interpolation. -/
def Agree (ε : ℚ) (A B : Except Err Pos) : Prop :=
  (∃ e, A = .error e ∧ B = .error e) ∨
  (∃ p q : Pos, A = .ok p ∧ B = .ok q ∧ q.xi = p.xi ∧ q.yi = p.yi ∧ q.zi = p.zi ∧
    ((0 ≤ p.xsi ∧ p.xsi ≤ 1) ∧ Rel ε p.xsi q.xsi) ∧ ((0 ≤ p.eta ∧ p.eta ≤ 1) ∧ Rel ε p.eta q.eta) ∧
    ((0 ≤ p.zeta ∧ p.zeta ≤ 1) ∧ Rel ε p.zeta q.zeta))

theorem Agree.same {A B : Except Err Pos} (h : Agree ε A B) : SameCell (err ε 4) A B := by
  rcases h with ⟨e, rfl, rfl⟩ | ⟨p, q, rfl, rfl, a, b, c, ⟨_, d⟩, ⟨_, e⟩, ⟨_, f⟩⟩
  · rfl
  · exact ⟨a, b, c, d, e, f⟩

theorem inUnit_iff {q : ℚ} (h0 : 0 ≤ q) (h1 : q ≤ 1) : inUnit q = true := by simp [inUnit, h0, h1]

theorem inc_head {l : List ℚ} (h : Increasing l) : (l.all fun v => decide (l.headD 0 ≤ v)) = true := by
  rw [List.all_eq_true]
  intro v hv
  obtain ⟨i, hi, rfl⟩ := List.getElem_of_mem hv
  have := inc_le h (Nat.zero_le i) hi
  rw [List.getD_eq_getElem l 0 hi, ← headD_getD] at this
  simpa using this

theorem lonFixed_inc {l : List ℚ} (h : Increasing l) {x : ℚ} (hx : l.getD 0 0 ≤ x) : lonFixed r l x = l ∧ Search.lonFixed l x = l := by
  have h1 : unwrap r l = l := by unfold unwrap; rw [if_pos (inc_head h)]
  have h2 : Search.unwrap l = l := by unfold Search.unwrap; rw [if_pos (inc_head h)]
  unfold lonFixed Search.lonFixed
  rw [h1, h2, headD_getD, if_neg (not_lt.mpr hx), if_neg (not_lt.mpr hx)]
  exact ⟨rfl, rfl⟩

theorem err_nonneg {ε : ℚ} (hε : 0 ≤ ε) (n : ℕ) : 0 ≤ err ε n := by
  have := FloatAdvect.one_le_pow' hε n
  unfold err; linarith

theorem rect_agree (hr : r.Within ε) (hε : 0 ≤ ε) (hε' : ε ≤ 1 / 2) {g : RGrid} (hg : Ordinary g) (hlon : Fits r g.lon) (hlat : Fits r g.lat)
    (x y z : ℚ) (hz : r.nd z = z) : Agree ε (Search.searchRect g x y z) (searchRect r g x y z) := by
  obtain ⟨⟨lonInc, lonLen⟩, ⟨latInc, latLen⟩, hd, hh, hm⟩ := hg
  unfold Search.searchRect searchRect
  rw [minL_inc lonInc, maxL_inc lonInc, minL_inc latInc, maxL_inc latInc]
  by_cases hx : x < g.lon.getD 0 0 ∨ g.lon.getD (g.lon.length - 1) 0 < x
  · rw [if_pos ⟨by omega, hh, hx⟩, if_pos ⟨by omega, hh, hx⟩]; exact Or.inl ⟨_, rfl, rfl⟩
  have kx : ¬ (1 < g.lon.length ∧ g.zonalPeriodic = false ∧ (x < g.lon.getD 0 0 ∨ g.lon.getD (g.lon.length - 1) 0 < x)) := fun c => hx c.2.2
  rw [if_neg kx, if_neg kx]
  by_cases hy : y < g.lat.getD 0 0 ∨ g.lat.getD (g.lat.length - 1) 0 < y
  · have ky : 1 < g.lat.length ∧ (y < g.lat.getD 0 0 ∨ g.lat.getD (g.lat.length - 1) 0 < y) := ⟨by omega, hy⟩
    rw [if_pos ky, if_pos ky]; exact Or.inl ⟨_, rfl, rfl⟩
  have ky : ¬ (1 < g.lat.length ∧ (y < g.lat.getD 0 0 ∨ g.lat.getD (g.lat.length - 1) 0 < y)) := fun c => hy c.2
  rw [if_neg ky, if_neg ky]
  rw [not_or, not_lt, not_lt] at hx hy
  obtain ⟨n, q, q', h1, h2, hq, hR⟩ := axis_rel hr hε hε' lonInc lonLen hlon hx.1 hx.2
  obtain ⟨m, s, s', h3, h4, hs, hS⟩ := axis_rel hr hε hε' latInc latLen hlat hy.1 hy.2
  have e1 : Search.searchX g x = some (n, q) := by
    unfold Search.searchX
    rw [if_pos (by omega), (lonFixed_inc (r := r) lonInc hx.1).2, h1]
    cases g.spherical <;> rfl
  have e2 : searchX r g x = some (n, q') := by
    unfold searchX
    rw [if_pos (by omega), (lonFixed_inc (r := r) lonInc hx.1).1, h2]
    cases g.spherical <;> rfl
  have e3 : Search.searchY g y = some (m, s) := by unfold Search.searchY; rw [if_pos (by omega), h3]
  have e4 : searchY r g y = some (m, s') := by unfold searchY; rw [if_pos (by omega), h4]
  have hD : SameLayer ε (Search.searchDepth g z) (searchDepth r g z) := by
    unfold Search.searchDepth searchDepth
    by_cases c : 1 < g.depth.length
    · rw [if_pos c, if_pos c, hm]
      exact z_rel hr hε hε' (hd.resolve_left (by omega)) c hz
    · rw [if_neg c, if_neg c]
      exact ⟨rfl, by norm_num, by norm_num, by norm_num, by simpa using err_nonneg hε 4⟩
  rw [e1, e2, e3, e4]
  simp only
  generalize Search.searchDepth g z = A at hD
  generalize searchDepth r g z = B at hD
  rcases A with e | ⟨k, t⟩ <;> rcases B with e' | ⟨k', t'⟩ <;> simp only [SameLayer] at hD
  · subst hD; exact Or.inl ⟨_, rfl, rfl⟩
  · obtain ⟨rfl, ht, hT⟩ := hD
    simp only [inUnit_iff hq.1 hq.2, inUnit_iff hs.1 hs.2, inUnit_iff ht.1 ht.2, inUnit_iff hR.1 hR.2.1, inUnit_iff hS.1 hS.2.1,
      inUnit_iff hT.1 hT.2.1, Bool.and_self, if_true]
    exact Or.inr ⟨_, _, rfl, rfl, rfl, rfl, rfl, ⟨hq, hR⟩, ⟨hs, hS⟩, ⟨ht, hT⟩⟩

theorem c_rect_agree (hr : r.Within ε) (hε : 0 ≤ ε) (hε' : ε ≤ 1 / 2) {g : RGrid} (hg : Ordinary g) (hf : g.spherical = false)
    (hlon : Fits r g.lon) (hlat : Fits r g.lat) (hdep : Fits r g.depth) (x y z : ℚ) {xi yi zi : Nat}
    (hxi : xi + 1 < g.lon.length) (hyi : yi + 1 < g.lat.length) (hzi : zi ≤ g.depth.length - 1) :
    Agree ε (Search.cSearchRect g x y z xi yi zi) (cSearchRect r g x y z xi yi zi) := by
  obtain ⟨⟨lonInc, lonLen⟩, ⟨latInc, latLen⟩, hd, hh, hm⟩ := hg
  unfold Search.cSearchRect cSearchRect
  rw [minL_inc lonInc, maxL_inc lonInc, minL_inc latInc, maxL_inc latInc]
  by_cases hx : x < g.lon.getD 0 0 ∨ g.lon.getD (g.lon.length - 1) 0 < x
  · rw [if_pos ⟨hh, by omega, hx⟩, if_pos ⟨hh, by omega, hx⟩]; exact Or.inl ⟨_, rfl, rfl⟩
  have kx : ¬ (g.zonalPeriodic = false ∧ 1 < g.lon.length ∧ (x < g.lon.getD 0 0 ∨ g.lon.getD (g.lon.length - 1) 0 < x)) := fun c => hx c.2.2
  rw [if_neg kx, if_neg kx]
  by_cases hy : y < g.lat.getD 0 0 ∨ g.lat.getD (g.lat.length - 1) 0 < y
  · have ky : 1 < g.lat.length ∧ (y < g.lat.getD 0 0 ∨ g.lat.getD (g.lat.length - 1) 0 < y) := ⟨by omega, hy⟩
    rw [if_pos ky, if_pos ky]; exact Or.inl ⟨_, rfl, rfl⟩
  have ky : ¬ (1 < g.lat.length ∧ (y < g.lat.getD 0 0 ∨ g.lat.getD (g.lat.length - 1) 0 < y)) := fun c => hy c.2
  rw [if_neg ky, if_neg ky]
  rw [not_or, not_lt, not_lt] at hx hy
  obtain ⟨i1, hq, hR⟩ := c_axis_rel hr hε hε' lonInc lonLen hlon hx.1 hx.2 hxi
  obtain ⟨i2, hs, hS⟩ := c_axis_rel hr hε hε' latInc latLen hlat hy.1 hy.2 hyi
  have e1 : Search.cSearchX g x xi = .ok (((Search.cAxis g.lon x xi).1 : Nat), (Search.cAxis g.lon x xi).2) := by
    unfold Search.cSearchX
    rw [if_neg (by omega), hf, cond_false]
  have hD : SameLayer ε (if 1 < g.depth.length then Search.cSearchZ g.depth g.mom5 z zi else .ok ((zi : ℤ), 0))
      (if 1 < g.depth.length then cSearchZ r g.depth g.mom5 z zi else .ok ((zi : ℤ), 0)) := by
    by_cases c : 1 < g.depth.length
    · rw [if_pos c, if_pos c, hm]
      exact c_z_rel hr hε hε' (hd.resolve_left (by omega)) c hdep hzi
    · rw [if_neg c, if_neg c]
      exact ⟨rfl, by norm_num, by norm_num, by norm_num, by simpa using err_nonneg hε 4⟩
  rw [e1]
  simp only
  generalize (if 1 < g.depth.length then Search.cSearchZ g.depth g.mom5 z zi else .ok ((zi : ℤ), 0)) = A at hD
  generalize (if 1 < g.depth.length then cSearchZ r g.depth g.mom5 z zi else .ok ((zi : ℤ), 0)) = B at hD
  rcases A with e | ⟨k, t⟩ <;> rcases B with e' | ⟨k', t'⟩ <;> simp only [SameLayer] at hD
  · subst hD; exact Or.inl ⟨_, rfl, rfl⟩
  · obtain ⟨rfl, ht, hT⟩ := hD
    simp only [inUnit_iff hq.1 hq.2, inUnit_iff hs.1 hs.2, inUnit_iff ht.1 ht.2, inUnit_iff hR.1 hR.2.1, inUnit_iff hS.1 hS.2.1,
      inUnit_iff hT.1 hT.2.1, Bool.and_self, if_true]
    exact Or.inr ⟨_, _, rfl, rfl, by rw [i1], by rw [i2], rfl, ⟨hq, hR⟩, ⟨hs, hS⟩, ⟨ht, hT⟩⟩

end rect

/-! ### Interpolation -/

section interp
variable {r : Arith} {ε D : ℚ}

theorem one_sub_abs {q : ℚ} (h0 : 0 ≤ q) (h1 : q ≤ 1) : |q| ≤ q ∧ |1 - q| ≤ 1 - q := by
  rw [abs_of_nonneg h0, abs_of_nonneg (by linarith : 0 ≤ 1 - q)]
  exact ⟨le_rfl, le_rfl⟩

theorem bilin_near (hr : r.Within ε) (hε : 0 ≤ ε) {x y : ℚ} (x0 : 0 ≤ x) (x1 : x ≤ 1) (y0 : 0 ≤ y) (y1 : y ≤ 1) {c : Cell2}
    (hc : ∀ j i, |c j i| ≤ D) : Near ε 8 D (bilin r x y c) (Interp.bilin x y c) := by
  have nx := (Near.refl hε 0 (one_sub_abs x0 x1).2).round hr.ar hε
  have ny := (Near.refl hε 0 (one_sub_abs y0 y1).2).round hr.ar hε
  have ex := Near.refl hε 1 (one_sub_abs x0 x1).1
  have ey := Near.refl hε 1 (one_sub_abs y0 y1).1
  have t : ∀ {a b a' b' A B : ℚ} (j i), Near ε 1 A a a' → Near ε 1 B b b' →
      Near ε 4 (A * B * D) (r.ar (r.ar (a * b) * c j i)) (a' * b' * c j i) := by
    intro a b a' b' A B j i h h'
    exact (Near.mul2 ((Near.mul2 h h').round hr.ar hε) (Near.refl hε 0 (hc j i))).round hr.ar hε
  have h := ((((t 0 0 nx ny).add (t 0 1 ex ny)).round hr.ar hε).add ((t 1 1 ex ey).mono hε (show 4 ≤ 5 by norm_num) le_rfl)).round hr.ar hε
  have h := ((h.add ((t 1 0 nx ey).mono hε (show 4 ≤ 6 by norm_num) le_rfl)).round hr.ar hε).round hr.st hε
  have e : (1 - x) * (1 - y) * D + x * (1 - y) * D + x * y * D + (1 - x) * y * D = D := by ring
  rw [e] at h
  exact h

theorem trilin_near (hr : r.Within ε) (hε : 0 ≤ ε) {x y z : ℚ} (x0 : 0 ≤ x) (x1 : x ≤ 1) (y0 : 0 ≤ y) (y1 : y ≤ 1) (z0 : 0 ≤ z) (z1 : z ≤ 1)
    {c : Cell3} (hc : ∀ k j i, |c k j i| ≤ D) : Near ε 12 D (trilin r x y z c) (Interp.trilin x y z c) := by
  have nz := (Near.refl hε 0 (one_sub_abs z0 z1).2).round hr.ar hε
  have ez := Near.refl hε 1 (one_sub_abs z0 z1).1
  have h0 := (Near.mul2 nz (bilin_near hr hε x0 x1 y0 y1 (hc 0))).round hr.ar hε
  have h1 := (Near.mul2 ez (bilin_near hr hε x0 x1 y0 y1 (hc 1))).round hr.ar hε
  have h := ((h0.add h1).round hr.ar hε).round hr.st hε
  have e : (1 - z) * D + z * D = D := by ring
  rw [e] at h
  exact h

/-- A convex combination changes by at most `2 D` times the change of the weight. -/
theorem mix_change {a b q q' δ D : ℚ} (ha : |a| ≤ D) (hb : |b| ≤ D) (h : |q' - q| ≤ δ) :
    |((1 - q') * a + q' * b) - ((1 - q) * a + q * b)| ≤ 2 * D * δ := by
  have e : ((1 - q') * a + q' * b) - ((1 - q) * a + q * b) = (b - a) * (q' - q) := by ring
  rw [e, abs_mul]
  have h1 : |b - a| ≤ 2 * D := by have := abs_sub b a; linarith
  exact mul_le_mul h1 h (abs_nonneg _) (le_trans (abs_nonneg _) h1)

theorem mix_le {a b q D : ℚ} (ha : |a| ≤ D) (hb : |b| ≤ D) (q0 : 0 ≤ q) (q1 : q ≤ 1) : |(1 - q) * a + q * b| ≤ D := by
  refine le_trans (abs_add_le _ _) ?_
  rw [abs_mul, abs_mul, abs_of_nonneg q0, abs_of_nonneg (by linarith : 0 ≤ 1 - q)]
  nlinarith

theorem bilin_mix (x y : ℚ) (c : Cell2) :
    Interp.bilin x y c = (1 - y) * ((1 - x) * c 0 0 + x * c 0 1) + y * ((1 - x) * c 1 0 + x * c 1 1) := by unfold Interp.bilin; ring

theorem bilin_le {x y : ℚ} (x0 : 0 ≤ x) (x1 : x ≤ 1) (y0 : 0 ≤ y) (y1 : y ≤ 1) {c : Cell2} (hc : ∀ j i, |c j i| ≤ D) : |Interp.bilin x y c| ≤ D := by
  rw [bilin_mix]
  exact mix_le (mix_le (hc _ _) (hc _ _) x0 x1) (mix_le (hc _ _) (hc _ _) x0 x1) y0 y1

theorem abs_tri {a b c d e : ℚ} (h1 : |a - b| ≤ d) (h2 : |b - c| ≤ e) : |a - c| ≤ d + e := by
  have := abs_add_le (a - b) (b - c)
  rw [sub_add_sub_cancel] at this
  linarith

theorem bilin_change {x y x' y' δ : ℚ} (hy : 0 ≤ y' ∧ y' ≤ 1) (hx0 : 0 ≤ x ∧ x ≤ 1) (hx : |x' - x| ≤ δ) (hy' : |y' - y| ≤ δ) {c : Cell2}
    (hc : ∀ j i, |c j i| ≤ D) : |Interp.bilin x' y' c - Interp.bilin x y c| ≤ 4 * D * δ := by
  have h1 : |Interp.bilin x' y' c - Interp.bilin x y' c| ≤ 2 * D * δ := by
    have e : ∀ x, Interp.bilin x y' c = (1 - x) * ((1 - y') * c 0 0 + y' * c 1 0) + x * ((1 - y') * c 0 1 + y' * c 1 1) := by
      intro x; unfold Interp.bilin; ring
    rw [e, e]
    exact mix_change (mix_le (hc _ _) (hc _ _) hy.1 hy.2) (mix_le (hc _ _) (hc _ _) hy.1 hy.2) hx
  have h2 : |Interp.bilin x y' c - Interp.bilin x y c| ≤ 2 * D * δ := by
    rw [bilin_mix, bilin_mix]
    exact mix_change (mix_le (hc _ _) (hc _ _) hx0.1 hx0.2) (mix_le (hc _ _) (hc _ _) hx0.1 hx0.2) hy'
  have := abs_tri h1 h2
  linarith

theorem bilin_err (hr : r.Within ε) (hε : 0 ≤ ε) {x y x' y' : ℚ} (hx0 : 0 ≤ x ∧ x ≤ 1) (hx : Rel ε x x') (hy : Rel ε y y') {c : Cell2}
    (hc : ∀ j i, |c j i| ≤ D) : |bilin r x' y' c - Interp.bilin x y c| ≤ (err ε 8 + 4 * err ε 4) * D := by
  have h1 := (bilin_near hr hε hx.1 hx.2.1 hy.1 hy.2.1 hc).1
  have h2 := bilin_change ⟨hy.1, hy.2.1⟩ hx0 hx.2.2 hy.2.2 hc
  refine le_trans (abs_tri h1 h2) (le_of_eq ?_)
  unfold err; ring

theorem trilin_err (hr : r.Within ε) (hε : 0 ≤ ε) {x y z x' y' z' : ℚ} (hx0 : 0 ≤ x ∧ x ≤ 1) (hy0 : 0 ≤ y ∧ y ≤ 1) (hz0 : 0 ≤ z ∧ z ≤ 1)
    (hx : Rel ε x x') (hy : Rel ε y y') (hz : Rel ε z z') {c : Cell3}
    (hc : ∀ k j i, |c k j i| ≤ D) : |trilin r x' y' z' c - Interp.trilin x y z c| ≤ sampleErr ε D := by
  have h1 := (trilin_near hr hε hx.1 hx.2.1 hy.1 hy.2.1 hz.1 hz.2.1 hc).1
  have h2 : |Interp.trilin x' y' z' c - Interp.trilin x' y' z c| ≤ 2 * D * err ε 4 := by
    unfold Interp.trilin
    exact mix_change (bilin_le hx.1 hx.2.1 hy.1 hy.2.1 (hc 0)) (bilin_le hx.1 hx.2.1 hy.1 hy.2.1 (hc 1)) hz.2.2
  have h3 : |Interp.trilin x' y' z c - Interp.trilin x y z c| ≤ 4 * D * err ε 4 := by
    have b0 := bilin_change ⟨hy.1, hy.2.1⟩ hx0 hx.2.2 hy.2.2 (hc 0)
    have b1 := bilin_change ⟨hy.1, hy.2.1⟩ hx0 hx.2.2 hy.2.2 (hc 1)
    have e : Interp.trilin x' y' z c - Interp.trilin x y z c =
        (1 - z) * (Interp.bilin x' y' (c 0) - Interp.bilin x y (c 0)) + z * (Interp.bilin x' y' (c 1) - Interp.bilin x y (c 1)) := by
      unfold Interp.trilin; ring
    rw [e]
    exact mix_le b0 b1 hz0.1 hz0.2
  refine le_trans (abs_tri h1 (abs_tri h2 h3)) (le_of_eq ?_)
  unfold sampleErr err; ring

theorem two_le (hε : 0 ≤ ε) (hD : 0 ≤ D) : (err ε 8 + 4 * err ε 4) * D ≤ sampleErr ε D := by
  unfold sampleErr
  refine mul_le_mul_of_nonneg_right ?_ hD
  have h1 : err ε 8 ≤ err ε 12 := by
    unfold err
    have : (1 + ε) ^ 8 ≤ (1 + ε) ^ 12 := pow_le_pow_right₀ (by linarith) (by norm_num)
    linarith
  have := err_nonneg hε 4
  linarith

end interp

/-! ### Time -/

section time
variable {r : Arith} {ε D η : ℚ}

theorem blend_err (hr : r.Within ε) (hε : 0 ≤ ε) (hε' : ε ≤ 1 / 2) {f0 f1 f0' f1' t t0 t1 : ℚ} (h01 : t0 < t1) (h0 : t0 ≤ t) (h1 : t ≤ t1)
    (hf0 : |f0| ≤ D) (hf1 : |f1| ≤ D) (e0 : |f0' - f0| ≤ η) (e1 : |f1' - f1| ≤ η) :
    |blend r f0' f1' t t0 t1 - (f0 + (f1 - f0) * ((t - t0) / (t1 - t0)))| ≤ timeErr ε η D := by
  have hw : t1 - t0 ≠ 0 := by linarith
  have b0 : |f0'| ≤ D + η := by have := abs_add_le (f0' - f0) f0; rw [sub_add_cancel] at this; linarith
  have b1 : |f1'| ≤ D + η := by have := abs_add_le (f1' - f1) f1; rw [sub_add_cancel] at this; linarith
  have nt : Near ε 5 1 (r.st (r.tm (r.tm (t - t0) / r.tm (t1 - t0)))) ((t - t0) / (t1 - t0)) := by
    have hb : |t - t0| ≤ |t1 - t0| := by
      rw [abs_of_nonneg (by linarith : 0 ≤ t - t0), abs_of_nonneg (by linarith : 0 ≤ t1 - t0)]; linarith
    have := ((Near.div hr.tm hε hε' hw ((Near.refl hε 0 hb).round hr.tm hε)).round hr.tm hε).round hr.st hε
    rwa [div_self (abs_pos.mpr hw).ne'] at this
  have nd : Near ε 1 (2 * (D + η)) (r.df (f1' - f0')) (f1' - f0') :=
    (Near.refl hε 0 (by have := abs_sub f1' f0'; linarith)).round hr.df hε
  have n1 := ((Near.mul2 nd nt).round hr.bl hε)
  have n2 := (((Near.refl hε 7 b0).add n1).round hr.bl hε).mono hε (show 8 ≤ 9 by norm_num) le_rfl
  have h3 := n2.1
  have e : f0' + (f1' - f0') * ((t - t0) / (t1 - t0)) - (f0 + (f1 - f0) * ((t - t0) / (t1 - t0))) =
      (1 - (t - t0) / (t1 - t0)) * (f0' - f0) + (t - t0) / (t1 - t0) * (f1' - f1) := by ring
  have hq0 : 0 ≤ (t - t0) / (t1 - t0) := div_nonneg (by linarith) (by linarith)
  have hq1 : (t - t0) / (t1 - t0) ≤ 1 := div_le_one_of_le₀ (by linarith) (by linarith)
  have h4 : |f0' + (f1' - f0') * ((t - t0) / (t1 - t0)) - (f0 + (f1 - f0) * ((t - t0) / (t1 - t0)))| ≤ η := by
    rw [e]; exact mix_le e0 e1 hq0 hq1
  refine le_trans (abs_tri h3 h4) (le_of_eq ?_)
  unfold timeErr err; ring

end time

end Parcels.FloatSample
