import Verif.Spec.FloatTime
import Verif.Proofs.Schedule2
import Verif.Proofs.JitLoop
import Mathlib.Tactic.Linarith
import Mathlib.Tactic.Positivity

namespace Parcels.FloatTime
open Schedule (Mult Stream Ext St Args)

theorem u_pos (k : ℤ) : (0 : ℚ) < 2 ^ k := zpow_pos (by norm_num) k

theorem u_ge {k : ℤ} (h : -24 ≤ k) : (1 / 16777216 : ℚ) ≤ 2 ^ k := by
  have : (2 : ℚ) ^ (-24 : ℤ) ≤ 2 ^ k := zpow_le_zpow_right₀ (by norm_num) h
  refine le_trans (le_of_eq ?_) this
  norm_num

/-- Multiples of the unit below `2^53` units are exact. -/
theorem exact_of {fl : ℚ → ℚ} (hf : Double fl) {k : ℤ} {x : ℚ} (hm : Mult (2 ^ k) x) (hb : |x| ≤ 2 ^ 53 * 2 ^ k) : fl x = x := by
  obtain ⟨z, rfl⟩ := hm
  refine hf.exact k z ?_
  rw [abs_mul, abs_of_pos (u_pos k)] at hb
  have := le_of_mul_le_mul_right hb (u_pos k)
  exact_mod_cast this

theorem fl_le {fl : ℚ → ℚ} (hf : Double fl) {x : ℚ} (hx : 0 ≤ x) : fl x ≤ 2 * x ∧ x / 2 ≤ fl x := by
  have h := hf.rel x
  rw [abs_of_nonneg hx, abs_le] at h
  have : x / 2 ^ 53 ≤ x / 2 := div_le_div_of_nonneg_left hx (by norm_num) (by norm_num)
  constructor <;> linarith

theorem fl_zero {fl : ℚ → ℚ} (hf : Double fl) : fl 0 = 0 := by
  have := hf.exact 0 0 (by norm_num)
  simpa using this

theorem mult_abs {u x : ℚ} (h : Mult u x) : Mult u |x| := by
  obtain ⟨z, rfl⟩ := h
  rcases abs_choice ((z : ℚ) * u) with e | e <;> rw [e]
  · exact ⟨z, rfl⟩
  · exact ⟨-z, by push_cast; ring⟩

theorem mult_min {u x y : ℚ} (hx : Mult u x) (hy : Mult u y) : Mult u (min x y) := by
  rcases min_choice x y with e | e <;> rw [e] <;> assumption

/-- A multiple of the unit is 0 or at least a unit. -/
theorem mult_zero_or {u x : ℚ} (hu : 0 < u) (h : Mult u x) : x = 0 ∨ u ≤ |x| := by
  obtain ⟨z, rfl⟩ := h
  by_cases c : z = 0
  · left; rw [c]; simp
  · right
    rw [abs_mul, abs_of_pos hu]
    have h1 : (1 : ℚ) ≤ |(z : ℚ)| := by exact_mod_cast Int.one_le_abs c
    nlinarith

/-! ### The event loop -/

theorem near_eq {fl : ℚ → ℚ} (hf : Double fl) {k : ℤ} (hk : -24 ≤ k) {t : ℚ} (ht : Tick k t) {e : Ext} (he : ∀ q, e = .fin q → Tick k q) :
    near fl t e = Schedule.near t e := by
  cases e with
  | ninf => rfl
  | pinf => rfl
  | fin q =>
    have hq := he q rfl
    have hm : Mult (2 ^ k) (t - q) := Mult.sub ht.1 hq.1
    have hb : |t - q| ≤ 2 ^ 53 * 2 ^ k := by
      have := abs_sub t q
      have h1 := ht.2
      have h2 := hq.2
      linarith
    simp only [near, Schedule.near]
    rw [exact_of hf hm hb]
    have hu := u_ge hk
    have ht1 := (fl_le hf (x := Schedule.tol) (by unfold Schedule.tol; norm_num))
    have e0 : Schedule.tol = 1 / 1000000000000 := rfl
    rcases mult_zero_or (u_pos k) hm with c | c
    · rw [c]
      simp only [abs_zero]
      rw [decide_eq_decide]
      constructor
      · intro _; rw [e0]; norm_num
      · intro _; rw [e0] at ht1 ⊢; linarith [ht1.2]
    · rw [decide_eq_decide]
      have ht2 := ht1.1
      constructor <;> intro h <;> rw [e0] at h ht2 <;> exfalso <;> linarith

/-- The times in a state are ticks. -/
structure Ticks (a : Args) (k : ℤ) (s : St) : Prop where
  next : ∀ x q, s.next x = .fin q → Tick k q ∧ ∃ i, Schedule.interval a x = some i
  nextIn : ∀ q, s.nextIn = .fin q → Tick k q

theorem tick_E {a : Args} {k : ℤ} (h : OnTicks a k) : Tick k a.E :=
  ⟨h.on.E, by have := h.size; have := abs_nonneg a.S; have := abs_nonneg a.rs; linarith⟩

theorem stop_tick {a : Args} {k : ℤ} (h : OnTicks a k) {s : St} (hs : Ticks a k s) {t : ℚ} (ht : Schedule.nextStop a s = .fin t) : Tick k t := by
  rcases Schedule.nextStop_mem a s with ⟨x, e⟩ | e | e
  · exact (hs.next x t (e ▸ ht)).1
  · exact hs.nextIn t (e ▸ ht)
  · rw [e] at ht; cases ht; exact tick_E h

theorem stop_le {a : Args} (hdt : a.dt ≠ 0) {s : St} {t : ℚ} (ht : Schedule.nextStop a s = .fin t) : Schedule.NotBefore a.dt t a.E := by
  have := (Schedule.nextStop_nb hdt s t).mp (by rw [ht]; show Schedule.NotBefore _ _ _; unfold Schedule.NotBefore; simp)
  exact this.2.2

theorem bump_tick {a : Args} {k : ℤ} (h : OnTicks a k) (ho : Schedule.Ordinary a) {t i : ℚ} {x : Stream} (hi : Schedule.interval a x = some i)
    (ht : Tick k t) (hE : Schedule.NotBefore a.dt t a.E) : Tick k (t + i * sgn a.dt) := by
  refine ⟨Mult.add ht.1 (Mult.mul_sgn (Schedule.interval_mult h.on x i hi) _), ?_⟩
  have hip := Schedule.interval_pos ho x i hi
  have hs := h.intervals x i hi
  have h1 := abs_nonneg a.S
  have h2 := abs_nonneg a.rs
  have h3 := abs_le.mp ht.2
  have h4 := le_abs_self a.E
  have h5 := neg_abs_le a.E
  unfold Schedule.NotBefore at hE
  rcases Schedule.pos_or_neg ho.dt with ⟨-, e⟩ | ⟨-, e⟩ <;> rw [e] at hE ⊢ <;> rw [abs_le] <;> constructor <;> linarith

theorem fire_eq {fl : ℚ → ℚ} (hf : Double fl) {a : Args} {k : ℤ} (h : OnTicks a k) (ho : Schedule.Ordinary a) {s : St} (hs : Ticks a k s) {t : ℚ}
    (ht : Schedule.nextStop a s = .fin t) : fire fl a s t = Schedule.fire a s t ∧ Ticks a k (Schedule.fire a s t) := by
  have htk := stop_tick h hs ht
  have hE := stop_le ho.dt ht
  have hn : ∀ x, near fl t (s.next x) = Schedule.near t (s.next x) := fun x =>
    near_eq hf h.unit htk fun q hq => (hs.next x q hq).1
  have hb : ∀ x q, s.next x = .fin q → Schedule.near t (s.next x) = true → q = t := by
    intro x q hq hne
    rw [hq] at hne
    obtain ⟨q', e, e'⟩ := (Schedule.near_iff t _).mp hne
    cases e
    exact (Mult.eq_of_lt h.on.unit htk.1 (hs.next x q hq).1.1 e').symm
  have hbump : ∀ x, Schedule.near t (s.next x) = true →
      bump fl a.dt (Schedule.interval a x) (s.next x) = Schedule.bump a.dt (Schedule.interval a x) (s.next x) ∧
      ∀ q, Schedule.bump a.dt (Schedule.interval a x) (s.next x) = .fin q → Tick k q ∧ ∃ i, Schedule.interval a x = some i := by
    intro x hx
    cases hq : s.next x with
    | ninf => exact ⟨rfl, fun q e => by simp [Schedule.bump] at e⟩
    | pinf => exact ⟨rfl, fun q e => by simp [Schedule.bump] at e⟩
    | fin q =>
      obtain ⟨htq, i, hi⟩ := hs.next x q hq
      obtain rfl := hb x q hq hx
      have := bump_tick h ho hi htk hE
      simp only [bump, Schedule.bump, hi]
      refine ⟨?_, ?_⟩
      · rw [exact_of hf this.1 (by have := this.2; have := u_pos k; nlinarith)]
      · intro q' e
        cases e
        exact ⟨this, i, rfl⟩
  constructor
  · unfold fire Schedule.fire
    simp only [hn]
    congr 1
    funext x
    by_cases c : Schedule.near t (s.next x) = true
    · rw [if_pos c, if_pos c, (hbump x c).1]
    · rw [if_neg c, if_neg c]
  · constructor
    · intro x q hq
      simp only [Schedule.fire] at hq
      by_cases c : Schedule.near t (s.next x) = true
      · rw [if_pos c] at hq; exact (hbump x c).2 q hq
      · rw [if_neg c] at hq; exact hs.next x q hq
    · intro q hq
      simp only [Schedule.fire] at hq
      split at hq
      · exact ⟨h.on.input _ _ _ hq, h.input _ _ _ hq⟩
      · exact hs.nextIn q hq

theorem floorDiv_eq {fl : ℚ → ℚ} (hf : Double fl) {k : ℤ} {a b : ℚ} (ha : Mult (2 ^ k) a) (hb : Mult (2 ^ k) b) (ha0 : 0 ≤ a) (hb0 : 0 < b)
    (hA : a ≤ 2 ^ 52 * 2 ^ k) : floorDiv fl a b = ⌊a / b⌋ ∧ |(⌊a / b⌋ : ℚ)| ≤ 2 ^ 52 ∧ 0 ≤ (⌊a / b⌋ : ℚ) := by
  have hu := u_pos k
  have hbu : (2 : ℚ) ^ k ≤ b := by
    rcases mult_zero_or hu hb with c | c
    · linarith
    · rwa [abs_of_pos hb0] at c
  have h0 : (0 : ℚ) ≤ (⌊a / b⌋ : ℚ) := by exact_mod_cast Int.floor_nonneg.mpr (div_nonneg ha0 hb0.le)
  have hq : (⌊a / b⌋ : ℚ) * b ≤ a := by
    have := Int.floor_le (a / b)
    rwa [le_div_iff₀ hb0] at this
  have hQ : (⌊a / b⌋ : ℚ) ≤ 2 ^ 52 := by
    by_contra hc
    push Not at hc
    have : 2 ^ 52 * 2 ^ k < (⌊a / b⌋ : ℚ) * b := by
      have h1 : 2 ^ 52 * 2 ^ k < (⌊a / b⌋ : ℚ) * 2 ^ k := mul_lt_mul_of_pos_right hc hu
      have h2 : (⌊a / b⌋ : ℚ) * 2 ^ k ≤ (⌊a / b⌋ : ℚ) * b := mul_le_mul_of_nonneg_left hbu h0
      linarith
    linarith
  have e1 : fl (a - (a - b * ⌊a / b⌋)) = b * ⌊a / b⌋ := by
    rw [show a - (a - b * (⌊a / b⌋ : ℚ)) = ⌊a / b⌋ * b by ring]
    rw [exact_of hf (Mult.mul_int hb _) (by rw [abs_of_nonneg (mul_nonneg h0 hb0.le)]; nlinarith)]
    ring
  have e2 : fl ((⌊a / b⌋ : ℤ) : ℚ) = ⌊a / b⌋ := by
    have := hf.exact 0 ⌊a / b⌋ (by
      have : (⌊a / b⌋ : ℚ) ≤ ((2 ^ 52 : ℤ) : ℚ) := by push_cast; exact hQ
      have h' : ⌊a / b⌋ ≤ 2 ^ 52 := by exact_mod_cast this
      have h'' : 0 ≤ ⌊a / b⌋ := by exact_mod_cast h0
      rw [abs_of_nonneg h'']; omega)
    simpa using this
  refine ⟨?_, by rw [abs_of_nonneg h0]; exact hQ, h0⟩
  unfold floorDiv
  simp only []
  rw [e1, show b * (⌊a / b⌋ : ℚ) / b = ⌊a / b⌋ by field_simp, e2]
  rw [Int.floor_intCast]
  norm_num

theorem init_eq {fl : ℚ → ℚ} (hf : Double fl) {a : Args} {k : ℤ} (h : OnTicks a k) (ho : Schedule.Ordinary a) :
    init fl a = Schedule.init a ∧ Ticks a k (Schedule.init a) := by
  have hu := u_pos k
  have hS := abs_nonneg a.S
  have hE := abs_nonneg a.E
  have hrs := abs_nonneg a.rs
  have first : ∀ x, x ≠ Stream.release → initNext fl a x = Schedule.initNext a x ∧
      ∀ q, Schedule.initNext a x = .fin q → Tick k q ∧ ∃ i, Schedule.interval a x = some i := by
    intro x hx
    have e1 : initNext fl a x = firstEvent fl a.dt a.S (Schedule.interval a x) := by cases x <;> first | rfl | exact absurd rfl hx
    have e2 : Schedule.initNext a x = Schedule.firstEvent a.dt a.S (Schedule.interval a x) := by
      cases x <;> first | rfl | exact absurd rfl hx
    cases hi : Schedule.interval a x with
    | none =>
      rw [e1, e2, hi]
      refine ⟨rfl, fun q hq => ?_⟩
      simp only [Schedule.firstEvent] at hq
      split at hq <;> cases hq
    | some i =>
      have hm := Schedule.interval_mult h.on x i hi
      have hip := Schedule.interval_pos ho x i hi
      have hs := h.intervals x i hi
      have t1 : Tick k (a.S + i) := ⟨Mult.add h.on.S hm, by have := abs_add_le a.S i; rw [abs_of_pos hip] at this; linarith⟩
      have t2 : Tick k (a.S - i) := ⟨Mult.sub h.on.S hm, by have := abs_sub a.S i; rw [abs_of_pos hip] at this; linarith⟩
      rw [e1, e2, hi]
      simp only [firstEvent, Schedule.firstEvent]
      rw [exact_of hf t1.1 (by have := t1.2; nlinarith), exact_of hf t2.1 (by have := t2.2; nlinarith)]
      refine ⟨rfl, fun q hq => ⟨?_, i, rfl⟩⟩
      cases hq
      split <;> assumption
  have rel : initNext fl a .release = Schedule.initNext a .release ∧
      ∀ q, Schedule.initNext a .release = .fin q → Tick k q ∧ ∃ i, Schedule.interval a .release = some i := by
    simp only [initNext, Schedule.initNext]
    cases hi : Schedule.interval a .release with
    | none =>
      refine ⟨rfl, fun q hq => ?_⟩
      simp only [] at hq
      split at hq <;> cases hq
    | some r =>
      have hm := Schedule.interval_mult h.on _ r hi
      have hip := Schedule.interval_pos ho _ r hi
      have hs := h.intervals _ r hi
      have d1 : Mult (2 ^ k) (a.S - a.rs) := Mult.sub h.on.S h.on.rs
      have d2 : |a.S - a.rs| ≤ |a.S| + |a.rs| := abs_sub a.S a.rs
      obtain ⟨f1, f2, f3⟩ := floorDiv_eq hf (mult_abs d1) hm (abs_nonneg _) hip (by linarith)
      have hq : (⌊|a.S - a.rs| / r⌋ : ℚ) * r ≤ |a.S - a.rs| := by
        have := Int.floor_le (|a.S - a.rs| / r)
        rwa [le_div_iff₀ hip] at this
      simp only []
      rw [exact_of hf d1 (by nlinarith), f1]
      have e1 : fl ((⌊|a.S - a.rs| / r⌋ : ℚ) + 1) = ⌊|a.S - a.rs| / r⌋ + 1 := by
        have h1 : |⌊|a.S - a.rs| / r⌋ + 1| ≤ 2 ^ 53 := by
          have : |((⌊|a.S - a.rs| / r⌋ + 1 : ℤ) : ℚ)| ≤ ((2 ^ 53 : ℤ) : ℚ) := by
            push_cast
            have := abs_le.mp f2
            rw [abs_le]; constructor <;> linarith
          exact_mod_cast this
        have := hf.exact 0 _ h1
        push_cast at this
        simpa using this
      rw [e1]
      have m1 : Mult (2 ^ k) ((⌊|a.S - a.rs| / r⌋ + 1) * r) := by
        have := Mult.mul_int hm (⌊|a.S - a.rs| / r⌋ + 1)
        push_cast at this; exact this
      have b1 : ((⌊|a.S - a.rs| / r⌋ : ℚ) + 1) * r ≤ |a.S| + |a.rs| + r := by nlinarith
      have b0 : 0 ≤ ((⌊|a.S - a.rs| / r⌋ : ℚ) + 1) * r := by positivity
      rw [exact_of hf m1 (by rw [abs_of_nonneg b0]; nlinarith)]
      have t1 : Tick k (a.rs + ((⌊|a.S - a.rs| / r⌋ : ℚ) + 1) * r * sgn a.dt) := by
        refine ⟨Mult.add h.on.rs (Mult.mul_sgn m1 _), ?_⟩
        have hs2 : |((⌊|a.S - a.rs| / r⌋ : ℚ) + 1) * r * sgn a.dt| ≤ ((⌊|a.S - a.rs| / r⌋ : ℚ) + 1) * r := by
          rcases Schedule.pos_or_neg ho.dt with ⟨-, e⟩ | ⟨-, e⟩ <;> rw [e]
          · rw [mul_one, abs_of_nonneg b0]
          · rw [mul_neg, mul_one, abs_neg, abs_of_nonneg b0]
        have := abs_add_le a.rs (((⌊|a.S - a.rs| / r⌋ : ℚ) + 1) * r * sgn a.dt)
        linarith
      rw [exact_of hf t1.1 (by have := t1.2; nlinarith)]
      refine ⟨rfl, fun q hq => ⟨?_, r, rfl⟩⟩
      cases hq
      exact t1
  have all : ∀ x, initNext fl a x = Schedule.initNext a x ∧
      ∀ q, Schedule.initNext a x = .fin q → Tick k q ∧ ∃ i, Schedule.interval a x = some i := by
    intro x
    by_cases c : x = .release
    · rw [c]; exact rel
    · exact first x c
  refine ⟨?_, fun x q hq => (all x).2 q hq, ?_⟩
  · unfold init
    rw [show initNext fl a = Schedule.initNext a from funext fun x => (all x).1]
    rfl
  · intro q hq
    simp only [Schedule.init, ho.fieldset, if_true] at hq
    exact ⟨h.on.input _ _ _ hq, h.input _ _ _ hq⟩

theorem eventLoop_eq {fl : ℚ → ℚ} (hf : Double fl) {a : Args} {k : ℤ} (h : OnTicks a k) (ho : Schedule.Ordinary a) :
    ∀ n s, Ticks a k s → eventLoop fl a n s = Schedule.loop a n s := by
  intro n
  induction n with
  | zero => intro s _; rfl
  | succ n ih =>
    intro s hs
    unfold eventLoop Schedule.loop
    by_cases c : Schedule.continues a s
    · rw [if_pos c, if_pos c]
      cases ht : Schedule.nextStop a s with
      | ninf => rfl
      | pinf => rfl
      | fin t =>
        obtain ⟨e1, e2⟩ := fire_eq hf h ho hs ht
        simp only []
        rw [e1, ih _ e2]
    · rw [if_neg c, if_neg c]

/-! ### The particle loops -/

section particles
open KernelLoop
variable {W V : Type}

theorem isclose_zero {fl : ℚ → ℚ} (hf : Double fl) {k : ℤ} (hk : -24 ≤ k) {x : ℚ} (hm : Mult (2 ^ k) x) (hb : |x| ≤ 2 ^ 53 * 2 ^ k) :
    isclose fl x 0 = decide (x = 0) ∧ Parcels.isclose x 0 = decide (x = 0) := by
  have hu := u_ge hk
  have h1 := fl_le hf (x := 1 / 100000000) (by norm_num)
  have h2 := fl_le hf (x := fl (1 / 100000000)) (by linarith)
  unfold isclose Parcels.isclose
  simp only [sub_zero, abs_zero, mul_zero, fl_zero hf, add_zero]
  rw [exact_of hf hm hb]
  rcases mult_zero_or (u_pos k) hm with c | c
  · subst c
    constructor <;> rw [decide_eq_decide] <;> refine ⟨fun _ => rfl, fun _ => ?_⟩ <;> rw [abs_zero]
    · linarith
    · norm_num
  · have hx : x ≠ 0 := by
      rintro rfl
      rw [abs_zero] at c
      have := u_pos k
      linarith
    constructor <;> rw [decide_eq_decide] <;> refine ⟨fun h => ?_, fun h => absurd h hx⟩ <;> exfalso <;> linarith

theorem isclose_self' {fl : ℚ → ℚ} (hf : Double fl) (x : ℚ) : isclose fl x x = true ∧ Parcels.isclose x x = true := by
  unfold isclose Parcels.isclose
  simp only [sub_self, fl_zero hf, abs_zero, decide_eq_true_eq]
  constructor
  · have h1 := fl_le hf (x := 1 / 100000000) (by norm_num)
    have h2 := fl_le hf (x := 1 / 100000) (by norm_num)
    have h3 := fl_le hf (x := fl (1 / 100000) * |x|) (mul_nonneg (by linarith) (abs_nonneg x))
    have h4 : 0 ≤ fl (1 / 100000) * |x| := mul_nonneg (by linarith) (abs_nonneg x)
    have h5 := fl_le hf (x := fl (1 / 100000000) + fl (fl (1 / 100000) * |x|)) (by linarith)
    linarith
  · positivity

/-- What is needed of a time `t`, a remaining distance `d` and a sign. -/
theorem between {E t d σ H : ℚ} (hs : σ = 1 ∧ t ≤ E ∨ σ = -1 ∧ E ≤ t ∨ σ = 0 ∨ d = 0) (hd : 0 ≤ d) (hd' : d ≤ |E - t|) (ht : |t| ≤ H)
    (hE : |E| ≤ H) : |t + σ * d| ≤ H := by
  rw [abs_le] at *
  rcases hs with ⟨rfl, h⟩ | ⟨rfl, h⟩ | rfl | rfl
  · rw [abs_of_nonneg (by linarith)] at hd'; constructor <;> linarith
  · rw [abs_of_nonpos (by linarith)] at hd'; constructor <;> linarith
  · rw [zero_mul, add_zero]; exact ht
  · rw [mul_zero, add_zero]; exact ht

theorem sgn_eq_cases {E t dt : ℚ} (h : sgn (E - t) = sgn dt) : sgn dt = 1 ∧ t ≤ E ∨ sgn dt = -1 ∧ E ≤ t ∨ sgn dt = 0 := by
  rw [← h]
  unfold sgn
  by_cases h1 : 0 < E - t
  · left; rw [if_pos h1]; exact ⟨rfl, by linarith⟩
  · by_cases h2 : E - t < 0
    · right; left; rw [if_neg h1, if_pos h2]; exact ⟨rfl, by linarith⟩
    · right; right; rw [if_neg h1, if_neg h2]

/-- A particle on ticks that has to go `d` in the direction `σ`. -/
structure Ready (k : ℤ) (E σ : ℚ) (p : Particle V) (d : ℚ) : Prop where
  time : Tick k p.time
  dt : Mult (2 ^ k) p.dt
  dm : Mult (2 ^ k) d
  d0 : 0 ≤ d
  next : |p.time + σ * d| ≤ 2 ^ 52 * 2 ^ k

theorem diff_exact {fl : ℚ → ℚ} (hf : Double fl) {k : ℤ} {x y : ℚ} (hx : Tick k x) (hy : Tick k y) :
    fl (x - y) = x - y ∧ Mult (2 ^ k) (x - y) ∧ |x - y| ≤ 2 ^ 53 * 2 ^ k := by
  have hm : Mult (2 ^ k) (x - y) := Mult.sub hx.1 hy.1
  have hb : |x - y| ≤ 2 ^ 53 * 2 ^ k := by
    have := abs_sub x y
    have h1 := hx.2
    have h2 := hy.2
    linarith
  exact ⟨exact_of hf hm hb, hm, hb⟩

theorem resolve_eq {fl : ℚ → ℚ} (hf : Double fl) (pre : Particle V) (out : KOut V) (h : out.p.dt = pre.dt) :
    resolve fl pre out = KernelLoop.resolve pre out := by
  unfold resolve KernelLoop.resolve
  rw [h, (isclose_self' hf pre.dt).1, (isclose_self' hf pre.dt).2]
  cases out.res <;> rfl

/-- One turn of the loop is the same, and stays on ticks. -/
theorem step_eq {fl : ℚ → ℚ} (hf : Double fl) {k : ℤ} (hk : -24 ≤ k) (K : Kern W V) (hK : LeavesDtAlone K) {E dt : ℚ} (hE : Tick k E)
    (hdt : Tick k dt) {s : LS W V} (hs : Ready k E (sgn dt) s.p s.dtPos) (hn : s.nextDt = none) :
    step fl K E dt s = KernelLoop.step K E dt s ∧ (KernelLoop.step K E dt s).1.nextDt = none ∧
      Ready k E (sgn dt) (KernelLoop.step K E dt s).1.p (KernelLoop.step K E dt s).1.dtPos := by
  obtain ⟨k1, k2, k3⟩ := hK s.w { s.p with dt := sgn dt * s.dtPos }
  have m1 : Mult (2 ^ k) (sgn dt * s.dtPos) := by rw [mul_comm]; exact Mult.mul_sgn hs.dm _
  have t1 : Tick k (s.p.time + sgn dt * s.dtPos) := ⟨Mult.add hs.time.1 m1, hs.next⟩
  have hb53 : ∀ {x : ℚ}, |x| ≤ 2 ^ 52 * 2 ^ k → |x| ≤ 2 ^ 53 * 2 ^ k := by
    intro x hx; have := u_pos k; linarith
  have e1 : fl (s.p.time + sgn dt * s.dtPos) = s.p.time + sgn dt * s.dtPos := exact_of hf t1.1 (hb53 t1.2)
  obtain ⟨e2, m2, b2⟩ := diff_exact hf hE t1
  obtain ⟨e3, m3, b3⟩ := diff_exact hf hE hs.time
  have cl : ∀ {x : ℚ}, Mult (2 ^ k) x → |x| ≤ 2 ^ 53 * 2 ^ k → isclose fl x 0 = Parcels.isclose x 0 := by
    intro x a b; rw [(isclose_zero hf hk a b).1, (isclose_zero hf hk a b).2]
  have mm : ∀ {x y : ℚ}, Mult (2 ^ k) x → Mult (2 ^ k) y → |y| ≤ 2 ^ 53 * 2 ^ k → isclose fl (min |x| |y|) 0 = Parcels.isclose (min |x| |y|) 0 := by
    intro x y a b c
    refine cl (mult_min (mult_abs a) (mult_abs b)) ?_
    rw [abs_of_nonneg (le_min (abs_nonneg _) (abs_nonneg _))]
    exact le_trans (min_le_right _ _) c
  have res := resolve_eq hf { s.p with dt := sgn dt * s.dtPos } (K s.w { s.p with dt := sgn dt * s.dtPos }).2 k2
  have hdt0 := cl hdt.1 (hb53 hdt.2)
  have e0 : ((K s.w { s.p with dt := sgn dt * s.dtPos }).2.nextDt.orElse fun _ => s.nextDt) = none := by rw [k3, hn]; rfl
  simp only [step, KernelLoop.step]
  rw [res]
  simp only [e0, k1, k2, Option.getD_none]
  rw [e1, e2, e3, hdt0, mm m1 m2 b2]
  refine ⟨rfl, ?_, ?_⟩
  · split
    · rfl
    · exact hn
  · have rdy : ∀ (t d σ : ℚ) (q : Particle V), q.time = t → Tick k t → Mult (2 ^ k) q.dt → d = min |q.dt| |E - t| →
        Mult (2 ^ k) (E - t) → Ready k E (sgn dt) q (if sgn (E - t) ≠ sgn dt then 0 else d) := by
      intro t d σ q hq ht hd he hm
      subst he
      split
      · exact ⟨by rw [hq]; exact ht, hd, ⟨0, by simp⟩, le_refl _, by rw [mul_zero, add_zero, hq]; exact ht.2⟩
      · rename_i c
        push Not at c
        refine ⟨by rw [hq]; exact ht, hd, mult_min (mult_abs hd) (mult_abs hm), le_min (abs_nonneg _) (abs_nonneg _), ?_⟩
        rw [hq]
        refine between ?_ (le_min (abs_nonneg _) (abs_nonneg _)) (min_le_right _ _) ht.2 hE.2
        rcases sgn_eq_cases c with h | h | h
        · exact Or.inl h
        · exact Or.inr (Or.inl h)
        · exact Or.inr (Or.inr (Or.inl h))
    split
    · exact rdy _ _ 0 _ rfl t1 m1 rfl m2
    · exact rdy _ _ 0 _ rfl hs.time m1 rfl m3

theorem loop_eq {fl : ℚ → ℚ} (hf : Double fl) {k : ℤ} (hk : -24 ≤ k) (K : Kern W V) (hK : LeavesDtAlone K) {E dt : ℚ} (hE : Tick k E)
    (hdt : Tick k dt) : ∀ n (s : LS W V), Ready k E (sgn dt) s.p s.dtPos → s.nextDt = none → loop fl K E dt n s = KernelLoop.loop K E dt n s ∧
      ∀ s', KernelLoop.loop K E dt n s = some s' → Tick k s'.p.time := by
  intro n
  induction n with
  | zero => intro s _ _; exact ⟨rfl, fun s' h => by cases h⟩
  | succ n ih =>
    intro s hs hn
    obtain ⟨e1, e2, e3⟩ := step_eq hf hk K hK hE hdt hs hn
    have hdt0 : isclose fl dt 0 = Parcels.isclose dt 0 := by
      have hb : |dt| ≤ 2 ^ 53 * 2 ^ k := by have := hdt.2; have := u_pos k; linarith
      rw [(isclose_zero hf hk hdt.1 hb).1, (isclose_zero hf hk hdt.1 hb).2]
    unfold loop KernelLoop.loop
    rw [e1]
    have ec : cond fl dt s ↔ KernelLoop.cond dt s := by unfold cond KernelLoop.cond; rw [hdt0]
    by_cases c : KernelLoop.cond dt s
    · rw [if_pos (ec.mpr c), if_pos c]
      rcases h : KernelLoop.step K E dt s with ⟨s1, b⟩
      rw [h] at e2 e3
      cases b
      · exact ih s1 e3 e2
      · exact ⟨rfl, fun s' h => by cases h; exact e3.time⟩
    · rw [if_neg (fun h => c (ec.mp h)), if_neg c]
      exact ⟨rfl, fun s' h => by cases h; exact hs.time⟩

theorem exec1_eq {fl : ℚ → ℚ} (hf : Double fl) {k : ℤ} (hk : -24 ≤ k) (K : Kern W V) (hK : LeavesDtAlone K) {E dt : ℚ} (hE : Tick k E)
    (hdt : Tick k dt) (n : Nat) (w : W) (back : Option (Particle V)) (p : Particle V) (ht : Tick k p.time) (hp : Tick k p.dt) :
    exec1 fl K E dt n w back p = KernelLoop.exec1 K E dt n w back p ∧
      ∀ s', KernelLoop.exec1 K E dt n w back p = some s' → Tick k s'.p.time := by
  obtain ⟨e, m, b⟩ := diff_exact hf hE ht
  have hdt0 := isclose_zero hf hk hdt.1 (by have := hdt.2; have := u_pos k; linarith : |dt| ≤ 2 ^ 53 * 2 ^ k)
  have hmm := isclose_zero hf hk (mult_min (mult_abs hp.1) (mult_abs m)) (by
    rw [abs_of_nonneg (le_min (abs_nonneg _) (abs_nonneg _))]
    exact le_trans (min_le_right _ _) b)
  have es : skips fl E dt p ↔ KernelLoop.skips E dt p := by
    unfold skips KernelLoop.skips
    rw [e, hdt0.1, hdt0.2, hmm.1, hmm.2]
  unfold exec1 KernelLoop.exec1
  simp only [e]
  by_cases c : KernelLoop.skips E dt p
  · rw [if_pos (es.mpr c), if_pos c]
    refine ⟨rfl, fun s' h => ?_⟩
    cases h
    dsimp only
    split <;> exact ht
  · rw [if_neg (fun h => c (es.mp h)), if_neg c]
    refine loop_eq hf hk K hK hE hdt n _ ⟨ht, hp.1, mult_min (mult_abs hp.1) (mult_abs m), le_min (abs_nonneg _) (abs_nonneg _), ?_⟩ rfl
    refine between ?_ (le_min (abs_nonneg _) (abs_nonneg _)) (min_le_right _ _) ht.2 hE.2
    unfold KernelLoop.skips at c
    by_cases c1 : sgn (E - p.time) = sgn dt
    · rcases sgn_eq_cases c1 with h | h | h
      · exact Or.inl h
      · exact Or.inr (Or.inl h)
      · exact Or.inr (Or.inr (Or.inl h))
    · right; right; left
      have : ¬ Parcels.isclose dt 0 = false := fun h => c ⟨Or.inl c1, h⟩
      rw [hdt0.2] at this
      simp only [decide_eq_false_iff_not, not_not] at this
      rw [this]; unfold sgn; norm_num

theorem pass_eq {fl : ℚ → ℚ} (hf : Double fl) {k : ℤ} (hk : -24 ≤ k) (K : Kern W V) (hK : LeavesDtAlone K) {E dt : ℚ} (hE : Tick k E)
    (hdt : Tick k dt) (n : Nat) : ∀ (ps : List (Particle V)) (w : W) (back : Option (Particle V)),
      (∀ p ∈ ps, Tick k p.time ∧ Tick k p.dt) → pass fl K E dt n w back ps = KernelLoop.pass K E dt n w back ps := by
  intro ps
  induction ps with
  | nil => intro w back _; rfl
  | cons p ps ih =>
    intro w back h
    unfold pass KernelLoop.pass
    rw [(exec1_eq hf hk K hK hE hdt n w back p (h p (by simp)).1 (h p (by simp)).2).1]
    cases KernelLoop.exec1 K E dt n w back p with
    | none => rfl
    | some s =>
      dsimp only
      rw [ih s.w s.back fun q hq => h q (by simp [hq])]
      cases KernelLoop.pass K E dt n s.w s.back ps <;> rfl

theorem csgn_eq_cases {E t dt : ℚ} (h : JitLoop.csgn (E - t) = JitLoop.csgn dt) :
    JitLoop.csgn dt = 1 ∧ t ≤ E ∨ JitLoop.csgn dt = -1 ∧ E ≤ t := by
  rw [← h]
  unfold JitLoop.csgn
  by_cases h1 : 0 < E - t
  · left; rw [if_pos h1]; exact ⟨rfl, by linarith⟩
  · right; rw [if_neg h1]; exact ⟨rfl, by linarith⟩

theorem isZero_eq {fl : ℚ → ℚ} (hf : Double fl) (x : ℚ) : Jit.isZero fl x = decide (x = 0) ∧ JitLoop.isZero x = decide (x = 0) := by
  unfold Jit.isZero JitLoop.isZero JitLoop.eps
  have h1 := fl_le hf (x := 1 / 2 ^ 52 * |x|) (by positivity)
  have h0 := abs_nonneg x
  constructor <;> rw [decide_eq_decide]
  · constructor
    · intro h
      have : |x| = 0 := by linarith [h1.1]
      exact abs_eq_zero.mp this
    · rintro rfl; simp [fl_zero hf]
  · constructor
    · intro h
      have : |x| = 0 := by linarith
      exact abs_eq_zero.mp this
    · rintro rfl; simp

theorem isEqual_self {fl : ℚ → ℚ} (hf : Double fl) (x : ℚ) : Jit.isEqual fl x x = true ∧ JitLoop.isEqual x x = true := by
  unfold Jit.isEqual JitLoop.isEqual JitLoop.eps
  have h1 := fl_le hf (x := 1 / 2 ^ 52 * |x|) (by positivity)
  have h0 : 0 ≤ 1 / 2 ^ 52 * |x| := by positivity
  simp only [sub_self, fl_zero hf, abs_zero, decide_eq_true_eq]
  exact ⟨by linarith, h0⟩

theorem jit_resolve_eq {fl : ℚ → ℚ} (hf : Double fl) (pre : Particle V) (out : KOut V) (h : out.p.dt = pre.dt) :
    Jit.resolve fl pre out = JitLoop.resolve pre out := by
  unfold Jit.resolve JitLoop.resolve
  rw [h, (isEqual_self hf pre.dt).1, (isEqual_self hf pre.dt).2]

theorem isCloseC_eq (x y : ℚ) : JitLoop.isCloseC x y = Parcels.isclose x y := rfl

theorem jit_step_eq {fl : ℚ → ℚ} (hf : Double fl) {k : ℤ} (hk : -24 ≤ k) (K : Kern W V) (hK : LeavesDtAlone K) {E dt : ℚ} (hE : Tick k E)
    {s : JitLoop.JS W V} (hs : Ready k E (JitLoop.csgn dt) s.p s.dtPos) (hn : s.nextDt = none) :
    Jit.step fl K E dt s = JitLoop.step K E dt s ∧ (JitLoop.step K E dt s).1.nextDt = none ∧
      Ready k E (JitLoop.csgn dt) (JitLoop.step K E dt s).1.p (JitLoop.step K E dt s).1.dtPos := by
  obtain ⟨k1, k2, k3⟩ := hK s.w { s.p with dt := s.dtPos * JitLoop.csgn dt }
  have m1 : Mult (2 ^ k) (s.dtPos * JitLoop.csgn dt) := by
    obtain ⟨z, hz⟩ := hs.dm
    rw [hz]
    unfold JitLoop.csgn
    split
    · exact ⟨z, by ring⟩
    · exact ⟨-z, by push_cast; ring⟩
  have t1 : Tick k (s.p.time + s.dtPos * JitLoop.csgn dt) := ⟨Mult.add hs.time.1 m1, by rw [mul_comm]; exact hs.next⟩
  have hb53 : ∀ {x : ℚ}, |x| ≤ 2 ^ 52 * 2 ^ k → |x| ≤ 2 ^ 53 * 2 ^ k := by
    intro x hx; have := u_pos k; linarith
  have e1 : fl (s.p.time + s.dtPos * JitLoop.csgn dt) = s.p.time + s.dtPos * JitLoop.csgn dt := exact_of hf t1.1 (hb53 t1.2)
  obtain ⟨e2, m2, b2⟩ := diff_exact hf hE t1
  obtain ⟨e3, m3, b3⟩ := diff_exact hf hE hs.time
  have mm : ∀ {x y : ℚ}, Mult (2 ^ k) x → Mult (2 ^ k) y → |y| ≤ 2 ^ 53 * 2 ^ k → isclose fl (min |x| |y|) 0 = JitLoop.isCloseC (min |x| |y|) 0 := by
    intro x y a b c
    have h := isclose_zero hf hk (mult_min (mult_abs a) (mult_abs b)) (by
      rw [abs_of_nonneg (le_min (abs_nonneg _) (abs_nonneg _))]
      exact le_trans (min_le_right _ _) c)
    rw [isCloseC_eq, h.1, h.2]
  have res := jit_resolve_eq hf { s.p with dt := s.dtPos * JitLoop.csgn dt } (K s.w { s.p with dt := s.dtPos * JitLoop.csgn dt }).2 k2
  have e0 : ((K s.w { s.p with dt := s.dtPos * JitLoop.csgn dt }).2.nextDt.orElse fun _ => s.nextDt) = none := by rw [k3, hn]; rfl
  simp only [Jit.step, JitLoop.step]
  rw [res]
  simp only [e0, k1, k2, Option.getD_none]
  rw [e1, e2, e3, mm m1 m2 b2, (isZero_eq hf _).1, (isZero_eq hf _).2]
  refine ⟨rfl, ?_, ?_⟩
  · split <;> rfl
  · have rdy : ∀ (t d : ℚ) (q : Particle V), q.time = t → Tick k t → Mult (2 ^ k) q.dt → d = min |q.dt| |E - t| →
        Mult (2 ^ k) (E - t) → Ready k E (JitLoop.csgn dt) q (if JitLoop.csgn dt ≠ JitLoop.csgn (E - t) then 0 else d) := by
      intro t d q hq ht hd he hm
      subst he
      split
      · exact ⟨by rw [hq]; exact ht, hd, ⟨0, by simp⟩, le_refl _, by rw [mul_zero, add_zero, hq]; exact ht.2⟩
      · rename_i c
        push Not at c
        refine ⟨by rw [hq]; exact ht, hd, mult_min (mult_abs hd) (mult_abs hm), le_min (abs_nonneg _) (abs_nonneg _), ?_⟩
        rw [hq]
        refine between ?_ (le_min (abs_nonneg _) (abs_nonneg _)) (min_le_right _ _) ht.2 hE.2
        rcases csgn_eq_cases c.symm with h | h
        · exact Or.inl h
        · exact Or.inr (Or.inl h)
    split
    · exact rdy _ _ _ rfl t1 m1 rfl m2
    · exact rdy _ _ _ rfl hs.time m1 rfl m3

theorem jit_loop_eq {fl : ℚ → ℚ} (hf : Double fl) {k : ℤ} (hk : -24 ≤ k) (K : Kern W V) (hK : LeavesDtAlone K) {E dt : ℚ} (hE : Tick k E) :
    ∀ n (s : JitLoop.JS W V), Ready k E (JitLoop.csgn dt) s.p s.dtPos → s.nextDt = none →
      Jit.loop fl K E dt n s = JitLoop.loop K E dt n s ∧
      ∀ s', JitLoop.loop K E dt n s = some s' → Tick k s'.p.time ∧ s'.nextDt = none := by
  intro n
  induction n with
  | zero => intro s _ _; exact ⟨rfl, fun s' h => by cases h⟩
  | succ n ih =>
    intro s hs hn
    obtain ⟨e1, e2, e3⟩ := jit_step_eq (dt := dt) hf hk K hK hE hs hn
    unfold Jit.loop JitLoop.loop
    rw [e1]
    have ec : Jit.cond fl s ↔ JitLoop.cond s := by
      unfold Jit.cond JitLoop.cond; rw [(isZero_eq hf _).1, (isZero_eq hf _).2]
    by_cases c : JitLoop.cond s
    · rw [if_pos (ec.mpr c), if_pos c]
      rcases h : JitLoop.step K E dt s with ⟨s1, b⟩
      rw [h] at e2 e3
      cases b
      · exact ih s1 e3 e2
      · exact ⟨rfl, fun s' h => by cases h; exact ⟨e3.time, e2⟩⟩
    · rw [if_neg (fun h => c (ec.mp h)), if_neg c]
      exact ⟨rfl, fun s' h => by cases h; exact ⟨hs.time, hn⟩⟩

theorem jit_exec1_eq {fl : ℚ → ℚ} (hf : Double fl) {k : ℤ} (hk : -24 ≤ k) (K : Kern W V) (hK : LeavesDtAlone K) {E dt : ℚ} (hE : Tick k E)
    (n : Nat) (w : W) (p : Particle V) (ht : Tick k p.time) (hp : Tick k p.dt) :
    Jit.exec1 fl K E dt n w none p = JitLoop.exec1 K E dt n w none p ∧
      ∀ s', JitLoop.exec1 K E dt n w none p = some s' → Tick k s'.p.time ∧ s'.nextDt = none := by
  obtain ⟨e, m, b⟩ := diff_exact hf hE ht
  have hmm := isclose_zero hf hk (mult_min (mult_abs hp.1) (mult_abs m)) (by
    rw [abs_of_nonneg (le_min (abs_nonneg _) (abs_nonneg _))]
    exact le_trans (min_le_right _ _) b)
  have es : Jit.skips fl E dt p ↔ JitLoop.skips E dt p := by
    unfold Jit.skips JitLoop.skips
    rw [e, (isZero_eq hf _).1, (isZero_eq hf _).2, isCloseC_eq, hmm.1, hmm.2]
  unfold Jit.exec1 JitLoop.exec1
  simp only [e]
  by_cases c : JitLoop.skips E dt p
  · rw [if_pos (es.mpr c), if_pos c]
    refine ⟨rfl, fun s' h => ?_⟩
    cases h
    dsimp only
    split <;> exact ⟨ht, rfl⟩
  · rw [if_neg (fun h => c (es.mp h)), if_neg c]
    refine jit_loop_eq hf hk K hK hE n _ ⟨ht, hp.1, mult_min (mult_abs hp.1) (mult_abs m), le_min (abs_nonneg _) (abs_nonneg _), ?_⟩ rfl
    refine between ?_ (le_min (abs_nonneg _) (abs_nonneg _)) (min_le_right _ _) ht.2 hE.2
    unfold JitLoop.skips at c
    by_cases c1 : JitLoop.csgn (E - p.time) = JitLoop.csgn dt
    · rcases csgn_eq_cases c1 with h | h
      · exact Or.inl h
      · exact Or.inr (Or.inl h)
    · right; right; right
      have : ¬ JitLoop.isZero p.dt = false := fun h => c ⟨Or.inl c1, h⟩
      rw [(isZero_eq hf _).2] at this
      simp only [decide_eq_false_iff_not, not_not] at this
      rw [this, abs_zero]
      exact min_eq_left (abs_nonneg _)

theorem jit_pass_eq {fl : ℚ → ℚ} (hf : Double fl) {k : ℤ} (hk : -24 ≤ k) (K : Kern W V) (hK : LeavesDtAlone K) {E dt : ℚ} (hE : Tick k E)
    (n : Nat) : ∀ (ps : List (Particle V)) (w : W), (∀ p ∈ ps, Tick k p.time ∧ Tick k p.dt) →
      Jit.pass fl K E dt n w none ps = JitLoop.pass K E dt n w none ps := by
  intro ps
  induction ps with
  | nil => intro w _; rfl
  | cons p ps ih =>
    intro w h
    obtain ⟨h1, h2⟩ := jit_exec1_eq (dt := dt) hf hk K hK hE n w p (h p (by simp)).1 (h p (by simp)).2
    unfold Jit.pass JitLoop.pass
    rw [h1]
    cases hs : JitLoop.exec1 K E dt n w none p with
    | none => rfl
    | some s =>
      dsimp only
      rw [(h2 s hs).2, ih s.w fun q hq => h q (by simp [hq])]
      cases JitLoop.pass K E dt n s.w none ps <;> rfl

end particles

/-! ### Double precision -/

theorem ilog2_spec {q : ℚ} (hq : q ≠ 0) : (2 : ℚ) ^ ilog2 q ≤ |q| ∧ |q| < 2 ^ (ilog2 q + 1) := by
  have hn : q.num.natAbs ≠ 0 := by simpa using hq
  have hd : q.den ≠ 0 := q.den_nz
  have n1 := Nat.log2_self_le hn
  have n2 := Nat.lt_log2_self (n := q.num.natAbs)
  have d1 := Nat.log2_self_le hd
  have d2 := Nat.lt_log2_self (n := q.den)
  have eq : |q| = (q.num.natAbs : ℚ) / q.den := by
    conv_lhs => rw [← Rat.num_div_den q]
    rw [abs_div, Nat.abs_cast]
    congr 1
    rw [Nat.cast_natAbs]; simp
  set A := Nat.log2 q.num.natAbs
  set B := Nat.log2 q.den
  have hA1 : (2 : ℚ) ^ (A : ℤ) ≤ q.num.natAbs := by rw [zpow_natCast]; exact_mod_cast n1
  have hA2 : (q.num.natAbs : ℚ) < 2 ^ ((A : ℤ) + 1) := by
    rw [show ((A : ℤ) + 1) = ((A + 1 : ℕ) : ℤ) by push_cast; ring, zpow_natCast]; exact_mod_cast n2
  have hB1 : (2 : ℚ) ^ (B : ℤ) ≤ q.den := by rw [zpow_natCast]; exact_mod_cast d1
  have hB2 : (q.den : ℚ) < 2 ^ ((B : ℤ) + 1) := by
    rw [show ((B : ℤ) + 1) = ((B + 1 : ℕ) : ℤ) by push_cast; ring, zpow_natCast]; exact_mod_cast d2
  have hdp : (0 : ℚ) < q.den := by exact_mod_cast q.den_pos
  have up : |q| < 2 ^ ((A : ℤ) - B + 1) := by
    rw [eq, div_lt_iff₀ hdp]
    have : (2 : ℚ) ^ ((A : ℤ) - B + 1) * 2 ^ (B : ℤ) = 2 ^ ((A : ℤ) + 1) := by
      rw [← zpow_add₀ (by norm_num)]; congr 1; ring
    have h2 := u_pos ((A : ℤ) - B + 1)
    nlinarith
  have lo : 2 ^ ((A : ℤ) - B - 1) ≤ |q| := by
    rw [eq, le_div_iff₀ hdp]
    have : (2 : ℚ) ^ ((A : ℤ) - B - 1) * 2 ^ ((B : ℤ) + 1) = 2 ^ (A : ℤ) := by
      rw [← zpow_add₀ (by norm_num)]; congr 1; ring
    have h2 := u_pos ((A : ℤ) - B - 1)
    nlinarith
  have e : ilog2 q = if (2 : ℚ) ^ ((A : ℤ) - B) ≤ |q| then (A : ℤ) - B else (A : ℤ) - B - 1 := rfl
  rw [e]
  split
  · rename_i c; exact ⟨c, up⟩
  · rename_i c
    push Not at c
    exact ⟨lo, by rw [sub_add_cancel]; exact c⟩

theorem nearest_err (x : ℚ) : |(nearest x : ℚ) - x| ≤ 1 / 2 := by
  have h1 := Int.floor_le x
  have h2 := Int.lt_floor_add_one x
  unfold nearest
  rw [abs_le]
  split_ifs <;> push_cast <;> constructor <;> linarith

theorem nearest_int (z : ℤ) : nearest z = z := by
  unfold nearest
  rw [Int.floor_intCast]
  norm_num

theorem f64_double : Double f64 := by
  constructor
  · intro x
    by_cases h : x = 0
    · subst h; simp [f64]
    · unfold f64
      rw [if_neg h]
      have hu := u_pos (ilog2 x - 52)
      have h1 := nearest_err (x / 2 ^ (ilog2 x - 52))
      have h2 := (ilog2_spec h).1
      have e : (nearest (x / 2 ^ (ilog2 x - 52)) : ℚ) * 2 ^ (ilog2 x - 52) - x =
          ((nearest (x / 2 ^ (ilog2 x - 52)) : ℚ) - x / 2 ^ (ilog2 x - 52)) * 2 ^ (ilog2 x - 52) := by
        field_simp
      rw [e, abs_mul, abs_of_pos hu, le_div_iff₀ (by norm_num)]
      have e2 : (2 : ℚ) ^ (ilog2 x - 52) * 2 ^ 52 = 2 ^ ilog2 x := by
        rw [show (2 : ℚ) ^ 52 = 2 ^ (52 : ℤ) by norm_num, ← zpow_add₀ (by norm_num)]; congr 1; ring
      nlinarith
  · have main : ∀ k z : ℤ, |z| < 2 ^ 53 → f64 (z * 2 ^ k) = z * 2 ^ k := by
      intro k z hz
      by_cases h : (z : ℚ) * 2 ^ k = 0
      · rw [h]; simp [f64]
      · have hu := u_pos k
        unfold f64
        rw [if_neg h]
        have h1 := (ilog2_spec h).1
        rw [abs_mul, abs_of_pos hu] at h1
        have hz' : |(z : ℚ)| < 2 ^ (53 : ℤ) := by
          have : |(z : ℚ)| < ((2 ^ 53 : ℤ) : ℚ) := by exact_mod_cast hz
          push_cast at this
          exact this
        have h2 : (2 : ℚ) ^ ilog2 (z * 2 ^ k) < 2 ^ (53 + k) := by
          rw [zpow_add₀ (by norm_num)]
          exact lt_of_le_of_lt h1 (mul_lt_mul_of_pos_right hz' hu)
        have h3 : ilog2 (z * 2 ^ k) < 53 + k := (zpow_lt_zpow_iff_right₀ (by norm_num)).mp h2
        obtain ⟨n, hn⟩ : ∃ n : ℕ, k - (ilog2 (z * 2 ^ k) - 52) = n := ⟨(k - (ilog2 (z * 2 ^ k) - 52)).toNat, by omega⟩
        have e : (z : ℚ) * 2 ^ k / 2 ^ (ilog2 (z * 2 ^ k) - 52) = ((z * 2 ^ n : ℤ) : ℚ) := by
          rw [mul_div_assoc, ← zpow_sub₀ (by norm_num), hn]
          push_cast
          rw [zpow_natCast]
        rw [e, nearest_int, ← e]
        have := u_pos (ilog2 (z * 2 ^ k) - 52)
        field_simp
    intro k z hz
    rcases lt_or_eq_of_le hz with h | h
    · exact main k z h
    · have : ∃ y : ℤ, |y| < 2 ^ 53 ∧ z = y * 2 := by
        rcases abs_choice z with c | c
        · exact ⟨2 ^ 52, by norm_num, by rw [c] at h; rw [h]; norm_num⟩
        · exact ⟨-2 ^ 52, by norm_num, by rw [c] at h; omega⟩
      obtain ⟨y, hy, rfl⟩ := this
      have e : ((y * 2 : ℤ) : ℚ) * 2 ^ k = y * 2 ^ (k + 1) := by
        push_cast
        rw [zpow_add₀ (by norm_num), zpow_one]; ring
      rw [e]
      exact main (k + 1) y hy

end Parcels.FloatTime
