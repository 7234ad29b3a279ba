import Verif.Spec.JitLoop
import Mathlib.Tactic.Linarith
import Mathlib.Tactic.NormNum

/-!
The C loop and the Scipy loop, turn by turn.
-/

namespace Parcels.JitLoop

open KernelLoop

variable {W V : Type}

theorem isZero_iff (a : ℚ) : isZero a = true ↔ a = 0 := by
  unfold isZero eps
  rw [decide_eq_true_iff]
  constructor
  · intro h
    have : |a| ≤ 0 := by
      have h0 := abs_nonneg a
      norm_num at h
      linarith
    exact abs_nonpos_iff.mp this
  · rintro rfl
    simp

theorem csgn_sgn {x : ℚ} (h : x ≠ 0) : csgn x = sgn x := by
  unfold csgn sgn
  rcases lt_trichotomy x 0 with h' | h' | h'
  · rw [if_neg (not_lt.mpr h'.le), if_neg (not_lt.mpr h'.le), if_pos h']
  · exact absurd h' h
  · rw [if_pos h', if_pos h']

theorem isEqual_of_not_close {a b : ℚ} (h : isclose b a = false) : isEqual a b = false := by
  unfold isclose at h
  unfold isEqual eps
  rw [decide_eq_false_iff_not, not_le] at h ⊢
  have h1 : |a - b| = |b - a| := abs_sub_comm a b
  have h2 : |b| ≤ |b - a| + |a| := by
    have := abs_add_le (b - a) a
    simpa using this
  have h3 := abs_nonneg a
  have h4 := abs_nonneg (b - a)
  rw [h1]
  norm_num at h ⊢
  linarith

theorem isEqual_self (a : ℚ) : isEqual a a = true := by
  unfold isEqual eps
  simp

theorem isclose_self (a : ℚ) : isclose a a = true := by
  unfold isclose
  rw [decide_eq_true_iff, sub_self, abs_zero]
  positivity

theorem isCloseC_eq (a b : ℚ) : isCloseC a b = isclose a b := rfl

theorem resolve_eq (K : Kern W V) (hK : Steady K) (w : W) (p : Particle V) :
    resolve p (K w p).2 = KernelLoop.resolve p (K w p).2 := by
  have hdt : isEqual p.dt (K w p).2.p.dt = isclose (K w p).2.p.dt p.dt := by
    rcases (hK w p).1 with h | h
    · rw [h, isEqual_self, isclose_self]
    · rw [h, isEqual_of_not_close h]
  unfold resolve KernelLoop.resolve code
  cases hr : (K w p).2.res with
  | ret c =>
    simp only [hdt]
  | exc e =>
    simp only
    have : e.code ≠ .success := by cases e <;> simp [Exc.code]
    simp [this]

/-- The sign of what is left to the end, compared with the sign of `dt`. -/
theorem sign_cases {dt x : ℚ} (hdt : dt ≠ 0) : (csgn dt = csgn x ↔ sgn x = sgn dt) ∨ (x = 0 ∧ dt < 0) := by
  by_cases hx : x = 0
  · subst hx
    rcases lt_or_gt_of_ne hdt with h | h
    · exact .inr ⟨rfl, h⟩
    · left
      have h1 : csgn dt = 1 := by simp [csgn, h]
      have h2 : csgn 0 = -1 := by simp [csgn]
      have h3 : sgn dt = 1 := by simp [sgn, h]
      have h4 : sgn 0 = 0 := by simp [sgn]
      rw [h1, h2, h3, h4]
      norm_num
  · left
    rw [csgn_sgn hdt, csgn_sgn hx]
    exact eq_comm

theorem dtPos_eq {dt x a : ℚ} (hdt : dt ≠ 0) (ha : 0 ≤ a) :
    (if csgn dt ≠ csgn x then 0 else min a |x|) = if sgn x ≠ sgn dt then 0 else min a |x| := by
  rcases sign_cases (x := x) hdt with h | ⟨rfl, h⟩
  · by_cases h' : csgn dt = csgn x
    · rw [if_neg (not_not.mpr h'), if_neg (not_not.mpr (h.mp h'))]
    · rw [if_pos h', if_pos fun e => h' (h.mpr e)]
  · have h1 : csgn dt = csgn 0 := by simp [csgn, not_lt.mpr h.le]
    have h2 : sgn 0 ≠ sgn dt := by simp [sgn, h, not_lt.mpr h.le]
    rw [if_neg (not_not.mpr h1), if_pos h2]
    rw [abs_zero, min_eq_right ha]

/-- The loops are at the same point. -/
structure Same (s : JS W V) (t : LS W V) : Prop where
  w : s.w = t.w
  p : s.p = t.p
  dtPos : s.dtPos = t.dtPos
  next : s.nextDt = none
  next' : t.nextDt = none
  trace : s.trace = t.trace

theorem ne_zero_of_not_close {dt : ℚ} (h : isclose dt 0 = false) : dt ≠ 0 := by
  rintro rfl
  rw [isclose_self] at h
  cases h

theorem step_same (K : Kern W V) (hK : Steady K) (E dt : ℚ) (hdt : isclose dt 0 = false) (s : JS W V) (t : LS W V)
    (h : Same s t) : Same (step K E dt s).1 (KernelLoop.step K E dt t).1 ∧
      (((step K E dt s).2 = true ∧ (KernelLoop.step K E dt t).2 = true) ∨
       ((KernelLoop.step K E dt t).2 = false ∧ (step K E dt s).2 = isZero (step K E dt s).1.p.dt ∧
        ((step K E dt s).2 = true → (step K E dt s).1.p.state = .success ∨ (step K E dt s).1.p.state = .delete))) := by
  have hd0 := ne_zero_of_not_close hdt
  obtain ⟨w, p, dtPos, nextDt, trace⟩ := s
  obtain ⟨w', p', dtPos', nextDt', back', trace'⟩ := t
  obtain ⟨rfl, rfl, rfl, rfl, rfl, rfl⟩ := h
  have hpre : dtPos * csgn dt = sgn dt * dtPos := by rw [csgn_sgn hd0, mul_comm]
  unfold step KernelLoop.step
  simp only [hpre]
  have hres := resolve_eq K hK w { p with dt := sgn dt * dtPos }
  simp only [hres]
  have hst := hK w { p with dt := sgn dt * dtPos }
  generalize hpr : { p with dt := sgn dt * dtPos } = pre at *
  generalize ho : K w pre = out at *
  by_cases hc : KernelLoop.resolve pre out.2 = .success ∨ KernelLoop.resolve pre out.2 = .delete
  · rw [if_pos hc, if_pos hc]
    simp only
    have hn : (out.2.nextDt.orElse fun _ => none) = out.2.nextDt := by cases out.2.nextDt <;> rfl
    rw [hn]
    set dt' := out.2.nextDt.getD out.2.p.dt
    set time' := out.2.p.time + out.2.p.dt
    have hstate : (if KernelLoop.resolve pre out.2 ≠ .delete ∧ ¬ isCloseC (min |dt'| |E - time'|) 0 = true ∧ csgn dt = csgn (E - time')
        then Code.evaluate else KernelLoop.resolve pre out.2) =
        if KernelLoop.resolve pre out.2 ≠ .delete ∧ ¬ isclose (min |dt'| |E - time'|) 0 = true ∧ sgn (E - time') = sgn dt
        then Code.evaluate else KernelLoop.resolve pre out.2 := by
      rcases sign_cases (x := E - time') hd0 with h | ⟨h0, h⟩
      · simp only [isCloseC_eq, h]
      · have : isclose (min |dt'| |E - time'|) 0 = true := by
          rw [h0, abs_zero, min_eq_right (abs_nonneg _)]
          exact isclose_self 0
        simp only [isCloseC_eq, this, not_true_eq_false, false_and, and_false, if_false]
    refine ⟨⟨rfl, ?_, dtPos_eq hd0 (abs_nonneg _), rfl, rfl, rfl⟩, .inr ⟨hdt, trivial, ?_⟩⟩
    · simp only
      rw [hstate]
    · intro hz
      have hz' := (isZero_iff _).mp hz
      have : isCloseC (min |dt'| |E - time'|) 0 = true := by
        rw [hz', abs_zero, min_eq_left (abs_nonneg _)]
        exact isclose_self 0
      simp only [this, not_true_eq_false, false_and, and_false, if_false]
      exact hc
  · rw [if_neg hc, if_neg hc]
    simp only
    have hn : out.2.nextDt = none := by
      by_contra h
      exact hc (hst.2 h)
    refine ⟨⟨rfl, rfl, dtPos_eq hd0 (abs_nonneg _), ?_, rfl, rfl⟩, .inl (by simp)⟩
    simp only [hn]
    rfl

theorem loop_same (K : Kern W V) (hK : Steady K) (E dt : ℚ) (hdt : isclose dt 0 = false) : ∀ (n : Nat) (s : JS W V) (t t' : LS W V),
    Same s t → s.p.dt ≠ 0 → KernelLoop.loop K E dt n t = some t' → ∃ s', loop K E dt n s = some s' ∧ Same s' t'
  | 0, _, _, _, _, _, h => by cases h
  | n + 1, s, t, t', hs, h0, h => by
    have hz : isZero s.p.dt = false := by
      rw [Bool.eq_false_iff, ne_eq, isZero_iff]; exact h0
    have hcond : cond s ↔ KernelLoop.cond dt t := by
      unfold cond KernelLoop.cond
      rw [hz, hdt, hs.p]
    unfold loop
    unfold KernelLoop.loop at h
    by_cases hc : KernelLoop.cond dt t
    · rw [if_pos hc] at h
      rw [if_pos (hcond.mpr hc)]
      obtain ⟨h1, h2⟩ := step_same K hK E dt hdt s t hs
      rcases hp : step K E dt s with ⟨s1, b1⟩
      rcases hq : KernelLoop.step K E dt t with ⟨t1, c1⟩
      rw [hp, hq] at h1 h2
      rw [hq] at h
      rcases h2 with ⟨e1, e2⟩ | ⟨e1, e2, e3⟩
      · simp only at e1 e2
        subst e1 e2
        obtain rfl := Option.some.inj h
        exact ⟨s1, rfl, h1⟩
      · simp only at e1 e2 e3
        subst e1
        simp only at h
        cases hb : b1 with
        | true =>
          refine ⟨s1, rfl, ?_⟩
          have hst := e3 hb
          have hnc : ¬ KernelLoop.cond dt t1 := by
            unfold KernelLoop.cond
            rw [hdt, ← h1.p]
            rcases hst with e | e <;> rw [e] <;> simp
          cases n with
          | zero => cases h
          | succ n =>
            unfold KernelLoop.loop at h
            rw [if_neg hnc] at h
            obtain rfl := Option.some.inj h
            exact h1
        | false =>
          simp only
          refine loop_same K hK E dt hdt n s1 t1 t' h1 ?_ h
          rw [hb] at e2
          intro hz0
          rw [(isZero_iff _).mpr hz0] at e2
          cases e2
    · rw [if_neg hc] at h
      rw [if_neg fun h' => hc (hcond.mp h')]
      obtain rfl := Option.some.inj h
      exact ⟨s, rfl, hs⟩

theorem exec1_same (K : Kern W V) (hK : Steady K) (E dt : ℚ) (hdt : isclose dt 0 = false) (fuel : Nat) (w : W)
    (back : Option (Particle V)) (p : Particle V) (h0 : p.dt ≠ 0) (t : LS W V)
    (h : KernelLoop.exec1 K E dt fuel w back p = some t) : ∃ s, exec1 K E dt fuel w none p = some s ∧ Same s t := by
  have hd0 := ne_zero_of_not_close hdt
  have hz : isZero p.dt = false := by
    rw [Bool.eq_false_iff, ne_eq, isZero_iff]; exact h0
  have hskip : skips E dt p ↔ KernelLoop.skips E dt p := by
    unfold skips KernelLoop.skips
    rw [hz, hdt, isCloseC_eq]
    rcases sign_cases (x := E - p.time) hd0 with h | ⟨h1, h⟩
    · have : csgn (E - p.time) ≠ csgn dt ↔ sgn (E - p.time) ≠ sgn dt := by
        rw [ne_comm]
        exact not_congr h
      rw [this]
    · have : isclose (min |p.dt| |E - p.time|) 0 = true := by
        rw [h1, abs_zero, min_eq_right (abs_nonneg _)]
        exact isclose_self 0
      simp [this]
  unfold exec1
  unfold KernelLoop.exec1 at h
  by_cases hs : KernelLoop.skips E dt p
  · simp only [if_pos hs, if_pos (hskip.mpr hs)] at h ⊢
    obtain rfl := Option.some.inj h
    exact ⟨_, rfl, ⟨rfl, rfl, rfl, rfl, rfl, rfl⟩⟩
  · simp only [if_neg hs, if_neg fun h' => hs (hskip.mp h')] at h ⊢
    exact loop_same K hK E dt hdt fuel _ _ t ⟨rfl, rfl, rfl, rfl, rfl, rfl⟩ h0 h

theorem pass_same (K : Kern W V) (hK : Steady K) (E dt : ℚ) (hdt : isclose dt 0 = false) (fuel : Nat) :
    ∀ (ps : List (Particle V)) (w w' : W) (back back' : Option (Particle V)) (rs : List (Particle V × List (Call V))),
    (∀ p ∈ ps, p.dt ≠ 0) → KernelLoop.pass K E dt fuel w back ps = some (w', back', rs) →
    pass K E dt fuel w none ps = some (w', none, rs)
  | [], w, w', back, back', rs, _, h => by
    simp only [KernelLoop.pass, Option.some.injEq, Prod.mk.injEq] at h
    obtain ⟨rfl, _, rfl⟩ := h
    rfl
  | p :: ps, w, w', back, back', rs, h0, h => by
    unfold KernelLoop.pass at h
    unfold pass
    cases he : KernelLoop.exec1 K E dt fuel w back p with
    | none => rw [he] at h; cases h
    | some t =>
      rw [he] at h
      simp only at h
      obtain ⟨s, hs, hsame⟩ := exec1_same K hK E dt hdt fuel w back p (h0 p List.mem_cons_self) t he
      rw [hs]
      simp only
      cases hp : KernelLoop.pass K E dt fuel t.w t.back ps with
      | none => rw [hp] at h; cases h
      | some r =>
        obtain ⟨w1, b1, rs1⟩ := r
        rw [hp] at h
        simp only [Option.some.injEq, Prod.mk.injEq] at h
        obtain ⟨rfl, rfl, rfl⟩ := h
        rw [hsame.next, hsame.w]
        rw [pass_same K hK E dt hdt fuel ps t.w _ _ _ rs1 (fun q hq => h0 q (List.mem_cons_of_mem _ hq)) hp]
        rw [hsame.p, hsame.trace]

/-! ### Conversely -/

theorem loop_same_conv (K : Kern W V) (hK : Steady K) (E dt : ℚ) (hdt : isclose dt 0 = false) :
    ∀ (n : Nat) (s s' : JS W V) (t : LS W V), Same s t → s.p.dt ≠ 0 → loop K E dt n s = some s' →
    ∃ t', KernelLoop.loop K E dt (n + 1) t = some t' ∧ Same s' t'
  | 0, _, _, _, _, _, h => by cases h
  | n + 1, s, s', t, hs, h0, h => by
    have hz : isZero s.p.dt = false := by
      rw [Bool.eq_false_iff, ne_eq, isZero_iff]; exact h0
    have hcond : cond s ↔ KernelLoop.cond dt t := by
      unfold cond KernelLoop.cond
      rw [hz, hdt, hs.p]
    unfold KernelLoop.loop
    unfold loop at h
    by_cases hc : KernelLoop.cond dt t
    · rw [if_pos hc]
      rw [if_pos (hcond.mpr hc)] at h
      obtain ⟨h1, h2⟩ := step_same K hK E dt hdt s t hs
      rcases hp : step K E dt s with ⟨s1, b1⟩
      rcases hq : KernelLoop.step K E dt t with ⟨t1, c1⟩
      rw [hp, hq] at h1 h2
      rw [hp] at h
      rcases h2 with ⟨e1, e2⟩ | ⟨e1, e2, e3⟩
      · simp only at e1 e2
        subst e1 e2
        obtain rfl := Option.some.inj h
        exact ⟨t1, rfl, h1⟩
      · simp only at e1 e2 e3
        subst e1
        simp only
        cases hb : b1 with
        | true =>
          rw [hb] at h
          obtain rfl := Option.some.inj h
          have hst := e3 hb
          have hnc : ¬ KernelLoop.cond dt t1 := by
            unfold KernelLoop.cond
            rw [hdt, ← h1.p]
            rcases hst with e | e <;> rw [e] <;> simp
          refine ⟨t1, ?_, h1⟩
          unfold KernelLoop.loop
          rw [if_neg hnc]
        | false =>
          rw [hb] at h
          refine loop_same_conv K hK E dt hdt n s1 s' t1 h1 ?_ h
          rw [hb] at e2
          intro hz0
          rw [(isZero_iff _).mpr hz0] at e2
          cases e2
    · rw [if_neg hc]
      rw [if_neg fun h' => hc (hcond.mp h')] at h
      obtain rfl := Option.some.inj h
      exact ⟨t, rfl, hs⟩

theorem exec1_same_conv (K : Kern W V) (hK : Steady K) (E dt : ℚ) (hdt : isclose dt 0 = false) (fuel : Nat) (w : W)
    (back : Option (Particle V)) (p : Particle V) (h0 : p.dt ≠ 0) (s : JS W V)
    (h : exec1 K E dt fuel w none p = some s) : ∃ t, KernelLoop.exec1 K E dt (fuel + 1) w back p = some t ∧ Same s t := by
  have hd0 := ne_zero_of_not_close hdt
  have hz : isZero p.dt = false := by
    rw [Bool.eq_false_iff, ne_eq, isZero_iff]; exact h0
  have hskip : skips E dt p ↔ KernelLoop.skips E dt p := by
    unfold skips KernelLoop.skips
    rw [hz, hdt, isCloseC_eq]
    rcases sign_cases (x := E - p.time) hd0 with h | ⟨h1, h⟩
    · have : csgn (E - p.time) ≠ csgn dt ↔ sgn (E - p.time) ≠ sgn dt := by
        rw [ne_comm]
        exact not_congr h
      rw [this]
    · have : isclose (min |p.dt| |E - p.time|) 0 = true := by
        rw [h1, abs_zero, min_eq_right (abs_nonneg _)]
        exact isclose_self 0
      simp [this]
  unfold exec1 at h
  unfold KernelLoop.exec1
  by_cases hs : KernelLoop.skips E dt p
  · simp only [if_pos hs, if_pos (hskip.mpr hs)] at h ⊢
    obtain rfl := Option.some.inj h
    exact ⟨_, rfl, ⟨rfl, rfl, rfl, rfl, rfl, rfl⟩⟩
  · simp only [if_neg hs, if_neg fun h' => hs (hskip.mp h')] at h ⊢
    exact loop_same_conv K hK E dt hdt fuel _ s _ ⟨rfl, rfl, rfl, rfl, rfl, rfl⟩ h0 h

theorem pass_same_conv (K : Kern W V) (hK : Steady K) (E dt : ℚ) (hdt : isclose dt 0 = false) (fuel : Nat) :
    ∀ (ps : List (Particle V)) (w w' : W) (back : Option (Particle V)) (g : Option ℚ) (rs : List (Particle V × List (Call V))),
    (∀ p ∈ ps, p.dt ≠ 0) → pass K E dt fuel w none ps = some (w', g, rs) →
    ∃ back', KernelLoop.pass K E dt (fuel + 1) w back ps = some (w', back', rs)
  | [], w, w', back, g, rs, _, h => by
    simp only [pass, Option.some.injEq, Prod.mk.injEq] at h
    obtain ⟨rfl, _, rfl⟩ := h
    exact ⟨back, rfl⟩
  | p :: ps, w, w', back, g, rs, h0, h => by
    unfold pass at h
    unfold KernelLoop.pass
    cases he : exec1 K E dt fuel w none p with
    | none => rw [he] at h; cases h
    | some s =>
      rw [he] at h
      simp only at h
      obtain ⟨t, ht, hsame⟩ := exec1_same_conv K hK E dt hdt fuel w back p (h0 p List.mem_cons_self) s he
      rw [ht]
      simp only
      cases hp : pass K E dt fuel s.w s.nextDt ps with
      | none => rw [hp] at h; cases h
      | some r =>
        obtain ⟨w1, g1, rs1⟩ := r
        rw [hp] at h
        simp only [Option.some.injEq, Prod.mk.injEq] at h
        obtain ⟨rfl, rfl, rfl⟩ := h
        rw [hsame.next, hsame.w] at hp
        obtain ⟨b', hb'⟩ := pass_same_conv K hK E dt hdt fuel ps t.w _ t.back _ rs1 (fun q hq => h0 q (List.mem_cons_of_mem _ hq)) hp
        rw [hb']
        exact ⟨b', by rw [hsame.p, hsame.trace]⟩

end Parcels.JitLoop
