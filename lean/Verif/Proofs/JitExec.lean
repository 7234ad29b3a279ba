import Verif.Spec.JitExec
import Verif.Proofs.JitLoop

/-!
Lemmas for C48: a kernel that is sometimes told to repeat (`K`) and the same kernel without repetitions (`whole P`).
-/

namespace Parcels.JitExec

open KernelLoop (Particle Kern KOut KRes Call)
open Recovery (RMap Handler)
open JitLoop hiding cond

variable {W W' V : Type}

/-! ### The loop does not depend on world and trace -/

/-- Same particle, step and global. -/
structure Sim (s : JS W V) (t : JS W' V) : Prop where
  p : s.p = t.p
  dtPos : s.dtPos = t.dtPos
  next : s.nextDt = t.nextDt

theorem step_sim (K : Kern W V) (K' : Kern W' V) (E dt : ℚ) (s : JS W V) (t : JS W' V) (h : Sim s t)
    (hk : (K s.w { s.p with dt := s.dtPos * csgn dt }).2 = (K' t.w { t.p with dt := t.dtPos * csgn dt }).2) :
    Sim (step K E dt s).1 (step K' E dt t).1 ∧ (step K E dt s).2 = (step K' E dt t).2 ∧
      (step K E dt s).1.w = (K s.w { s.p with dt := s.dtPos * csgn dt }).1 := by
  obtain ⟨h1, h2, h3⟩ := h
  unfold step
  simp only
  rw [hk, h1, h2, h3]
  generalize (K' t.w { t.p with dt := t.dtPos * csgn dt }).2 = out
  split
  · exact ⟨⟨rfl, rfl, rfl⟩, rfl, rfl⟩
  · exact ⟨⟨rfl, rfl, rfl⟩, rfl, rfl⟩

theorem loop_sim (P : Particle V → KOut V) (E dt : ℚ) : ∀ (n : Nat) (s t s' : JS Unit V), Sim s t → loop (whole P) E dt n s = some s' →
    ∃ t', loop (whole P) E dt n t = some t' ∧ Sim s' t'
  | 0, _, _, _, _, h => by cases h
  | n + 1, s, t, s', hs, h => by
    have hc : JitLoop.cond s ↔ JitLoop.cond t := by unfold JitLoop.cond; rw [hs.p]
    unfold loop at h ⊢
    by_cases hcond : JitLoop.cond s
    · rw [if_pos hcond] at h
      rw [if_pos (hc.mp hcond)]
      obtain ⟨h1, h2, _⟩ := step_sim (whole P) (whole P) E dt s t hs (by unfold whole; rw [hs.p, hs.dtPos])
      rcases hp : step (whole P) E dt s with ⟨s1, b1⟩
      rcases hq : step (whole P) E dt t with ⟨t1, c1⟩
      rw [hp, hq] at h1 h2
      rw [hp] at h
      simp only at h1 h2
      subst h2
      cases b1 with
      | true =>
        obtain rfl := Option.some.inj h
        exact ⟨t1, rfl, h1⟩
      | false => exact loop_sim P E dt n s1 t1 s' h1 h
    · rw [if_neg hcond] at h
      rw [if_neg fun h' => hcond (hc.mpr h')]
      obtain rfl := Option.some.inj h
      exact ⟨t, rfl, hs⟩

theorem loop_mono (K : Kern W V) (E dt : ℚ) : ∀ (n : Nat) (s s' : JS W V), loop K E dt n s = some s' →
    ∀ m, n ≤ m → loop K E dt m s = some s'
  | 0, _, _, h, _, _ => by cases h
  | n + 1, s, s', h, m, hm => by
    obtain ⟨k, rfl⟩ : ∃ k, m = k + 1 := ⟨m - 1, by omega⟩
    unfold loop at h ⊢
    by_cases hc : JitLoop.cond s
    · rw [if_pos hc] at h ⊢
      rcases hp : step K E dt s with ⟨s1, b1⟩
      rw [hp] at h
      cases b1 with
      | true => exact h
      | false => exact loop_mono K E dt n s1 s' h k (by omega)
    · rw [if_neg hc] at h ⊢
      exact h

theorem exec1_mono (K : Kern W V) (E dt : ℚ) (n m : Nat) (hm : n ≤ m) (w : W) (g : Option ℚ) (p : Particle V) (s : JS W V)
    (h : exec1 K E dt n w g p = some s) : exec1 K E dt m w g p = some s := by
  unfold exec1 at h ⊢
  simp only at h ⊢
  by_cases hs : skips E dt p
  · rw [if_pos hs] at h ⊢
    exact h
  · rw [if_neg hs] at h ⊢
    exact loop_mono K E dt n _ s h m hm

/-! ### A kernel that is told to repeat -/

/-- The answer of a kernel that is told to repeat. -/
structure Repeated (p : Particle V) (o : KOut V) : Prop where
  dt : o.p.dt = p.dt
  next : o.nextDt = none
  res : o.res = .ret (some .repeat)

/-- A kernel that in worlds with `I` answers as `P` or is told to repeat. `pend`: something was requested. `μ` counts what is
not loaded. -/
structure Answers (K : Kern W V) (P : Particle V → KOut V) (I pend : W → Prop) (μ : W → Nat) : Prop where
  inv : ∀ w p, I w → I (K w p).1
  res : ∀ w p, I w → (K w p).2 = P p ∨ Repeated p (K w p).2 ∧ pend (K w p).1
  keep : ∀ w p, I w → pend w → pend (K w p).1
  le : ∀ w p, I w → μ (K w p).1 ≤ μ w

/-- The particle can take a step. -/
structure Live (E dt : ℚ) (s : JS W V) : Prop where
  state : s.p.state = .evaluate
  sign : csgn (E - s.p.time) = csgn dt
  open' : isCloseC s.dtPos 0 = false
  nonneg : 0 ≤ s.dtPos
  le : s.dtPos ≤ |E - s.p.time|

theorem isCloseC_zero : isCloseC 0 0 = true := by decide +kernel

theorem Live.pos {E dt : ℚ} {s : JS W V} (h : Live E dt s) : 0 < s.dtPos := by
  rcases lt_or_eq_of_le h.nonneg with h' | h'
  · exact h'
  · have := h.open'
    rw [← h', isCloseC_zero] at this
    cases this

theorem csgn_abs (x : ℚ) : |csgn x| = 1 := by
  unfold csgn
  split <;> simp

theorem Live.pre_ne {E dt : ℚ} {s : JS W V} (h : Live E dt s) : s.dtPos * csgn dt ≠ 0 := by
  intro h0
  have := congrArg abs h0
  rw [abs_mul, csgn_abs, mul_one, abs_zero, abs_of_nonneg h.nonneg] at this
  have := h.pos
  linarith

theorem step_live (P : Particle V → KOut V) (hP : Tame P) (E dt : ℚ) (s : JS W V) (K : Kern W V) (hl : Live E dt s)
    (hn : s.nextDt = none) (hk : (K s.w { s.p with dt := s.dtPos * csgn dt }).2 = P { s.p with dt := s.dtPos * csgn dt }) :
    (step K E dt s).1.p.dt ≠ 0 ∧ (step K E dt s).1.nextDt = none ∧
      (JitLoop.cond (step K E dt s).1 → (step K E dt s).2 = false → Live E dt (step K E dt s).1) ∧
      (step K E dt s).1.p.state ≠ .evaluate ∨
    (step K E dt s).1.p.dt ≠ 0 ∧ (step K E dt s).1.nextDt = none ∧
      (step K E dt s).2 = false ∧ Live E dt (step K E dt s).1 := by
  unfold step
  simp only
  rw [hk, hn]
  set pre : Particle V := { s.p with dt := s.dtPos * csgn dt } with hpre
  have hdt := hP.dt pre hl.pre_ne
  have hcode := hP.code pre
  have hnext := hP.next pre
  generalize hout : P pre = out at *
  by_cases hres : JitLoop.resolve pre out = .success ∨ JitLoop.resolve pre out = .delete
  · rw [if_pos hres]
    simp only
    have hd : (Option.orElse out.nextDt fun _ => none).getD out.p.dt ≠ 0 := by
      cases hnd : out.nextDt with
      | none => simpa using hdt.1
      | some x =>
        have := hdt.2
        rw [hnd] at this
        intro h
        apply this
        simpa using h
    set d' := (Option.orElse out.nextDt fun _ => none).getD out.p.dt with hd'
    have hz : isZero d' = false := by
      rw [Bool.eq_false_iff, ne_eq, isZero_iff]; exact hd
    by_cases hev : JitLoop.resolve pre out ≠ .delete ∧ ¬ (isCloseC (min |d'| |E - (out.p.time + out.p.dt)|) 0 = true) ∧
        csgn dt = csgn (E - (out.p.time + out.p.dt))
    · right
      refine ⟨hd, trivial, hz, ?_⟩
      refine ⟨?_, hev.2.2.symm, ?_, ?_, ?_⟩
      · rw [if_pos hev]
      · simp only
        rw [if_neg (by simp [hev.2.2])]
        simpa using hev.2.1
      · simp only
        rw [if_neg (by simp [hev.2.2])]
        exact le_min (abs_nonneg _) (abs_nonneg _)
      · simp only
        rw [if_neg (by simp [hev.2.2])]
        exact min_le_right _ _
    · left
      rw [if_neg hev]
      refine ⟨hd, trivial, ?_, ?_⟩
      · intro hc _
        exfalso
        unfold JitLoop.cond at hc
        simp only at hc
        rw [hz] at hc
        rcases hres with h | h <;> rw [h] at hc <;> simp at hc
      · rcases hres with h | h <;> rw [h] <;> simp
  · rw [if_neg hres]
    left
    simp only
    refine ⟨hdt.1, ?_, fun _ h => by (cases h), hcode⟩
    cases hnd : out.nextDt with
    | none => rfl
    | some x =>
      rw [hnd] at hnext
      exact absurd (hnext (by simp)) hres

theorem resolve_repeated (p : Particle V) (o : KOut V) (h : Repeated p o) : JitLoop.resolve p o = .repeat := by
  simp [JitLoop.resolve, h.res, JitLoop.code]

theorem step_repeated (K : Kern W V) (E dt : ℚ) (s : JS W V) (hn : s.nextDt = none)
    (hk : Repeated { s.p with dt := s.dtPos * csgn dt } (K s.w { s.p with dt := s.dtPos * csgn dt }).2) :
    (step K E dt s).1.p = { s.p with dt := s.dtPos * csgn dt, state := .repeat } ∧ (step K E dt s).1.nextDt = none ∧
      (step K E dt s).2 = true ∧ (step K E dt s).1.w = (K s.w { s.p with dt := s.dtPos * csgn dt }).1 := by
  unfold step
  simp only
  rw [resolve_repeated _ _ hk, if_neg (by simp), hk.next, hk.dt]
  simp [hn]

/-- Executing the particle that was told to repeat goes on where it was. -/
theorem exec1_again (P : Particle V → KOut V) (E dt : ℚ) (s : JS W V) (hl : Live E dt s) (hn : s.nextDt = none) (m : Nat) :
    exec1 (whole P) E dt m () none { s.p with dt := s.dtPos * csgn dt, state := .evaluate } =
      loop (whole P) E dt m ⟨(), { s.p with dt := s.dtPos * csgn dt, state := .evaluate }, s.dtPos, none, []⟩ := by
  have hmin : min |s.dtPos * csgn dt| |E - s.p.time| = s.dtPos := by
    rw [abs_mul, csgn_abs, mul_one, abs_of_nonneg hl.nonneg]
    exact min_eq_left hl.le
  unfold exec1
  simp only
  rw [hmin]
  rw [if_neg]
  unfold skips
  simp only
  rw [hmin, hl.open', hl.sign]
  simp

theorem loop_again (P : Particle V → KOut V) (E dt : ℚ) (s : JS W V) (t : JS Unit V) (hs : Sim s t) (hl : Live E dt s)
    (hn : s.nextDt = none) (m : Nat) :
    (∀ u, exec1 (whole P) E dt m () none { s.p with dt := s.dtPos * csgn dt, state := .evaluate } = some u →
      ∃ t', loop (whole P) E dt m t = some t' ∧ t'.p = u.p) ∧
    (∀ t', loop (whole P) E dt m t = some t' →
      ∃ u, exec1 (whole P) E dt m () none { s.p with dt := s.dtPos * csgn dt, state := .evaluate } = some u ∧ u.p = t'.p) := by
  rw [exec1_again P E dt s hl hn]
  set v : JS Unit V := ⟨(), { s.p with dt := s.dtPos * csgn dt, state := .evaluate }, s.dtPos, none, []⟩ with hv
  cases m with
  | zero => exact ⟨fun u h => by (cases h), fun u h => by (cases h)⟩
  | succ m =>
    have hcv : JitLoop.cond v := .inl rfl
    have hct : JitLoop.cond t := .inl (by rw [← hs.p]; exact hl.state)
    have hpre : { v.p with dt := v.dtPos * csgn dt } = { t.p with dt := t.dtPos * csgn dt } := by
      rw [hv, ← hs.p, ← hs.dtPos]
      have := hl.state
      rcases hp : s.p with ⟨a, b, c, d⟩
      rw [hp] at this
      simp only at this ⊢
      rw [this]
    have key : Sim (step (whole P) E dt v).1 (step (whole P) E dt t).1 ∧ (step (whole P) E dt v).2 = (step (whole P) E dt t).2 := by
      have ht3 : t.nextDt = none := by rw [← hs.next]; exact hn
      have hb1 : v.p.time = t.p.time := by rw [hv, ← hs.p]
      have hb2 : v.p.vars = t.p.vars := by rw [hv, ← hs.p]
      have hb3 : v.nextDt = none := rfl
      unfold step whole
      simp only
      rw [hpre, ht3, hb1, hb2, hb3]
      generalize (P { t.p with dt := t.dtPos * csgn dt }) = out
      split
      · exact ⟨⟨rfl, rfl, rfl⟩, rfl⟩
      · exact ⟨⟨rfl, rfl, rfl⟩, rfl⟩
    obtain ⟨k1, k2⟩ := key
    unfold loop
    rw [if_pos hcv, if_pos hct]
    rcases hp : step (whole P) E dt v with ⟨s1, b1⟩
    rcases hq : step (whole P) E dt t with ⟨t1, c1⟩
    rw [hp, hq] at k1 k2
    simp only at k1 k2
    subst k2
    cases b1 with
    | true =>
      simp only [Option.some.injEq]
      exact ⟨fun u h => ⟨t1, rfl, by rw [← h, k1.p]⟩, fun t' h => ⟨s1, rfl, by rw [← h, k1.p]⟩⟩
    | false =>
      simp only
      constructor
      · intro u h
        obtain ⟨t', h1, h2⟩ := loop_sim P E dt m s1 t1 u k1 h
        exact ⟨t', h1, h2.p.symm⟩
      · intro t' h
        obtain ⟨u, h1, h2⟩ := loop_sim P E dt m t1 s1 t' ⟨k1.p.symm, k1.dtPos.symm, k1.next.symm⟩ h
        exact ⟨u, h1, h2.p.symm⟩

/-- What a pass with a kernel that may be told to repeat does, compared with the kernel that is not: the same, or the
particle waits. -/
def Waits (pend : W → Prop) (s : JS W V) : Prop := s.p.state = .repeat ∧ pend s.w

theorem loop_forth {K : Kern W V} {P : Particle V → KOut V} {I pend : W → Prop} {μ : W → Nat} (hA : Answers K P I pend μ)
    (hP : Tame P) (E dt : ℚ) : ∀ (n : Nat) (s : JS W V) (t t' : JS Unit V), Sim s t → I s.w → s.nextDt = none → s.p.dt ≠ 0 →
    (JitLoop.cond s → Live E dt s) → loop (whole P) E dt n t = some t' →
    ∃ s', loop K E dt n s = some s' ∧ I s'.w ∧ (pend s.w → pend s'.w) ∧ μ s'.w ≤ μ s.w ∧ s'.nextDt = none ∧ s'.p.dt ≠ 0 ∧
      (s'.p = t'.p ∨ Waits pend s' ∧ ∃ u, exec1 (whole P) E dt n () none { s'.p with state := .evaluate } = some u ∧ u.p = t'.p)
  | 0, _, _, _, _, _, _, _, _, h => by cases h
  | n + 1, s, t, t', hs, hI, hn, h0, hl, h => by
    have hc : JitLoop.cond s ↔ JitLoop.cond t := by unfold JitLoop.cond; rw [hs.p]
    by_cases hcond : JitLoop.cond s
    · have hlive := hl hcond
      rcases hA.res s.w { s.p with dt := s.dtPos * csgn dt } hI with hk | ⟨hk, hpend⟩
      · have hk' : (K s.w { s.p with dt := s.dtPos * csgn dt }).2 =
            (whole P t.w { t.p with dt := t.dtPos * csgn dt }).2 := by
          rw [hk]; unfold whole; rw [hs.p, hs.dtPos]
        obtain ⟨k1, k2, k3⟩ := step_sim K (whole P) E dt s t hs hk'
        have hlv := step_live P hP E dt s K hlive hn hk
        unfold loop at h ⊢
        rw [if_pos (hc.mp hcond)] at h
        rw [if_pos hcond]
        have hI1 := hA.inv s.w { s.p with dt := s.dtPos * csgn dt } hI
        have hle := hA.le s.w { s.p with dt := s.dtPos * csgn dt } hI
        have hkp := hA.keep s.w { s.p with dt := s.dtPos * csgn dt } hI
        rcases hp : step K E dt s with ⟨s1, b1⟩
        rcases hq : step (whole P) E dt t with ⟨t1, c1⟩
        rw [hp, hq] at k1 k2
        rw [hp] at k3 hlv
        rw [hq] at h
        simp only at k1 k2 k3 hlv
        subst k2
        rw [← k3] at hI1 hle hkp
        have hdn : s1.p.dt ≠ 0 ∧ s1.nextDt = none := by
          rcases hlv with h | h
          · exact ⟨h.1, h.2.1⟩
          · exact ⟨h.1, h.2.1⟩
        cases b1 with
        | true =>
          obtain rfl := Option.some.inj h
          exact ⟨s1, rfl, hI1, hkp, hle, hdn.2, hdn.1, .inl k1.p⟩
        | false =>
          have hl1 : JitLoop.cond s1 → Live E dt s1 := by
            intro hc1
            rcases hlv with h | h
            · exact h.2.2.1 hc1 rfl
            · exact h.2.2.2
          obtain ⟨s', e1, e2, e3, e4, e5, e6, e7⟩ := loop_forth hA hP E dt n s1 t1 t' k1 hI1 hdn.2 hdn.1 hl1 h
          refine ⟨s', e1, e2, fun h => e3 (hkp h), e4.trans hle, e5, e6, ?_⟩
          rcases e7 with e7 | ⟨e7, u, e8, e9⟩
          · exact .inl e7
          · exact .inr ⟨e7, u, exec1_mono _ _ _ n (n + 1) (by omega) _ _ _ _ e8, e9⟩
      · obtain ⟨k1, k2, k3, k4⟩ := step_repeated K E dt s hn hk
        have hI1 := hA.inv s.w { s.p with dt := s.dtPos * csgn dt } hI
        have hle := hA.le s.w { s.p with dt := s.dtPos * csgn dt } hI
        obtain ⟨u, hu, hup⟩ := (loop_again P E dt s t hs hlive hn (n + 1)).2 t' h
        unfold loop
        rw [if_pos hcond]
        rcases hp : step K E dt s with ⟨s1, b1⟩
        rw [hp] at k1 k2 k3 k4
        simp only at k1 k2 k3 k4
        subst k3
        rw [← k4] at hI1 hle hpend
        refine ⟨s1, rfl, hI1, fun _ => hpend, hle, k2, ?_, .inr ⟨⟨by rw [k1], hpend⟩, u, ?_, hup⟩⟩
        · rw [k1]; exact hlive.pre_ne
        · rw [k1]; exact hu
    · unfold loop at h ⊢
      rw [if_neg fun h' => hcond (hc.mpr h')] at h
      rw [if_neg hcond]
      obtain rfl := Option.some.inj h
      exact ⟨s, rfl, hI, id, le_refl _, hn, h0, .inl hs.p⟩

theorem loop_back {K : Kern W V} {P : Particle V → KOut V} {I pend : W → Prop} {μ : W → Nat} (hA : Answers K P I pend μ)
    (hP : Tame P) (E dt : ℚ) : ∀ (n : Nat) (s s' : JS W V) (t : JS Unit V), Sim s t → I s.w → s.nextDt = none → s.p.dt ≠ 0 →
    (JitLoop.cond s → Live E dt s) → loop K E dt n s = some s' →
    I s'.w ∧ s'.nextDt = none ∧ s'.p.dt ≠ 0 ∧
      ((∃ m t', loop (whole P) E dt m t = some t' ∧ t'.p = s'.p) ∨
        s'.p.state = .repeat ∧ ∀ m u, exec1 (whole P) E dt m () none { s'.p with state := .evaluate } = some u →
          ∃ m' t', loop (whole P) E dt m' t = some t' ∧ t'.p = u.p)
  | 0, _, _, _, _, _, _, _, _, h => by cases h
  | n + 1, s, s', t, hs, hI, hn, h0, hl, h => by
    have hc : JitLoop.cond s ↔ JitLoop.cond t := by unfold JitLoop.cond; rw [hs.p]
    unfold loop at h
    by_cases hcond : JitLoop.cond s
    · rw [if_pos hcond] at h
      have hlive := hl hcond
      rcases hA.res s.w { s.p with dt := s.dtPos * csgn dt } hI with hk | ⟨hk, hpend⟩
      · have hk' : (K s.w { s.p with dt := s.dtPos * csgn dt }).2 =
            (whole P t.w { t.p with dt := t.dtPos * csgn dt }).2 := by
          rw [hk]; unfold whole; rw [hs.p, hs.dtPos]
        obtain ⟨k1, k2, k3⟩ := step_sim K (whole P) E dt s t hs hk'
        have hlv := step_live P hP E dt s K hlive hn hk
        have hI1 := hA.inv s.w { s.p with dt := s.dtPos * csgn dt } hI
        rcases hp : step K E dt s with ⟨s1, b1⟩
        rcases hq : step (whole P) E dt t with ⟨t1, c1⟩
        rw [hp, hq] at k1 k2
        rw [hp] at k3 hlv h
        simp only at k1 k2 k3 hlv
        subst k2
        rw [← k3] at hI1
        have hdn : s1.p.dt ≠ 0 ∧ s1.nextDt = none := by
          rcases hlv with h | h
          · exact ⟨h.1, h.2.1⟩
          · exact ⟨h.1, h.2.1⟩
        cases b1 with
        | true =>
          obtain rfl := Option.some.inj h
          refine ⟨hI1, hdn.2, hdn.1, .inl ⟨1, t1, ?_, k1.p.symm⟩⟩
          unfold loop
          rw [if_pos (hc.mp hcond), hq]
        | false =>
          have hl1 : JitLoop.cond s1 → Live E dt s1 := by
            intro hc1
            rcases hlv with h | h
            · exact h.2.2.1 hc1 rfl
            · exact h.2.2.2
          have hstep : ∀ m t', loop (whole P) E dt m t1 = some t' → loop (whole P) E dt (m + 1) t = some t' := by
            intro m t' h'
            unfold loop
            rw [if_pos (hc.mp hcond), hq]
            exact h'
          obtain ⟨e1, e2, e3, e4⟩ := loop_back hA hP E dt n s1 s' t1 k1 hI1 hdn.2 hdn.1 hl1 h
          refine ⟨e1, e2, e3, ?_⟩
          rcases e4 with ⟨m, t', e5, e6⟩ | ⟨e5, e6⟩
          · exact .inl ⟨m + 1, t', hstep m t' e5, e6⟩
          · refine .inr ⟨e5, fun m u hu => ?_⟩
            obtain ⟨m', t', e7, e8⟩ := e6 m u hu
            exact ⟨m' + 1, t', hstep m' t' e7, e8⟩
      · obtain ⟨k1, k2, k3, k4⟩ := step_repeated K E dt s hn hk
        have hI1 := hA.inv s.w { s.p with dt := s.dtPos * csgn dt } hI
        rcases hp : step K E dt s with ⟨s1, b1⟩
        rw [hp] at k1 k2 k3 k4 h
        simp only at k1 k2 k3 k4
        subst k3
        obtain rfl := Option.some.inj h
        rw [← k4] at hI1
        refine ⟨hI1, k2, by rw [k1]; exact hlive.pre_ne, .inr ⟨by rw [k1], fun m u hu => ?_⟩⟩
        rw [k1] at hu
        obtain ⟨t', h1, h2⟩ := (loop_again P E dt s t hs hlive hn m).1 u hu
        exact ⟨m, t', h1, h2⟩
    · rw [if_neg hcond] at h
      obtain rfl := Option.some.inj h
      refine ⟨hI, hn, h0, .inl ⟨1, t, ?_, hs.p.symm⟩⟩
      unfold loop
      rw [if_neg fun h' => hcond (hc.mpr h')]

/-- At the start of the loop. -/
theorem live_start (E dt : ℚ) (w : W) (p : Particle V) (h0 : p.dt ≠ 0) (hr : p.state ≠ .repeat) (hs : ¬ skips E dt p)
    (hc : JitLoop.cond (⟨w, p, min |p.dt| |E - p.time|, none, []⟩ : JS W V)) :
    Live E dt (⟨w, p, min |p.dt| |E - p.time|, none, []⟩ : JS W V) := by
  have hz : isZero p.dt = false := by
    rw [Bool.eq_false_iff, ne_eq, isZero_iff]; exact h0
  unfold JitLoop.cond at hc
  simp only at hc
  rw [hz] at hc
  unfold skips at hs
  rw [hz] at hs
  simp only [and_true, not_or, not_not, ne_eq, Bool.not_eq_true] at hs
  refine ⟨?_, hs.1, hs.2, le_min (abs_nonneg _) (abs_nonneg _), min_le_right _ _⟩
  rcases hc with h | h | h
  · exact h
  · exact absurd h hr
  · cases h

/-- With all data in memory, executing `p` gives `q`. -/
def Ex (P : Particle V → KOut V) (E dt : ℚ) (n : Nat) (p q : Particle V) : Prop :=
  ∃ u, exec1 (whole P) E dt n () none p = some u ∧ u.p = q

theorem Ex.mono {P : Particle V → KOut V} {E dt : ℚ} {n m : Nat} (hm : n ≤ m) {p q : Particle V} (h : Ex P E dt n p q) :
    Ex P E dt m p q := by
  obtain ⟨u, h1, h2⟩ := h
  exact ⟨u, exec1_mono _ _ _ n m hm _ _ _ _ h1, h2⟩

theorem Ex.det {P : Particle V → KOut V} {E dt : ℚ} {n m : Nat} {p q q' : Particle V} (h : Ex P E dt n p q)
    (h' : Ex P E dt m p q') : q = q' := by
  obtain ⟨u, h1, h2⟩ := h.mono (le_max_left n m)
  obtain ⟨u', h1', h2'⟩ := h'.mono (le_max_right n m)
  rw [h1] at h1'
  rw [← h2, ← h2', Option.some.inj h1']

theorem exec1_forth {K : Kern W V} {P : Particle V → KOut V} {I pend : W → Prop} {μ : W → Nat} (hA : Answers K P I pend μ)
    (hP : Tame P) (E dt : ℚ) (n : Nat) (w : W) (hI : I w) (p q : Particle V) (h0 : p.dt ≠ 0) (hr : p.state ≠ .repeat)
    (h : Ex P E dt n p q) :
    ∃ s, exec1 K E dt n w none p = some s ∧ I s.w ∧ (pend w → pend s.w) ∧ μ s.w ≤ μ w ∧ s.nextDt = none ∧ s.p.dt ≠ 0 ∧
      (s.p = q ∨ Waits pend s ∧ Ex P E dt n { s.p with state := .evaluate } q) := by
  obtain ⟨u, hu, rfl⟩ := h
  unfold exec1 at hu ⊢
  simp only at hu ⊢
  by_cases hs : skips E dt p
  · rw [if_pos hs] at hu ⊢
    obtain rfl := Option.some.inj hu
    refine ⟨_, rfl, hI, id, le_refl _, rfl, ?_, .inl rfl⟩
    simp only
    split <;> exact h0
  · rw [if_neg hs] at hu ⊢
    exact loop_forth hA hP E dt n _ _ u ⟨rfl, rfl, rfl⟩ hI rfl h0 (live_start E dt w p h0 hr hs) hu

theorem exec1_back {K : Kern W V} {P : Particle V → KOut V} {I pend : W → Prop} {μ : W → Nat} (hA : Answers K P I pend μ)
    (hP : Tame P) (E dt : ℚ) (n : Nat) (w : W) (hI : I w) (p : Particle V) (h0 : p.dt ≠ 0) (hr : p.state ≠ .repeat) (s : JS W V)
    (h : exec1 K E dt n w none p = some s) : I s.w ∧ s.nextDt = none ∧ s.p.dt ≠ 0 ∧
      ((∃ m, Ex P E dt m p s.p) ∨
        s.p.state = .repeat ∧ ∀ m q, Ex P E dt m { s.p with state := .evaluate } q → ∃ m', Ex P E dt m' p q) := by
  unfold exec1 at h
  simp only at h
  by_cases hs : skips E dt p
  · rw [if_pos hs] at h
    obtain rfl := Option.some.inj h
    refine ⟨hI, rfl, ?_, .inl ⟨0, ?_⟩⟩
    · simp only
      split <;> exact h0
    · unfold Ex exec1
      simp only
      rw [if_pos hs]
      exact ⟨_, rfl, rfl⟩
  · rw [if_neg hs] at h
    have hex : ∀ m t', loop (whole P) E dt m ⟨(), p, min |p.dt| |E - p.time|, none, []⟩ = some t' → Ex P E dt m p t'.p := by
      intro m t' ht
      refine ⟨t', ?_, rfl⟩
      unfold exec1
      simp only
      rw [if_neg hs]
      exact ht
    obtain ⟨e1, e2, e3, e4⟩ := loop_back hA hP E dt n _ s ⟨(), p, min |p.dt| |E - p.time|, none, []⟩ ⟨rfl, rfl, rfl⟩ hI rfl h0
      (live_start E dt w p h0 hr hs) h
    refine ⟨e1, e2, e3, ?_⟩
    rcases e4 with ⟨m, t', e5, e6⟩ | ⟨e5, e6⟩
    · exact .inl ⟨m, e6 ▸ hex m t' e5⟩
    · refine .inr ⟨e5, fun m q hq => ?_⟩
      obtain ⟨u, hu, rfl⟩ := hq
      obtain ⟨m', t', e7, e8⟩ := e6 m u hu
      exact ⟨m', e8 ▸ hex m' t' e7⟩

theorem loop_not_evaluate {P : Particle V → KOut V} (hP : Tame P) (E dt : ℚ) : ∀ (n : Nat) (t t' : JS Unit V), t.nextDt = none →
    t.p.dt ≠ 0 → (JitLoop.cond t → Live E dt t) → loop (whole P) E dt n t = some t' → t'.p.state ≠ .evaluate ∧ t'.p.dt ≠ 0
  | 0, _, _, _, _, _, h => by cases h
  | n + 1, t, t', hn, h0, hl, h => by
    unfold loop at h
    by_cases hcond : JitLoop.cond t
    · rw [if_pos hcond] at h
      have hlv := step_live P hP E dt t (whole P) (hl hcond) hn rfl
      rcases hp : step (whole P) E dt t with ⟨t1, b1⟩
      rw [hp] at hlv h
      simp only at hlv
      cases b1 with
      | true =>
        obtain rfl := Option.some.inj h
        rcases hlv with h | h
        · exact ⟨h.2.2.2, h.1⟩
        · cases h.2.2.1
      | false =>
        refine loop_not_evaluate hP E dt n t1 t' ?_ ?_ ?_ h
        · rcases hlv with h | h <;> exact h.2.1
        · rcases hlv with h | h <;> exact h.1
        · intro hc1
          rcases hlv with h | h
          · exact h.2.2.1 hc1 rfl
          · exact h.2.2.2
    · rw [if_neg hcond] at h
      obtain rfl := Option.some.inj h
      exact ⟨fun h => hcond (.inl h), h0⟩

/-- A particle without error is left alone by further passes. -/
theorem exec1_stable {P : Particle V → KOut V} (hP : Tame P) (E dt : ℚ) (n : Nat) (p q : Particle V) (h0 : p.dt ≠ 0)
    (hr : p.state ≠ .repeat) (h : Ex P E dt n p q) (hq : q.state = .success ∨ q.state = .evaluate) :
    ∀ m, 1 ≤ m → Ex P E dt m q q := by
  intro m hm
  obtain ⟨m, rfl⟩ : ∃ k, m = k + 1 := ⟨m - 1, by omega⟩
  obtain ⟨u, hu, rfl⟩ := h
  unfold exec1 at hu
  simp only at hu
  by_cases hs : skips E dt p
  · rw [if_pos hs] at hu
    obtain rfl := Option.some.inj hu
    unfold Ex exec1
    simp only
    by_cases ht : |p.time| ≥ |E|
    · have hs' : skips E dt { p with state := .success } := hs
      simp only [if_pos ht, if_pos hs']
      exact ⟨_, rfl, rfl⟩
    · simp only [if_neg ht, if_pos hs]
      exact ⟨_, rfl, rfl⟩
  · rw [if_neg hs] at hu
    obtain ⟨h1, h2⟩ := loop_not_evaluate hP E dt n _ u rfl h0 (live_start E dt () p h0 hr hs) hu
    have hsucc : u.p.state = .success := by
      rcases hq with h | h
      · exact h
      · exact absurd h h1
    unfold Ex exec1
    simp only
    by_cases hs' : skips E dt u.p
    · rw [if_pos hs']
      refine ⟨_, rfl, ?_⟩
      simp only
      split
      · rcases hp : u.p with ⟨a, b, c, d⟩
        rw [hp] at hsucc
        simp only at hsucc ⊢
        rw [hsucc]
      · rfl
    · rw [if_neg hs']
      refine ⟨⟨(), u.p, min |u.p.dt| |E - u.p.time|, none, []⟩, ?_, rfl⟩
      unfold loop
      rw [if_neg]
      unfold JitLoop.cond
      simp only
      rw [hsucc]
      have hz : isZero u.p.dt = false := by
        rw [Bool.eq_false_iff, ne_eq, isZero_iff]; exact h2
      simp [hz]

end Parcels.JitExec
