import Verif.Model.KernelLoop
import Verif.Spec.KernelLoop
import Mathlib.Tactic.Linarith
import Mathlib.Tactic.Ring
import Mathlib.Tactic.NormNum

namespace Parcels

theorem isclose_zero_iff (x : ℚ) : isclose x 0 = true ↔ |x| ≤ 1 / 100000000 := by
  unfold isclose; simp

theorem isclose_self (x : ℚ) : isclose x x = true := by
  unfold isclose
  have : (0:ℚ) ≤ |x| := abs_nonneg x
  simp only [sub_self, abs_zero, decide_eq_true_eq]
  positivity

theorem sgn_pos {x : ℚ} (h : 0 < x) : sgn x = 1 := by simp [sgn, h]
theorem sgn_neg {x : ℚ} (h : x < 0) : sgn x = -1 := by
  have : ¬ (0 < x) := by linarith
  simp [sgn, h, this]
theorem sgn_zero : sgn 0 = 0 := by simp [sgn]

theorem sgn_cases (x : ℚ) : (0 < x ∧ sgn x = 1) ∨ (x < 0 ∧ sgn x = -1) ∨ (x = 0 ∧ sgn x = 0) := by
  rcases lt_trichotomy x 0 with h | h | h
  · exact Or.inr (Or.inl ⟨h, sgn_neg h⟩)
  · exact Or.inr (Or.inr ⟨h, by simp [h, sgn_zero]⟩)
  · exact Or.inl ⟨h, sgn_pos h⟩

theorem sgn_eq_of_ne_zero {x y : ℚ} (hy : y ≠ 0) : sgn x = sgn y ↔ 0 < x * sgn y := by
  rcases sgn_cases x with ⟨hx, e⟩ | ⟨hx, e⟩ | ⟨hx, e⟩ <;>
  rcases sgn_cases y with ⟨hy', e'⟩ | ⟨hy', e'⟩ | ⟨hy', e'⟩ <;> rw [e, e'] <;>
  first
    | exact absurd hy' hy
    | (constructor <;> intro h <;> first | (norm_num at h; done) | (norm_num at h ⊢; done) | (norm_num at h ⊢; linarith))

theorem sgn_mul_self_of_ne {y : ℚ} (hy : y ≠ 0) : sgn y * sgn y = 1 := by
  rcases sgn_cases y with ⟨hy', e'⟩ | ⟨hy', e'⟩ | ⟨hy', e'⟩
  · rw [e']; norm_num
  · rw [e']; norm_num
  · exact absurd hy' hy

/-- With `0 ≤ x * s`, `s = ±1`, the absolute value is `x * s`. -/
theorem abs_eq_mul_sgn {x y : ℚ} (hy : y ≠ 0) (h : 0 ≤ x * sgn y) : |x| = x * sgn y := by
  rcases sgn_cases y with ⟨hy', e'⟩ | ⟨hy', e'⟩ | ⟨hy', e'⟩
  · rw [e'] at h ⊢; rw [abs_of_nonneg (by linarith)]; ring
  · rw [e'] at h ⊢; rw [abs_of_nonpos (by linarith)]; ring
  · exact absurd hy' hy

theorem abs_sgn_mul {y m : ℚ} (hy : y ≠ 0) (hm : 0 ≤ m) : |sgn y * m| = m := by
  rcases sgn_cases y with ⟨hy', e'⟩ | ⟨hy', e'⟩ | ⟨hy', e'⟩
  · rw [e', one_mul, abs_of_nonneg hm]
  · rw [e', neg_one_mul, abs_neg, abs_of_nonneg hm]
  · exact absurd hy' hy

namespace KernelLoop

variable {W V : Type}

/-- Rule of invariants for the `while` loop: `I` holds at every loop head, `J` at the exit. -/
theorem loop_inv (K : Kern W V) (E dt : ℚ) (I J : LS W V → Prop)
    (hbrk : ∀ s, I s → cond dt s → (step K E dt s).2 = true → J (step K E dt s).1)
    (hcont : ∀ s, I s → cond dt s → (step K E dt s).2 = false → I (step K E dt s).1)
    (hend : ∀ s, I s → ¬ cond dt s → J s) :
    ∀ n s s', loop K E dt n s = some s' → I s → J s' := by
  intro n
  induction n with
  | zero => intro s s' h; simp [loop] at h
  | succ n ih =>
    intro s s' h hI
    rw [loop] at h
    split at h
    · rename_i hc
      split at h
      · rename_i s'' heq
        have e := hbrk s hI hc (by rw [heq])
        rw [heq] at e
        cases h; exact e
      · rename_i s'' heq
        have e := hcont s hI hc (by rw [heq])
        rw [heq] at e
        exact ih _ _ h e
    · rename_i hc
      cases h; exact hend s hI hc

/-- Every result of a pass is the result of the loop body on that particle, from some world and
some content of the backup dictionary. -/
theorem pass_forall₂ (K : Kern W V) (E dt : ℚ) (fuel : Nat) (R : Particle V → Particle V × List (Call V) → Prop)
    (hR : ∀ w back p s, exec1 K E dt fuel w back p = some s → R p (s.p, s.trace)) :
    ∀ ps w back w' back' rs, pass K E dt fuel w back ps = some (w', back', rs) →
      List.Forall₂ R ps rs := by
  intro ps
  induction ps with
  | nil => intro w back w' back' rs h; simp [pass] at h; rw [h.2.2]; exact List.Forall₂.nil
  | cons p ps ih =>
    intro w back w' back' rs h
    rw [pass] at h
    split at h
    · cases h
    · rename_i s hs
      split at h
      · cases h
      · rename_i w2 b2 rs2 h2
        cases h
        exact List.Forall₂.cons (hR _ _ _ _ hs) (ih _ _ _ _ _ h2)

theorem resolve_commit {p : Particle V} {out : KOut V}
    (h : out.p.dt = p.dt ∨ (isclose out.p.dt p.dt = false ∧ out.res ≠ .ret (some .delete) ∧
        out.p.state ≠ .delete))
    (hr : resolve p out = .success ∨ resolve p out = .delete) : out.p.dt = p.dt := by
  rcases h with h | ⟨h1, h2, h3⟩
  · exact h
  · exfalso
    unfold resolve at hr
    split at hr
    · rename_i e _; cases e <;> simp [Exc.code] at hr
    · rename_i c hc
      rcases c with _ | c
      · by_cases hs : out.p.state = p.state <;> simp [hs, h1] at hr
        · by_cases h4 : out.p.state = .success
          · simp [h4] at hr
          · simp [h4] at hr; exact h3 hr
      · by_cases hs : out.p.state = p.state
        · by_cases hc' : c = .success
          · simp [hs, h1, hc'] at hr
          · simp [hs, hc'] at hr
            rw [hr] at hc; exact h2 hc
        · by_cases hc' : c = .success
          · by_cases h4 : out.p.state = .success
            · simp [h1, hc', h4] at hr
            · simp [hs, hc', h4] at hr; exact h3 hr
          · simp [hc'] at hr
            rw [hr] at hc; exact h2 hc

/-- Loop-exit facts behind C01. -/
structure ClockOut (E dt : ℚ) (p0 : Particle V) (s : LS W V) : Prop where
  le : 0 ≤ (s.p.time - p0.time) * sgn dt
  le' : 0 ≤ (E - s.p.time) * sgn dt
  calls : ∀ c ∈ s.trace, NotBefore dt p0.time c.before.time ∧ NotBefore dt c.before.time E ∧
    0 < c.before.dt * sgn dt ∧ |c.before.dt| ≤ |E - c.before.time|

/-- Loop invariant behind C01. -/
structure ClockInv (E dt : ℚ) (p0 : Particle V) (s : LS W V) : Prop extends ClockOut E dt p0 s where
  nonneg : 0 ≤ s.dtPos
  bound : s.dtPos ≤ |E - s.p.time|
  nd : s.nextDt = none
  live : s.p.state = .evaluate ∨ s.p.state = .repeat → 1 / 100000000 < s.dtPos

/-- The particle as the kernel sees it in the next turn. -/
def preAt (dt : ℚ) (s : LS W V) : Particle V := { s.p with dt := sgn dt * s.dtPos }
/-- What the kernel does in the next turn. -/
def outAt (K : Kern W V) (dt : ℚ) (s : LS W V) : KOut V := (K s.w (preAt dt s)).2
/-- The code of the next turn. -/
def codeAt (K : Kern W V) (dt : ℚ) (s : LS W V) : Code := resolve (preAt dt s) (outAt K dt s)

/-- What one turn of the loop does when the call succeeds. -/
theorem step_commit (K : Kern W V) (E dt : ℚ) (s : LS W V)
    (h : codeAt K dt s = .success ∨ codeAt K dt s = .delete)
    {o : KOut V} (ho : outAt K dt s = o)
    {time' dt' dtPos : ℚ} {st : Code}
    (ht : time' = o.p.time + o.p.dt)
    (hd : dt' = (o.nextDt.orElse (fun _ => s.nextDt)).getD o.p.dt)
    (hp : dtPos = min |dt'| |E - time'|)
    (hs : st = if codeAt K dt s ≠ .delete ∧ ¬ isclose dtPos 0 ∧ sgn (E - time') = sgn dt
          then .evaluate else codeAt K dt s) :
    step K E dt s = ({
      w := (K s.w (preAt dt s)).1,
      p := { o.p with time := time', dt := dt', state := st },
      dtPos := if sgn (E - time') ≠ sgn dt then 0 else dtPos, nextDt := none, back := some s.p,
      trace := s.trace ++ [⟨preAt dt s, codeAt K dt s, o.p⟩] }, isclose dt 0) := by
  subst ho ht hd hp hs
  unfold step
  simp only []
  exact if_pos h

/-- What one turn of the loop does when the call does not succeed. -/
theorem step_fail (K : Kern W V) (E dt : ℚ) (s : LS W V)
    (h : ¬ (codeAt K dt s = .success ∨ codeAt K dt s = .delete)) :
    (step K E dt s).2 = true ∧
    (step K E dt s).1.w = (K s.w (preAt dt s)).1 ∧
    (step K E dt s).1.back = some s.p ∧
    (step K E dt s).1.nextDt = s.nextDt ∧
    (step K E dt s).1.trace = s.trace ++ [⟨preAt dt s, codeAt K dt s, (outAt K dt s).p⟩] ∧
    (step K E dt s).1.p =
      { (outAt K dt s).p with state := codeAt K dt s, time := s.p.time, vars := s.p.vars } := by
  unfold step
  simp only []
  have h' := h
  simp only [codeAt, outAt, preAt] at h'
  rw [if_neg h']
  exact ⟨rfl, rfl, rfl, rfl, rfl, rfl⟩

theorem clock_commit (K : Kern W V) (hK : RespectsClock K) (E dt : ℚ) (hdt : dt ≠ 0)
    (p0 : Particle V) (s : LS W V) (hI : ClockInv E dt p0 s)
    (hl : s.p.state = .evaluate ∨ s.p.state = .repeat)
    (h : codeAt K dt s = .success ∨ codeAt K dt s = .delete) :
    ClockInv E dt p0 (step K E dt s).1 := by
  have hb := hI.bound
  have hpos := hI.live hl
  have hss := sgn_mul_self_of_ne hdt
  rw [abs_eq_mul_sgn hdt hI.le'] at hb
  have hd : (outAt K dt s).p.dt = sgn dt * s.dtPos := resolve_commit (hK s.w (preAt dt s)).2 h
  have ht : (outAt K dt s).p.time = s.p.time := (hK s.w (preAt dt s)).1
  rw [step_commit K E dt s h rfl rfl rfl rfl rfl]
  have hle : 0 ≤ (s.p.time + sgn dt * s.dtPos - p0.time) * sgn dt := by
    have := hI.le
    have : (s.p.time + sgn dt * s.dtPos - p0.time) * sgn dt
      = (s.p.time - p0.time) * sgn dt + (sgn dt * sgn dt) * s.dtPos := by ring
    rw [this, hss]; linarith [hI.nonneg]
  have hle' : 0 ≤ (E - (s.p.time + sgn dt * s.dtPos)) * sgn dt := by
    have : (E - (s.p.time + sgn dt * s.dtPos)) * sgn dt
      = (E - s.p.time) * sgn dt - (sgn dt * sgn dt) * s.dtPos := by ring
    rw [this, hss]; linarith
  refine ⟨⟨?_, ?_, ?_⟩, ?_, ?_, rfl, ?_⟩
  · simp only []; rw [ht, hd]; exact hle
  · simp only []; rw [ht, hd]; exact hle'
  · intro c hc
    simp only [List.mem_append, List.mem_singleton] at hc
    rcases hc with hc | hc
    · exact hI.calls c hc
    · subst hc
      refine ⟨hI.le, hI.le', ?_, ?_⟩
      · simp only [preAt]
        have : sgn dt * s.dtPos * sgn dt = (sgn dt * sgn dt) * s.dtPos := by ring
        rw [this, hss]; linarith
      · simp only [preAt]
        rw [abs_sgn_mul hdt hI.nonneg]; exact hI.bound
  · simp only []
    split
    · exact le_refl _
    · exact le_min (abs_nonneg _) (abs_nonneg _)
  · simp only []
    split
    · exact abs_nonneg _
    · exact min_le_right _ _
  · simp only []
    intro hlive
    by_cases h1 : codeAt K dt s ≠ .delete ∧
        ¬ isclose (min |((outAt K dt s).nextDt.orElse (fun _ => s.nextDt)).getD (outAt K dt s).p.dt|
          |E - ((outAt K dt s).p.time + (outAt K dt s).p.dt)|) 0 ∧
        sgn (E - ((outAt K dt s).p.time + (outAt K dt s).p.dt)) = sgn dt
    · rw [if_neg (not_not.mpr h1.2.2)]
      have := h1.2.1
      rw [isclose_zero_iff, not_le] at this
      rwa [abs_of_nonneg (le_min (abs_nonneg _) (abs_nonneg _))] at this
    · rw [if_neg h1] at hlive
      rcases h with h | h <;> rw [h] at hlive <;> simp at hlive

theorem clock_fail (K : Kern W V) (E dt : ℚ) (hdt : dt ≠ 0)
    (p0 : Particle V) (s : LS W V) (hI : ClockInv E dt p0 s)
    (hl : s.p.state = .evaluate ∨ s.p.state = .repeat)
    (h : ¬ (codeAt K dt s = .success ∨ codeAt K dt s = .delete)) :
    ClockOut E dt p0 (step K E dt s).1 := by
  have hpos := hI.live hl
  have hss := sgn_mul_self_of_ne hdt
  obtain ⟨_, _, _, _, h5, h6⟩ := step_fail K E dt s h
  refine ⟨?_, ?_, ?_⟩
  · rw [h6]; exact hI.le
  · rw [h6]; exact hI.le'
  · intro c hc
    rw [h5] at hc
    simp only [List.mem_append, List.mem_singleton] at hc
    rcases hc with hc | hc
    · exact hI.calls c hc
    · subst hc
      refine ⟨hI.le, hI.le', ?_, ?_⟩
      · simp only [preAt]
        have : sgn dt * s.dtPos * sgn dt = (sgn dt * sgn dt) * s.dtPos := by ring
        rw [this, hss]; linarith
      · simp only [preAt]
        rw [abs_sgn_mul hdt hI.nonneg]; exact hI.bound

theorem isclose_false_ne {dt : ℚ} (h : isclose dt 0 = false) : dt ≠ 0 := by
  intro e; subst e
  have := isclose_self 0
  rw [h] at this; cases this

theorem clock_init (E dt : ℚ) (p : Particle V) (w : W) (back : Option (Particle V))
    (hns : ¬ skips E dt p) (hdt : isclose dt 0 = false) (hahead : NotBefore dt p.time E) :
    ClockInv E dt p { w := w, p := p, dtPos := min |p.dt| |E - p.time|, nextDt := none,
                      back := back, trace := [] } := by
  refine ⟨⟨by simp, hahead, by simp⟩, le_min (abs_nonneg _) (abs_nonneg _), min_le_right _ _, rfl, ?_⟩
  intro _
  unfold skips at hns
  have h1 : isclose (min |p.dt| |E - p.time|) 0 = false := by
    by_contra hc
    exact hns ⟨Or.inr (by simpa using hc), hdt⟩
  simp only []
  by_contra hc
  have h2 : isclose (min |p.dt| |E - p.time|) 0 = true := by
    rw [isclose_zero_iff, abs_of_nonneg (le_min (abs_nonneg _) (abs_nonneg _))]
    exact not_lt.mp hc
  rw [h1] at h2; cases h2

theorem clock_cond {dt : ℚ} (hdt : isclose dt 0 = false) {s : LS W V} (hc : cond dt s) :
    s.p.state = .evaluate ∨ s.p.state = .repeat := by
  unfold cond at hc
  rw [hdt] at hc
  rcases hc with h | h | h
  · exact Or.inl h
  · exact Or.inr h
  · cases h

theorem exec1_clock (K : Kern W V) (hK : RespectsClock K) (E dt : ℚ) (hdt : isclose dt 0 = false)
    (fuel : Nat) (w : W) (back : Option (Particle V)) (p : Particle V) (s : LS W V)
    (h : exec1 K E dt fuel w back p = some s) (hahead : NotBefore dt p.time E) :
    ClockOut E dt p s := by
  have hne := isclose_false_ne hdt
  unfold exec1 at h
  simp only [] at h
  split at h
  · cases h
    refine ⟨?_, ?_, by simp⟩
    · simp only []; split <;> simp
    · simp only []; split <;> exact hahead
  · rename_i hns
    refine loop_inv K E dt (ClockInv E dt p) (ClockOut E dt p) ?_ ?_ ?_ fuel _ s h
      (clock_init E dt p w back hns hdt hahead)
    · intro s hI hc _
      by_cases hr : (codeAt K dt s = .success ∨ codeAt K dt s = .delete)
      · exact (clock_commit K hK E dt hne p s hI (clock_cond hdt hc) hr).toClockOut
      · exact clock_fail K E dt hne p s hI (clock_cond hdt hc) hr
    · intro s hI hc hb
      by_cases hr : (codeAt K dt s = .success ∨ codeAt K dt s = .delete)
      · exact clock_commit K hK E dt hne p s hI (clock_cond hdt hc) hr
      · rw [(step_fail K E dt s hr).1] at hb; cases hb
    · intro s hI _
      exact hI.toClockOut


end KernelLoop
end Parcels
