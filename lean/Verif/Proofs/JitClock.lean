import Verif.Proofs.JitLoop
import Verif.Proofs.KernelLoop2

/-!
Helper lemmas: the clock of a particle in the loop of the generated C code.
-/

namespace Parcels.JitLoop

open KernelLoop

variable {W V : Type}

theorem isCloseC_zero_iff (x : ℚ) : isCloseC x 0 = true ↔ |x| ≤ 1 / 100000000 := isclose_zero_iff x

/-- Rule of invariants for the `while` loop. -/
theorem jloop_inv (K : Kern W V) (E dt : ℚ) (I J : JS W V → Prop)
    (hbrk : ∀ s, I s → cond s → (step K E dt s).2 = true → J (step K E dt s).1)
    (hcont : ∀ s, I s → cond s → (step K E dt s).2 = false → I (step K E dt s).1)
    (hend : ∀ s, I s → ¬ cond s → J s) :
    ∀ n s s', loop K E dt n s = some s' → I s → J s' := by
  intro n
  induction n with
  | zero => intro s s' h; simp [loop] at h
  | succ n ih =>
    intro s s' h hI
    rw [loop] at h
    split at h
    · rename_i hc
      split at h
      · rename_i s'' heq
        have e := hbrk s hI hc (by rw [heq])
        rw [heq] at e
        cases h; exact e
      · rename_i s'' heq
        have e := hcont s hI hc (by rw [heq])
        rw [heq] at e
        exact ih _ _ h e
    · rename_i hc
      cases h; exact hend s hI hc

/-- Every result of a pass is the result of the loop body on that particle. `G` is a property of the globals. -/
theorem jpass_forall₂ (K : Kern W V) (E dt : ℚ) (fuel : Nat) (G : Option ℚ → Prop) (R : Particle V → Particle V × List (Call V) → Prop)
    (hR : ∀ w g p s, G g → exec1 K E dt fuel w g p = some s → R p (s.p, s.trace) ∧ G s.nextDt) :
    ∀ ps w g w' g' rs, G g → pass K E dt fuel w g ps = some (w', g', rs) → List.Forall₂ R ps rs := by
  intro ps
  induction ps with
  | nil => intro w g w' g' rs _ h; simp [pass] at h; rw [h.2.2]; exact List.Forall₂.nil
  | cons p ps ih =>
    intro w g w' g' rs hG h
    rw [pass] at h
    split at h
    · cases h
    · rename_i s hs
      split at h
      · cases h
      · rename_i w2 b2 rs2 h2
        cases h
        have := hR _ _ _ _ hG hs
        exact List.Forall₂.cons this.1 (ih _ _ _ _ _ this.2 h2)

/-- The particle as the kernel sees it in the next turn. -/
def preAt (dt : ℚ) (s : JS W V) : Particle V := { s.p with dt := s.dtPos * csgn dt }
/-- What the kernel does in the next turn. -/
def outAt (K : Kern W V) (dt : ℚ) (s : JS W V) : KOut V := (K s.w (preAt dt s)).2
/-- The code of the next turn. -/
def codeAt (K : Kern W V) (dt : ℚ) (s : JS W V) : Code := resolve (preAt dt s) (outAt K dt s)
/-- The globals after the call. -/
def nextAt (K : Kern W V) (dt : ℚ) (s : JS W V) : Option ℚ := (outAt K dt s).nextDt.orElse fun _ => s.nextDt

theorem jstep_commit (K : Kern W V) (E dt : ℚ) (s : JS W V)
    (h : codeAt K dt s = .success ∨ codeAt K dt s = .delete)
    {o : KOut V} (ho : outAt K dt s = o)
    {time' dt' dtPos : ℚ} {st : Code}
    (ht : time' = o.p.time + o.p.dt)
    (hd : dt' = (nextAt K dt s).getD o.p.dt)
    (hp : dtPos = min |dt'| |E - time'|)
    (hs : st = if codeAt K dt s ≠ .delete ∧ ¬ isCloseC dtPos 0 ∧ csgn dt = csgn (E - time')
          then .evaluate else codeAt K dt s) :
    step K E dt s = ({
      w := (K s.w (preAt dt s)).1,
      p := { o.p with time := time', dt := dt', state := st },
      dtPos := if csgn dt ≠ csgn (E - time') then 0 else dtPos, nextDt := none,
      trace := s.trace ++ [⟨preAt dt s, codeAt K dt s, o.p⟩] }, isZero dt') := by
  subst ho ht hd hp hs
  unfold step
  simp only []
  exact if_pos h

theorem jstep_fail (K : Kern W V) (E dt : ℚ) (s : JS W V)
    (h : ¬ (codeAt K dt s = .success ∨ codeAt K dt s = .delete)) :
    (step K E dt s).2 = true ∧
    (step K E dt s).1.nextDt = nextAt K dt s ∧
    (step K E dt s).1.trace = s.trace ++ [⟨preAt dt s, codeAt K dt s, (outAt K dt s).p⟩] ∧
    (step K E dt s).1.p =
      { (outAt K dt s).p with state := codeAt K dt s, time := s.p.time, vars := s.p.vars } := by
  unfold step
  simp only []
  have h' := h
  simp only [codeAt, outAt, preAt] at h'
  rw [if_neg h']
  exact ⟨rfl, rfl, rfl, rfl⟩

theorem jresolve_commit {p : Particle V} {out : KOut V}
    (h : out.p.dt = p.dt ∨ (isclose out.p.dt p.dt = false ∧ out.res ≠ .ret (some .delete) ∧
        out.p.state ≠ .delete))
    (hr : resolve p out = .success ∨ resolve p out = .delete) : out.p.dt = p.dt := by
  rcases h with h | ⟨h1, h2, h3⟩
  · exact h
  · exfalso
    have h1' : isEqual p.dt out.p.dt = false := isEqual_of_not_close h1
    unfold resolve code at hr
    rcases hres : out.res with c | e
    · rw [hres] at h2
      rcases c with _ | c
      · by_cases hs : out.p.state = p.state
        · simp [hres, hs, h1'] at hr
        · by_cases h4 : out.p.state = .success
          · simp [hres, h1', h4] at hr
          · simp [hres, hs, h4] at hr; exact h3 hr
      · have h2' : c ≠ .delete := fun e => h2 (by rw [e])
        by_cases hc' : c = .success
        · by_cases hs : out.p.state = p.state
          · simp [hres, hs, h1', hc'] at hr
          · by_cases h4 : out.p.state = .success
            · simp [hres, h1', hc', h4] at hr
            · simp [hres, hs, hc', h4] at hr; exact h3 hr
        · simp [hres, hc', h2'] at hr
    · cases e <;> simp [hres, Exc.code] at hr

/-- Loop-exit facts behind C01 in JIT mode. -/
structure JClockOut (E dt : ℚ) (p0 : Particle V) (s : JS W V) : Prop where
  le : 0 ≤ (s.p.time - p0.time) * sgn dt
  le' : 0 ≤ (E - s.p.time) * sgn dt
  calls : ∀ c ∈ s.trace, NotBefore dt p0.time c.before.time ∧ NotBefore dt c.before.time E ∧
    0 < c.before.dt * sgn dt ∧ |c.before.dt| ≤ |E - c.before.time|

/-- Loop invariant behind C01 in JIT mode. -/
structure JClockInv (E dt : ℚ) (p0 : Particle V) (s : JS W V) : Prop extends JClockOut E dt p0 s where
  nonneg : 0 ≤ s.dtPos
  bound : s.dtPos ≤ |E - s.p.time|
  nz : s.p.dt ≠ 0
  live : s.p.state = .evaluate ∨ s.p.state = .repeat → 1 / 100000000 < s.dtPos

theorem jcond {s : JS W V} (hnz : s.p.dt ≠ 0) (hc : cond s) : s.p.state = .evaluate ∨ s.p.state = .repeat := by
  rcases hc with h | h | h
  · exact Or.inl h
  · exact Or.inr h
  · exact absurd ((isZero_iff _).mp h) hnz

/-- What the calls record in one more turn. -/
theorem jcalls_snoc (K : Kern W V) (E dt : ℚ) (hdt : dt ≠ 0) (p0 : Particle V) (s : JS W V) (hI : JClockInv E dt p0 s)
    (hl : s.p.state = .evaluate ∨ s.p.state = .repeat) (q : Particle V) (c : Call V)
    (hc : c ∈ s.trace ++ [⟨preAt dt s, codeAt K dt s, q⟩]) :
    NotBefore dt p0.time c.before.time ∧ NotBefore dt c.before.time E ∧
    0 < c.before.dt * sgn dt ∧ |c.before.dt| ≤ |E - c.before.time| := by
  have hpos := hI.live hl
  have hss := sgn_mul_self_of_ne hdt
  simp only [List.mem_append, List.mem_singleton] at hc
  rcases hc with hc | hc
  · exact hI.calls c hc
  · subst hc
    refine ⟨hI.le, hI.le', ?_, ?_⟩
    · simp only [preAt]
      rw [csgn_sgn hdt, mul_assoc, hss]; linarith
    · simp only [preAt]
      rw [csgn_sgn hdt, mul_comm, abs_sgn_mul hdt hI.nonneg]; exact hI.bound

theorem jclock_commit (K : Kern W V) (hK : RespectsClock K) (E dt : ℚ) (hdt : dt ≠ 0)
    (p0 : Particle V) (s : JS W V) (hI : JClockInv E dt p0 s)
    (hl : s.p.state = .evaluate ∨ s.p.state = .repeat)
    (h : codeAt K dt s = .success ∨ codeAt K dt s = .delete) :
    JClockOut E dt p0 (step K E dt s).1 ∧ ((step K E dt s).2 = false → JClockInv E dt p0 (step K E dt s).1) := by
  have hb := hI.bound
  have hpos := hI.live hl
  have hss := sgn_mul_self_of_ne hdt
  rw [abs_eq_mul_sgn hdt hI.le'] at hb
  have hd : (outAt K dt s).p.dt = s.dtPos * sgn dt := by
    have := jresolve_commit (hK s.w (preAt dt s)).2 h
    exact this.trans (by simp only [preAt]; rw [csgn_sgn hdt])
  have ht : (outAt K dt s).p.time = s.p.time := (hK s.w (preAt dt s)).1
  rw [jstep_commit K E dt s h rfl rfl rfl rfl rfl]
  have hle : 0 ≤ (s.p.time + s.dtPos * sgn dt - p0.time) * sgn dt := by
    have := hI.le
    have : (s.p.time + s.dtPos * sgn dt - p0.time) * sgn dt
      = (s.p.time - p0.time) * sgn dt + (sgn dt * sgn dt) * s.dtPos := by ring
    rw [this, hss]; linarith [hI.nonneg]
  have hle' : 0 ≤ (E - (s.p.time + s.dtPos * sgn dt)) * sgn dt := by
    have : (E - (s.p.time + s.dtPos * sgn dt)) * sgn dt
      = (E - s.p.time) * sgn dt - (sgn dt * sgn dt) * s.dtPos := by ring
    rw [this, hss]; linarith
  have hout : JClockOut E dt p0 (⟨(K s.w (preAt dt s)).1,
      { (outAt K dt s).p with
          time := (outAt K dt s).p.time + (outAt K dt s).p.dt,
          dt := (nextAt K dt s).getD (outAt K dt s).p.dt,
          state := if codeAt K dt s ≠ .delete ∧ ¬ isCloseC (min |(nextAt K dt s).getD (outAt K dt s).p.dt|
            |E - ((outAt K dt s).p.time + (outAt K dt s).p.dt)|) 0 ∧
            csgn dt = csgn (E - ((outAt K dt s).p.time + (outAt K dt s).p.dt)) then .evaluate else codeAt K dt s },
      if csgn dt ≠ csgn (E - ((outAt K dt s).p.time + (outAt K dt s).p.dt)) then 0
      else min |(nextAt K dt s).getD (outAt K dt s).p.dt| |E - ((outAt K dt s).p.time + (outAt K dt s).p.dt)|,
      none, s.trace ++ [⟨preAt dt s, codeAt K dt s, (outAt K dt s).p⟩]⟩ : JS W V) := by
    refine ⟨?_, ?_, ?_⟩
    · simp only []; rw [ht, hd]; exact hle
    · simp only []; rw [ht, hd]; exact hle'
    · intro c hc; exact jcalls_snoc K E dt hdt p0 s hI hl _ c hc
  refine ⟨hout, fun hz => ⟨hout, ?_, ?_, ?_, ?_⟩⟩
  · simp only []
    split
    · exact le_refl _
    · exact le_min (abs_nonneg _) (abs_nonneg _)
  · simp only []
    split
    · exact abs_nonneg _
    · exact min_le_right _ _
  · intro e
    simp only [] at hz e
    rw [(isZero_iff _).mpr e] at hz; cases hz
  · simp only []
    intro hlive
    by_cases h1 : codeAt K dt s ≠ .delete ∧
        ¬ isCloseC (min |(nextAt K dt s).getD (outAt K dt s).p.dt|
          |E - ((outAt K dt s).p.time + (outAt K dt s).p.dt)|) 0 ∧
        csgn dt = csgn (E - ((outAt K dt s).p.time + (outAt K dt s).p.dt))
    · rw [if_neg (not_not.mpr h1.2.2)]
      have := h1.2.1
      rw [isCloseC_zero_iff, not_le] at this
      rwa [abs_of_nonneg (le_min (abs_nonneg _) (abs_nonneg _))] at this
    · rw [if_neg h1] at hlive
      rcases h with h | h <;> rw [h] at hlive <;> simp at hlive

theorem jclock_fail (K : Kern W V) (E dt : ℚ) (hdt : dt ≠ 0)
    (p0 : Particle V) (s : JS W V) (hI : JClockInv E dt p0 s)
    (hl : s.p.state = .evaluate ∨ s.p.state = .repeat)
    (h : ¬ (codeAt K dt s = .success ∨ codeAt K dt s = .delete)) :
    JClockOut E dt p0 (step K E dt s).1 := by
  obtain ⟨_, _, h5, h6⟩ := jstep_fail K E dt s h
  refine ⟨?_, ?_, ?_⟩
  · rw [h6]; exact hI.le
  · rw [h6]; exact hI.le'
  · intro c hc
    rw [h5] at hc
    exact jcalls_snoc K E dt hdt p0 s hI hl _ c hc

theorem jclock_init (E dt : ℚ) (p : Particle V) (w : W) (g : Option ℚ) (hns : ¬ skips E dt p) (hnz : p.dt ≠ 0)
    (hahead : NotBefore dt p.time E) :
    JClockInv E dt p ⟨w, p, min |p.dt| |E - p.time|, g, []⟩ := by
  refine ⟨⟨by simp, hahead, by simp⟩, le_min (abs_nonneg _) (abs_nonneg _), min_le_right _ _, hnz, ?_⟩
  intro _
  have hz : isZero p.dt = false := by
    by_contra hc
    exact hnz ((isZero_iff _).mp (by simpa using hc))
  simp only []
  by_contra hc
  refine hns ⟨Or.inr ?_, hz⟩
  rw [isCloseC_zero_iff, abs_of_nonneg (le_min (abs_nonneg _) (abs_nonneg _))]
  exact not_lt.mp hc

theorem jexec1_clock (K : Kern W V) (hK : RespectsClock K) (E dt : ℚ) (hdt : dt ≠ 0)
    (fuel : Nat) (w : W) (g : Option ℚ) (p : Particle V) (s : JS W V)
    (h : exec1 K E dt fuel w g p = some s) (hnz : p.dt ≠ 0) (hahead : NotBefore dt p.time E) :
    JClockOut E dt p s := by
  unfold exec1 at h
  simp only [] at h
  split at h
  · cases h
    refine ⟨?_, ?_, by simp⟩
    · simp only []; split <;> simp
    · simp only []; split <;> exact hahead
  · rename_i hns
    refine jloop_inv K E dt (JClockInv E dt p) (JClockOut E dt p) ?_ ?_ ?_ fuel _ s h
      (jclock_init E dt p w g hns hnz hahead)
    · intro s hI hc _
      by_cases hr : (codeAt K dt s = .success ∨ codeAt K dt s = .delete)
      · exact (jclock_commit K hK E dt hdt p s hI (jcond hI.nz hc) hr).1
      · exact jclock_fail K E dt hdt p s hI (jcond hI.nz hc) hr
    · intro s hI hc hb
      by_cases hr : (codeAt K dt s = .success ∨ codeAt K dt s = .delete)
      · exact (jclock_commit K hK E dt hdt p s hI (jcond hI.nz hc) hr).2 hb
      · rw [(jstep_fail K E dt s hr).1] at hb; cases hb
    · intro s hI _
      exact hI.toJClockOut

/-! ### Success means arrival -/

/-- A step asked for is longer than the tolerance. -/
def Real (g : Option ℚ) : Prop := ∀ x, g = some x → 1 / 100000000 < |x|

theorem nextAt_real (K : Kern W V) (hN : RequestsRealSteps K) (dt : ℚ) (s : JS W V) (h : Real s.nextDt) : Real (nextAt K dt s) := by
  intro x hx
  unfold nextAt at hx
  rcases ho : (outAt K dt s).nextDt with _ | y
  · rw [ho] at hx; exact h x hx
  · rw [ho] at hx
    simp only [Option.orElse_some, Option.some.injEq] at hx
    subst hx
    exact hN s.w (preAt dt s) y ho

theorem jstep_real (K : Kern W V) (hN : RequestsRealSteps K) (E dt : ℚ) (s : JS W V) (h : Real s.nextDt) :
    Real (step K E dt s).1.nextDt := by
  by_cases hr : (codeAt K dt s = .success ∨ codeAt K dt s = .delete)
  · rw [jstep_commit K E dt s hr rfl rfl rfl rfl rfl]; intro x hx; cases hx
  · rw [(jstep_fail K E dt s hr).2.1]; exact nextAt_real K hN dt s h

theorem jexec1_real (K : Kern W V) (hN : RequestsRealSteps K) (E dt : ℚ) (fuel : Nat) (w : W) (g : Option ℚ) (p : Particle V)
    (s : JS W V) (h : exec1 K E dt fuel w g p = some s) (hg : Real g) : Real s.nextDt := by
  unfold exec1 at h
  simp only [] at h
  split at h
  · cases h; exact hg
  · exact jloop_inv K E dt (fun s => Real s.nextDt) (fun s => Real s.nextDt)
      (fun s hI _ _ => jstep_real K hN E dt s hI) (fun s hI _ _ => jstep_real K hN E dt s hI) (fun s hI _ => hI) fuel _ s h hg

/-- Not in the direction of `dt` and not past `E`: the particle is at `E`. -/
theorem at_end {x dt : ℚ} (hdt : dt ≠ 0) (h0 : 0 ≤ x * sgn dt) (h : csgn dt ≠ csgn x) : x = 0 := by
  by_contra hx
  rw [csgn_sgn hdt, csgn_sgn hx] at h
  have : sgn x = sgn dt := by
    rw [sgn_eq_of_ne_zero hdt]
    have h1 := sgn_mul_self_of_ne hdt
    have h2 : sgn dt ≠ 0 := fun e => by rw [e] at h1; norm_num at h1
    exact lt_of_le_of_ne h0 (fun e => by
      rcases mul_eq_zero.mp e.symm with e | e
      · exact hx e
      · exact h2 e)
  exact h this.symm

theorem jexec1_success (K : Kern W V) (hK : RespectsClock K) (hN : RequestsRealSteps K)
    (E dt : ℚ) (hdt : dt ≠ 0) (fuel : Nat) (w : W) (g : Option ℚ) (p : Particle V) (s : JS W V)
    (h : exec1 K E dt fuel w g p = some s) (hg : Real g) (hahead : NotBefore dt p.time E)
    (hpend : Pending p) (hpdt : 1 / 100000000 < |p.dt|) (hs : s.p.state = .success) :
    |E - s.p.time| ≤ 1 / 100000000 := by
  have hnz : p.dt ≠ 0 := fun e => by rw [e] at hpdt; norm_num at hpdt
  unfold exec1 at h
  simp only [] at h
  split at h
  · rename_i hskip
    have key : |E - p.time| ≤ 1 / 100000000 := by
      rcases hskip.1 with h1 | h1
      · rw [at_end hdt hahead (Ne.symm h1)]; norm_num
      · rw [isCloseC_zero_iff, abs_of_nonneg (le_min (abs_nonneg _) (abs_nonneg _))] at h1
        rcases min_le_iff.mp h1 with h2 | h2
        · linarith
        · exact h2
    cases h
    simp only []
    split <;> exact key
  · rename_i hns
    -- both exits by `break` after a completed call and normal turns
    have turn : ∀ s : JS W V, JClockInv E dt p s → Real s.nextDt → cond s →
        (codeAt K dt s = .success ∨ codeAt K dt s = .delete) →
        (step K E dt s).1.p.state = .success → |E - (step K E dt s).1.p.time| ≤ 1 / 100000000 := by
      intro s hI hg hc hr hst
      have hl := jcond hI.nz hc
      have hout := (jclock_commit K hK E dt hdt p s hI hl hr).1
      have hle' := hout.le'
      have hreal := nextAt_real K hN dt s hg
      rw [jstep_commit K E dt s hr rfl rfl rfl rfl rfl] at hle' hst ⊢
      simp only [] at hle' hst ⊢
      have hd : (outAt K dt s).p.dt = s.dtPos * sgn dt := by
        have := jresolve_commit (hK s.w (preAt dt s)).2 hr
        exact this.trans (by simp only [preAt]; rw [csgn_sgn hdt])
      split at hst
      · cases hst
      · rename_i hcond
        have hnd : codeAt K dt s ≠ .delete := by rw [hst]; decide
        by_cases h1 : csgn dt = csgn (E - ((outAt K dt s).p.time + (outAt K dt s).p.dt))
        · have h2 : isCloseC (min |(nextAt K dt s).getD (outAt K dt s).p.dt|
            |E - ((outAt K dt s).p.time + (outAt K dt s).p.dt)|) 0 = true := by
            by_contra h2
            exact hcond ⟨hnd, h2, h1⟩
          rw [isCloseC_zero_iff, abs_of_nonneg (le_min (abs_nonneg _) (abs_nonneg _))] at h2
          rcases min_le_iff.mp h2 with h3 | h3
          · exfalso
            rcases hx : nextAt K dt s with _ | x
            · rw [hx] at h3
              simp only [Option.getD_none] at h3
              rw [hd, mul_comm, abs_sgn_mul hdt hI.nonneg] at h3
              have := hI.live hl
              linarith
            · rw [hx] at h3
              simp only [Option.getD_some] at h3
              have := hreal x hx
              linarith
          · exact h3
        · rw [at_end hdt hle' h1]; norm_num
    have key := jloop_inv K E dt
      (fun s => JClockInv E dt p s ∧ Real s.nextDt ∧ (s.p.state = .success → |E - s.p.time| ≤ 1 / 100000000))
      (fun s => s.p.state = .success → |E - s.p.time| ≤ 1 / 100000000) ?_ ?_ ?_ fuel _ s h
      ⟨jclock_init E dt p w g hns hnz hahead, hg, ?_⟩
    · exact key hs
    · intro s ⟨hI, hg, hS⟩ hc hb
      by_cases hr : codeAt K dt s = .success ∨ codeAt K dt s = .delete
      · exact turn s hI hg hc hr
      · rw [(jstep_fail K E dt s hr).2.2.2]
        intro hcode
        exact absurd (Or.inl hcode) hr
    · intro s ⟨hI, hg, hS⟩ hc hb
      by_cases hr : codeAt K dt s = .success ∨ codeAt K dt s = .delete
      · exact ⟨(jclock_commit K hK E dt hdt p s hI (jcond hI.nz hc) hr).2 hb, jstep_real K hN E dt s hg, turn s hI hg hc hr⟩
      · rw [(jstep_fail K E dt s hr).1] at hb; cases hb
    · intro s ⟨_, _, hS⟩ _; exact hS
    · simp only []
      rcases hpend with h | h <;> rw [h] <;> simp

/-! ### Evenly spaced calls -/

structure JEvenInv (E dt : ℚ) (p0 : Particle V) (s : JS W V) : Prop where
  calls : EvenCalls E dt p0 s.trace
  nd : s.nextDt = none
  live : Pending s.p → s.p.time = p0.time + s.trace.length * (sgn dt * |p0.dt|) ∧
    s.dtPos = min |p0.dt| |E - s.p.time|

theorem csgn_eq_iff {x dt : ℚ} (hdt : dt ≠ 0) (hx : x ≠ 0) : csgn dt = csgn x ↔ sgn x = sgn dt := by
  rw [csgn_sgn hdt, csgn_sgn hx]; exact eq_comm

theorem jeven_commit (K : Kern W V) (hK : LeavesDtAlone K) (E dt : ℚ) (hdt : dt ≠ 0)
    (p0 : Particle V) (s : JS W V) (hC : JClockInv E dt p0 s) (hI : JEvenInv E dt p0 s)
    (hl : s.p.state = .evaluate ∨ s.p.state = .repeat)
    (h : codeAt K dt s = .success ∨ codeAt K dt s = .delete) :
    JEvenInv E dt p0 (step K E dt s).1 := by
  have hd : (outAt K dt s).p.dt = s.dtPos * sgn dt := by
    have := (hK s.w (preAt dt s)).2.1
    exact this.trans (by simp only [preAt]; rw [csgn_sgn hdt])
  have ht : (outAt K dt s).p.time = s.p.time := (hK s.w (preAt dt s)).1
  have hn : nextAt K dt s = none := by
    have : (outAt K dt s).nextDt = none := (hK s.w (preAt dt s)).2.2
    unfold nextAt; rw [this, hI.nd]; rfl
  have hss := sgn_mul_self_of_ne hdt
  obtain ⟨l1, l2⟩ := hI.live hl
  rw [jstep_commit K E dt s h rfl rfl rfl rfl rfl]
  refine ⟨?_, rfl, ?_⟩
  · exact EvenCalls.snoc hI.calls _ l1 (by simp only [preAt]; rw [l2, csgn_sgn hdt, mul_comm])
  · simp only [Pending]
    intro hp
    split at hp
    · rename_i hc
      have hsg := hc.2.2
      have hcl := hc.2.1
      rw [hn, if_neg (not_not.mpr hsg)]
      simp only [Option.getD_none]
      have hx : E - ((outAt K dt s).p.time + (outAt K dt s).p.dt) ≠ 0 := by
        intro e
        rw [e] at hcl
        apply hcl
        rw [isCloseC_zero_iff]; simp
      rw [csgn_eq_iff hdt hx, sgn_eq_of_ne_zero hdt, ht, hd] at hsg
      have hlt : s.dtPos < |E - s.p.time| := by
        rw [abs_eq_mul_sgn hdt hC.le']
        have : (E - (s.p.time + s.dtPos * sgn dt)) * sgn dt
          = (E - s.p.time) * sgn dt - (sgn dt * sgn dt) * s.dtPos := by ring
        rw [this, hss] at hsg; linarith
      have e : s.dtPos = |p0.dt| := by
        rcases min_choice |p0.dt| |E - s.p.time| with h1 | h1
        · rw [l2, h1]
        · rw [l2, h1] at hlt; exact absurd hlt (lt_irrefl _)
      rw [hd, mul_comm, abs_sgn_mul hdt hC.nonneg, ht, e, l1]
      refine ⟨?_, rfl⟩
      simp only [List.length_append, List.length_singleton]
      push_cast; ring
    · rcases h with h | h <;> rw [h] at hp <;> simp at hp

theorem jexec1_even (K : Kern W V) (hK : LeavesDtAlone K) (E dt : ℚ) (hdt : dt ≠ 0)
    (fuel : Nat) (w : W) (p : Particle V) (s : JS W V)
    (h : exec1 K E dt fuel w none p = some s) : s.nextDt = none ∧
    (p.dt ≠ 0 → NotBefore dt p.time E → EvenCalls E dt p s.trace) := by
  have hK' := resolve_alone hK
  have hN : ∀ s : JS W V, s.nextDt = none → nextAt K dt s = none := by
    intro s hs
    have : (outAt K dt s).nextDt = none := (hK s.w (preAt dt s)).2.2
    unfold nextAt; rw [this, hs]; rfl
  unfold exec1 at h
  simp only [] at h
  split at h
  · cases h; exact ⟨rfl, fun _ _ i hi => by simp at hi⟩
  · rename_i hns
    refine ⟨?_, fun hnz hahead => ?_⟩
    · have hst : ∀ s : JS W V, s.nextDt = none → (step K E dt s).1.nextDt = none := by
        intro s hs
        by_cases hr : codeAt K dt s = .success ∨ codeAt K dt s = .delete
        · rw [jstep_commit K E dt s hr rfl rfl rfl rfl rfl]
        · rw [(jstep_fail K E dt s hr).2.1, hN s hs]
      exact jloop_inv K E dt (fun s => s.nextDt = none) (fun s => s.nextDt = none)
        (fun s hI _ _ => hst s hI) (fun s hI _ _ => hst s hI) (fun s hI _ => hI) fuel _ s h rfl
    · refine jloop_inv K E dt (fun s => JClockInv E dt p s ∧ JEvenInv E dt p s)
        (fun s => EvenCalls E dt p s.trace) ?_ ?_ ?_ fuel _ s h
        ⟨jclock_init E dt p w none hns hnz hahead, ?_⟩
      · intro s ⟨hC, hI⟩ hc _
        by_cases hr : codeAt K dt s = .success ∨ codeAt K dt s = .delete
        · exact (jeven_commit K hK E dt hdt p s hC hI (jcond hC.nz hc) hr).calls
        · rw [(jstep_fail K E dt s hr).2.2.1]
          obtain ⟨l1, l2⟩ := hI.live (jcond hC.nz hc)
          exact EvenCalls.snoc hI.calls _ l1 (by simp only [preAt]; rw [l2, csgn_sgn hdt, mul_comm])
      · intro s ⟨hC, hI⟩ hc hb
        by_cases hr : codeAt K dt s = .success ∨ codeAt K dt s = .delete
        · exact ⟨(jclock_commit K hK' E dt hdt p s hC (jcond hC.nz hc) hr).2 hb,
            jeven_commit K hK E dt hdt p s hC hI (jcond hC.nz hc) hr⟩
        · rw [(jstep_fail K E dt s hr).1] at hb; cases hb
      · intro s ⟨_, hI⟩ _; exact hI.calls
      · exact ⟨fun i hi => by simp at hi, rfl, fun _ => ⟨by simp, rfl⟩⟩

/-! ### Termination of the inner loop -/

theorem jloop_terminates (K : Kern W V) (hK : LeavesDtAlone K) (E dt : ℚ) (hdt : dt ≠ 0)
    (p0 : Particle V) (hd0 : 0 < |p0.dt|) :
    ∀ (n : Nat) (s : JS W V), JClockInv E dt p0 s → JEvenInv E dt p0 s → |E - s.p.time| ≤ n * |p0.dt| →
      (loop K E dt (n + 1) s).isSome := by
  have hss := sgn_mul_self_of_ne hdt
  have hK' := resolve_alone hK
  intro n
  induction n with
  | zero =>
    intro s hC hI hb
    rw [loop]
    split
    · rename_i hc
      have h1 := hC.live (jcond hC.nz hc)
      have h2 := hC.bound
      simp at hb
      rw [hb] at h2; simp at h2; linarith
    · rfl
  | succ n ih =>
    intro s hC hI hb
    rw [loop]
    split
    · rename_i hc
      have hl := jcond hC.nz hc
      split
      · rfl
      · rename_i s' heq
        by_cases hr : codeAt K dt s = .success ∨ codeAt K dt s = .delete
        · have hC' := (jclock_commit K hK' E dt hdt p0 s hC hl hr).2 (by rw [heq])
          have hI' := jeven_commit K hK E dt hdt p0 s hC hI hl hr
          have e1 : (step K E dt s).1 = s' := by rw [heq]
          rw [e1] at hC' hI'
          by_cases hp : Pending s'.p
          · apply ih s' hC' hI'
            obtain ⟨a1, a2⟩ := hI'.live hp
            obtain ⟨b1, b2⟩ := hI.live hl
            have etr : s'.trace.length = s.trace.length + 1 := by
              rw [← e1, jstep_commit K E dt s hr rfl rfl rfl rfl rfl]; simp
            rw [abs_eq_mul_sgn hdt hC'.le', a1, etr]
            rw [abs_eq_mul_sgn hdt hC.le', b1] at hb
            push_cast at hb ⊢
            have e2 : (E - (p0.time + ((s.trace.length : ℚ) + 1) * (sgn dt * |p0.dt|))) * sgn dt =
              (E - (p0.time + (s.trace.length : ℚ) * (sgn dt * |p0.dt|))) * sgn dt
                - (sgn dt * sgn dt) * |p0.dt| := by ring
            rw [e2, hss]; linarith
          · rw [loop, if_neg]
            · rfl
            · intro hc'; exact hp (jcond hC'.nz hc')
        · have := (jstep_fail K E dt s hr).1
          rw [heq] at this; cases this
    · rfl

theorem jexec1_terminates (K : Kern W V) (hK : LeavesDtAlone K) (E dt : ℚ)
    (hdt : dt ≠ 0) (n : Nat) (w : W) (p : Particle V)
    (hd0 : 0 < |p.dt|) (hahead : NotBefore dt p.time E) (hn : |E - p.time| ≤ n * |p.dt|) :
    (exec1 K E dt (n + 1) w none p).isSome := by
  have hnz : p.dt ≠ 0 := fun e => by rw [e] at hd0; norm_num at hd0
  unfold exec1
  simp only []
  split
  · rfl
  · rename_i hns
    exact jloop_terminates K hK E dt hdt p hd0 n _ (jclock_init E dt p w none hns hnz hahead)
      ⟨fun i hi => by simp at hi, rfl, fun _ => ⟨by simp, rfl⟩⟩ hn

/-! ### Completed calls explain the particle -/

theorem jresolve_genuine (K : Kern W V) (w : W) (pre : Particle V) :
    GenuineJit K ⟨pre, resolve pre (K w pre).2, (K w pre).2.p⟩ := by
  refine ⟨w, rfl, ?_, ?_, ?_⟩
  · intro e he
    simp only [] at he ⊢
    unfold resolve code; rw [he]
    cases e <;> simp [Exc.code]
  · intro x hx hne
    simp only [] at hx ⊢
    unfold resolve code; rw [hx]; simp [hne]
  · intro hx
    simp only [] at hx ⊢
    have e : resolve pre (K w pre).2 =
        (let res1 := if (K w pre).2.p.state ≠ pre.state then (K w pre).2.p.state else .success
         if res1 = .success ∧ ¬ isEqual pre.dt (K w pre).2.p.dt then .repeat else res1) := by
      unfold resolve code
      rcases hx with hx | hx <;> rw [hx] <;> simp
    rw [e]
    simp only []
    have hb : (isEqual pre.dt (K w pre).2.p.dt = true) ↔ |pre.dt - (K w pre).2.p.dt| ≤ |(K w pre).2.p.dt| / 2 ^ 52 := by
      unfold isEqual eps
      rw [decide_eq_true_eq, div_mul_eq_mul_div, one_mul]
    refine ⟨?_, ?_⟩
    · intro h1 h2
      simp [h1, h2]
    · intro h
      refine Eq.trans ?_ (if_congr hb rfl rfl)
      by_cases h1 : (K w pre).2.p.state = pre.state
      · by_cases h3 : isEqual pre.dt (K w pre).2.p.dt = true <;> simp [h1, h3]
      · have h2 : (K w pre).2.p.state = .success := by
          rcases h with h | h
          · exact absurd h h1
          · exact h
        rw [if_pos h1, h2]
        by_cases h3 : isEqual pre.dt (K w pre).2.p.dt = true <;> simp [h3]

structure JTraceInv (K : Kern W V) (p0 : Particle V) (s : JS W V) : Prop where
  now : (s.p.time, s.p.vars) = s.trace.foldl commit (p0.time, p0.vars)
  genuine : ∀ c ∈ s.trace, GenuineJit K c
  before : ∀ i (hi : i < s.trace.length),
    ((s.trace[i]).before.time, (s.trace[i]).before.vars) =
      (s.trace.take i).foldl commit (p0.time, p0.vars)

theorem JTraceInv.of_snoc (K : Kern W V) (p0 : Particle V) (s s' : JS W V) (dt : ℚ)
    (hI : JTraceInv K p0 s)
    (htr : s'.trace = s.trace ++ [⟨preAt dt s, codeAt K dt s, (outAt K dt s).p⟩])
    (hp : (s'.p.time, s'.p.vars) =
      commit (s.p.time, s.p.vars) ⟨preAt dt s, codeAt K dt s, (outAt K dt s).p⟩) :
    JTraceInv K p0 s' := by
  refine ⟨?_, ?_, ?_⟩
  · rw [htr, List.foldl_append, ← hI.now, hp]; rfl
  · rw [htr]
    intro c hc
    simp only [List.mem_append, List.mem_singleton] at hc
    rcases hc with hc | hc
    · exact hI.genuine c hc
    · subst hc; exact jresolve_genuine K s.w (preAt dt s)
  · intro i hi
    have hlen : s'.trace.length = s.trace.length + 1 := by rw [htr]; simp
    rcases Nat.lt_or_ge i s.trace.length with hlt | hge
    · have e : s'.trace[i] = s.trace[i] := by
        simp only [htr]; rw [List.getElem_append_left hlt]
      rw [e, hI.before i hlt, htr, List.take_append_of_le_length (le_of_lt hlt)]
    · have : i = s.trace.length := by omega
      subst this
      have e : s'.trace[s.trace.length] = ⟨preAt dt s, codeAt K dt s, (outAt K dt s).p⟩ := by
        simp only [htr]; rw [List.getElem_append_right (le_refl _)]; simp
      rw [e, htr, List.take_append_of_le_length (le_refl _), List.take_length, ← hI.now]
      rfl

theorem jtrace_step (K : Kern W V) (E dt : ℚ) (p0 : Particle V) (s : JS W V)
    (hI : JTraceInv K p0 s) : JTraceInv K p0 (step K E dt s).1 := by
  by_cases hr : codeAt K dt s = .success ∨ codeAt K dt s = .delete
  · refine JTraceInv.of_snoc K p0 s _ dt hI ?_ ?_
    · rw [jstep_commit K E dt s hr rfl rfl rfl rfl rfl]
    · rw [jstep_commit K E dt s hr rfl rfl rfl rfl rfl]
      simp only [commit]
      rw [if_pos (show Call.done ⟨preAt dt s, codeAt K dt s, (outAt K dt s).p⟩ from hr)]
  · obtain ⟨_, _, h5, h6⟩ := jstep_fail K E dt s hr
    refine JTraceInv.of_snoc K p0 s _ dt hI h5 ?_
    rw [h6]
    simp only [commit]
    rw [if_neg (show ¬ Call.done ⟨preAt dt s, codeAt K dt s, (outAt K dt s).p⟩ from hr)]

theorem jexec1_trace (K : Kern W V) (E dt : ℚ)
    (fuel : Nat) (w : W) (g : Option ℚ) (p : Particle V) (s : JS W V)
    (h : exec1 K E dt fuel w g p = some s) : JTraceInv K p s := by
  unfold exec1 at h
  simp only [] at h
  split at h
  · cases h
    refine ⟨?_, by simp, by simp⟩
    simp only [List.foldl_nil]
    split <;> rfl
  · refine jloop_inv K E dt (JTraceInv K p) (JTraceInv K p) ?_ ?_ ?_ fuel _ s h
      ⟨rfl, by simp, by simp⟩
    · intro s hI _ _; exact jtrace_step K E dt p s hI
    · intro s hI _ _; exact jtrace_step K E dt p s hI
    · intro s hI _; exact hI

/-! ### dt = 0 -/

/-- The turn of the particle loop when the particle's own dt is 0. -/
theorem jexec1_zero (K : Kern W V) (E dt : ℚ) (n : Nat) (w : W) (p : Particle V) (hp : p.dt = 0)
    (hK : LeavesDtAlone K) :
    ∃ s, exec1 K E dt (n + 1) w none p = some s ∧ s.nextDt = none ∧ s.trace.length = 1 ∧ s.p.time = p.time ∧
      ∀ c ∈ s.trace, c.before.dt = 0 := by
  have hz : isZero p.dt = true := (isZero_iff _).mpr hp
  have hns : ¬ skips E dt p := fun h => by rw [h.2] at hz; cases hz
  have e0 : min |p.dt| |E - p.time| = 0 := by
    rw [hp, abs_zero]; exact min_eq_left (abs_nonneg _)
  unfold exec1
  simp only []
  rw [if_neg hns, loop, e0]
  let s0 : JS W V := ⟨w, p, 0, none, []⟩
  have hpre : (preAt dt s0).dt = 0 := by simp [preAt, s0]
  have hd : (outAt K dt s0).p.dt = 0 := ((hK w (preAt dt s0)).2.1).trans hpre
  have ht : (outAt K dt s0).p.time = p.time := (hK w (preAt dt s0)).1
  have hn : nextAt K dt s0 = none := by
    have : (outAt K dt s0).nextDt = none := (hK w (preAt dt s0)).2.2
    unfold nextAt; rw [this]; rfl
  rw [if_pos (show cond (⟨w, p, 0, none, []⟩ : JS W V) from Or.inr (Or.inr hz))]
  change ∃ s, (match step K E dt s0 with | (s', true) => some s' | (s', false) => loop K E dt n s') = some s ∧ _
  by_cases hr : codeAt K dt s0 = .success ∨ codeAt K dt s0 = .delete
  · rw [jstep_commit K E dt s0 hr rfl rfl (dt' := 0) (by rw [hn]; exact hd.symm) rfl rfl]
    rw [(isZero_iff 0).mpr rfl]
    refine ⟨_, rfl, rfl, rfl, ?_, ?_⟩
    · simp only []; rw [hd, ht, add_zero]
    · intro c hc
      simp only [s0, List.nil_append, List.mem_singleton] at hc
      subst hc; exact hpre
  · obtain ⟨h1, h2, h3, h4⟩ := jstep_fail K E dt s0 hr
    rcases hs : step K E dt s0 with ⟨s', b⟩
    rw [hs] at h1 h2 h3 h4
    simp only [] at h1 h2 h3 h4
    subst h1
    refine ⟨s', rfl, by rw [h2, hn], by rw [h3]; simp [s0], by rw [h4], ?_⟩
    intro c hc
    rw [h3] at hc
    simp only [s0, List.nil_append, List.mem_singleton] at hc
    subst hc; exact hpre

theorem jpass_zero (K : Kern W V) (hK : LeavesDtAlone K) (E dt : ℚ) (n : Nat) :
    ∀ (ps : List (Particle V)) (w : W), (∀ p ∈ ps, p.dt = 0) →
    ∃ w' rs, pass K E dt (n + 1) w none ps = some (w', none, rs) ∧
      List.Forall₂ (fun p r => r.2.length = 1 ∧ r.1.time = p.time ∧ ∀ c ∈ r.2, c.before.dt = 0) ps rs := by
  intro ps
  induction ps with
  | nil => intro w _; exact ⟨w, [], rfl, List.Forall₂.nil⟩
  | cons p ps ih =>
    intro w h
    obtain ⟨s, h1, h2, h3, h4, h5⟩ := jexec1_zero K E dt n w p (h p List.mem_cons_self) hK
    obtain ⟨w', rs, h6, h7⟩ := ih s.w (fun q hq => h q (List.mem_cons_of_mem _ hq))
    refine ⟨w', (s.p, s.trace) :: rs, ?_, List.Forall₂.cons ⟨h3, h4, h5⟩ h7⟩
    rw [pass, h1]
    simp only []
    rw [h2, h6]

/-! ### One particle at a time -/

/-- What can be seen of a particle's turn. -/
def jobs (s : JS W V) : Particle V × List (Call V) := (s.p, s.trace)

/-- Two loop states that differ only in the world. -/
def jsame (s t : JS W V) : Prop := s.p = t.p ∧ s.dtPos = t.dtPos ∧ s.nextDt = t.nextDt ∧ s.trace = t.trace

theorem jstep_own (k : Particle V → KOut V) (E dt : ℚ) (s t : JS W V) (h : jsame s t) :
    jsame (step (fun (w : W) p => (w, k p)) E dt s).1 (step (fun (w : W) p => (w, k p)) E dt t).1 ∧
    (step (fun (w : W) p => (w, k p)) E dt s).2 = (step (fun (w : W) p => (w, k p)) E dt t).2 := by
  obtain ⟨h1, h2, h3, h4⟩ := h
  rcases s with ⟨w, p, d, n, tr⟩
  rcases t with ⟨w', p', d', n', tr'⟩
  simp only [] at h1 h2 h3 h4
  subst h1 h2 h3 h4
  unfold step
  simp only []
  split
  · exact ⟨⟨rfl, rfl, rfl, rfl⟩, rfl⟩
  · exact ⟨⟨rfl, rfl, rfl, rfl⟩, rfl⟩

theorem jloop_own (k : Particle V → KOut V) (E dt : ℚ) : ∀ (n : Nat) (s t : JS W V), jsame s t →
    (loop (fun (w : W) p => (w, k p)) E dt n s).map (fun s => (jobs s, s.nextDt)) =
    (loop (fun (w : W) p => (w, k p)) E dt n t).map (fun s => (jobs s, s.nextDt)) := by
  intro n
  induction n with
  | zero => intro s t _; rfl
  | succ n ih =>
    intro s t h
    obtain ⟨a1, a2⟩ := jstep_own k E dt s t h
    rw [loop, loop]
    have hc : cond s ↔ cond t := by unfold cond; rw [h.1]
    by_cases c : cond s
    · rw [if_pos c, if_pos (hc.mp c)]
      rcases hs : step (fun (w : W) p => (w, k p)) E dt s with ⟨s', b⟩
      rcases ht : step (fun (w : W) p => (w, k p)) E dt t with ⟨t', b'⟩
      rw [hs, ht] at a1 a2
      simp only [] at a1 a2
      subst a2
      cases b
      · exact ih s' t' a1
      · simp only [Option.map_some, jobs, a1.1, a1.2.2.1, a1.2.2.2]
    · rw [if_neg c, if_neg (fun e => c (hc.mpr e))]
      simp only [Option.map_some, jobs, h.1, h.2.2.1, h.2.2.2]

theorem jexec1_own (k : Particle V → KOut V) (E dt : ℚ) (fuel : Nat) (w v : W) (g : Option ℚ) (p : Particle V) :
    (exec1 (fun (w : W) p => (w, k p)) E dt fuel w g p).map (fun s => (jobs s, s.nextDt)) =
    (exec1 (fun (w : W) p => (w, k p)) E dt fuel v g p).map (fun s => (jobs s, s.nextDt)) := by
  unfold exec1
  simp only []
  split
  · rfl
  · exact jloop_own k E dt fuel _ _ ⟨rfl, rfl, rfl, rfl⟩

/-- A kernel that never calls `update_next_dt` leaves the globals as they were. -/
theorem jexec1_none (K : Kern W V) (hK : ∀ w p, (K w p).2.nextDt = none) (E dt : ℚ)
    (fuel : Nat) (w : W) (p : Particle V) (s : JS W V)
    (h : exec1 K E dt fuel w none p = some s) : s.nextDt = none := by
  have hst : ∀ s : JS W V, s.nextDt = none → (step K E dt s).1.nextDt = none := by
    intro s hs
    by_cases hr : codeAt K dt s = .success ∨ codeAt K dt s = .delete
    · rw [jstep_commit K E dt s hr rfl rfl rfl rfl rfl]
    · rw [(jstep_fail K E dt s hr).2.1]
      have : (outAt K dt s).nextDt = none := hK s.w (preAt dt s)
      unfold nextAt; rw [this, hs]; rfl
  unfold exec1 at h
  simp only [] at h
  split at h
  · cases h; rfl
  · exact jloop_inv K E dt (fun s => s.nextDt = none) (fun s => s.nextDt = none)
      (fun s hI _ _ => hst s hI) (fun s hI _ _ => hst s hI) (fun s hI _ => hI) fuel _ s h rfl

theorem jpass_own (k : Particle V → KOut V) (hk : ∀ p, (k p).nextDt = none) (E dt : ℚ) (fuel : Nat) (v : W) :
    ∀ (ps : List (Particle V)) (w : W) (rs : List (Particle V × List (Call V))),
    (∃ w', pass (fun (w : W) p => (w, k p)) E dt fuel w none ps = some (w', none, rs)) ↔
    List.Forall₂ (fun p r => (exec1 (fun (w : W) p => (w, k p)) E dt fuel v none p).map jobs = some r) ps rs := by
  intro ps
  induction ps with
  | nil =>
    intro w rs
    simp only [pass, Option.some.injEq, Prod.mk.injEq, List.forall₂_nil_left_iff]
    constructor
    · rintro ⟨_, _, _, h⟩; exact h.symm
    · intro h; exact ⟨w, rfl, trivial, h.symm⟩
  | cons p ps ih =>
    intro w rs
    have e := congrArg (Option.map Prod.fst) (jexec1_own k E dt fuel w v none p)
    rw [Option.map_map, Option.map_map] at e
    change (exec1 (fun (w : W) p => (w, k p)) E dt fuel w none p).map jobs =
      (exec1 (fun (w : W) p => (w, k p)) E dt fuel v none p).map jobs at e
    rw [pass]
    rcases h1 : exec1 (fun (w : W) p => (w, k p)) E dt fuel w none p with _ | s
    · rw [h1] at e
      simp only [reduceCtorEq, exists_false, false_iff]
      intro h
      cases h with
      | cons a _ => rw [← e] at a; cases a
    · rw [h1] at e
      have hn := jexec1_none (fun (w : W) p => (w, k p)) (fun _ p => hk p) E dt fuel w p s h1
      simp only []
      rw [hn]
      constructor
      · rintro ⟨w', h⟩
        rcases h2 : pass (fun (w : W) p => (w, k p)) E dt fuel s.w none ps with _ | ⟨w2, g2, rs2⟩
        · rw [h2] at h; cases h
        · rw [h2] at h
          simp only [Option.some.injEq, Prod.mk.injEq] at h
          obtain ⟨_, hg, hrs⟩ := h
          subst hg hrs
          refine List.Forall₂.cons ?_ ((ih s.w rs2).mp ⟨w2, h2⟩)
          rw [← e]; rfl
      · intro h
        cases h with
        | cons a t =>
          obtain ⟨w2, h2⟩ := (ih s.w _).mpr t
          rw [h2]
          rw [← e] at a
          simp only [Option.map_some, Option.some.injEq] at a
          exact ⟨w2, by simp only []; rw [← a]; rfl⟩

end Parcels.JitLoop
