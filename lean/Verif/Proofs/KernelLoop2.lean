import Verif.Proofs.KernelLoop
import Mathlib.Data.List.Forall2

namespace Parcels.KernelLoop

variable {W V : Type}

/-! ### Success means arrival -/

theorem exec1_success (K : Kern W V) (hK : RespectsClock K) (hN : RequestsRealSteps K)
    (E dt : ℚ) (hdt : isclose dt 0 = false)
    (fuel : Nat) (w : W) (back : Option (Particle V)) (p : Particle V) (s : LS W V)
    (h : exec1 K E dt fuel w back p = some s) (hahead : NotBefore dt p.time E)
    (hpend : Pending p) (hpdt : 1 / 100000000 < |p.dt|) (hs : s.p.state = .success) :
    |E - s.p.time| ≤ 1 / 100000000 := by
  have hne := isclose_false_ne hdt
  unfold exec1 at h
  simp only [] at h
  split at h
  · rename_i hskip
    have key : |E - p.time| ≤ 1 / 100000000 := by
      rcases hskip.1 with h1 | h1
      · rw [Ne, sgn_eq_of_ne_zero hne] at h1
        have : (E - p.time) * sgn dt = 0 := le_antisymm (not_lt.mp h1) hahead
        rw [abs_eq_mul_sgn hne hahead, this]; norm_num
      · rw [isclose_zero_iff, abs_of_nonneg (le_min (abs_nonneg _) (abs_nonneg _))] at h1
        rcases min_le_iff.mp h1 with h2 | h2
        · linarith
        · exact h2
    cases h
    simp only []
    split <;> exact key
  · rename_i hns
    have key := loop_inv K E dt
      (fun s => ClockInv E dt p s ∧ (s.p.state = .success → |E - s.p.time| ≤ 1 / 100000000))
      (fun s => s.p.state = .success → |E - s.p.time| ≤ 1 / 100000000) ?_ ?_ ?_ fuel _ s h
      ⟨clock_init E dt p w back hns hdt hahead, ?_⟩
    · exact key hs
    · intro s ⟨hI, hS⟩ hc hb
      by_cases hr : codeAt K dt s = .success ∨ codeAt K dt s = .delete
      · rw [step_commit K E dt s hr rfl rfl rfl rfl rfl] at hb
        simp only [] at hb
        rw [hdt] at hb; cases hb
      · obtain ⟨_, _, _, _, _, h6⟩ := step_fail K E dt s hr
        rw [h6]
        intro hcode
        exact absurd (Or.inl hcode) hr
    · intro s ⟨hI, hS⟩ hc hb
      by_cases hr : codeAt K dt s = .success ∨ codeAt K dt s = .delete
      · have hI' := clock_commit K hK E dt hne p s hI (clock_cond hdt hc) hr
        refine ⟨hI', ?_⟩
        have hle' := hI'.le'
        rw [step_commit K E dt s hr rfl rfl rfl rfl rfl] at hle' ⊢
        simp only [] at hle' ⊢
        intro hst
        split at hst
        · cases hst
        · rename_i hcond
          have hnd : codeAt K dt s ≠ .delete := by rw [hst]; decide
          have hd : (outAt K dt s).p.dt = sgn dt * s.dtPos :=
            resolve_commit (hK s.w (preAt dt s)).2 hr
          by_cases h1 : sgn (E - ((outAt K dt s).p.time + (outAt K dt s).p.dt)) = sgn dt
          · have h2 : isclose (min |((outAt K dt s).nextDt.orElse (fun _ => s.nextDt)).getD (outAt K dt s).p.dt|
              |E - ((outAt K dt s).p.time + (outAt K dt s).p.dt)|) 0 = true := by
              by_contra h2
              exact hcond ⟨hnd, h2, h1⟩
            rw [isclose_zero_iff, abs_of_nonneg (le_min (abs_nonneg _) (abs_nonneg _))] at h2
            rcases min_le_iff.mp h2 with h3 | h3
            · exfalso
              rw [hI.nd] at h3
              rcases hx : (outAt K dt s).nextDt with _ | x
              · rw [hx] at h3
                simp only [Option.orElse_none, Option.getD_none] at h3
                rw [hd, abs_sgn_mul hne hI.nonneg] at h3
                have := hI.live (clock_cond hdt hc)
                linarith
              · rw [hx] at h3
                simp only [Option.orElse_some, Option.getD_some] at h3
                have := hN s.w (preAt dt s) x hx
                linarith
            · exact h3
          · rw [sgn_eq_of_ne_zero hne] at h1
            have : (E - ((outAt K dt s).p.time + (outAt K dt s).p.dt)) * sgn dt = 0 :=
              le_antisymm (not_lt.mp h1) hle'
            rw [abs_eq_mul_sgn hne hle', this]; norm_num
      · rw [(step_fail K E dt s hr).1] at hb; cases hb
    · intro s ⟨_, hS⟩ _; exact hS
    · simp only []
      rcases hpend with h | h <;> rw [h] <;> simp

/-! ### Evenly spaced calls -/

theorem resolve_alone {K : Kern W V} (hK : LeavesDtAlone K) : RespectsClock K :=
  fun w p => ⟨(hK w p).1, Or.inl (hK w p).2.1⟩

/-- The i-th call of an unadaptive kernel. -/
def EvenCalls (E dt : ℚ) (p0 : Particle V) (tr : List (Call V)) : Prop :=
  ∀ i (hi : i < tr.length),
    (tr[i]).before.time = p0.time + i * (sgn dt * |p0.dt|) ∧
    (tr[i]).before.dt = sgn dt * min |p0.dt| |E - (tr[i]).before.time|

structure EvenInv (E dt : ℚ) (p0 : Particle V) (s : LS W V) : Prop where
  calls : EvenCalls E dt p0 s.trace
  live : Pending s.p → s.p.time = p0.time + s.trace.length * (sgn dt * |p0.dt|) ∧
    s.dtPos = min |p0.dt| |E - s.p.time|

theorem EvenCalls.snoc {E dt : ℚ} {p0 : Particle V} {tr : List (Call V)} (h : EvenCalls E dt p0 tr)
    (c : Call V) (h1 : c.before.time = p0.time + tr.length * (sgn dt * |p0.dt|))
    (h2 : c.before.dt = sgn dt * min |p0.dt| |E - c.before.time|) :
    EvenCalls E dt p0 (tr ++ [c]) := by
  intro i hi
  rcases Nat.lt_or_ge i tr.length with hlt | hge
  · rw [List.getElem_append_left hlt]; exact h i hlt
  · have : i = tr.length := by simp at hi; omega
    subst this
    simp only [List.getElem_append_right (le_refl _), Nat.sub_self, List.getElem_cons_zero]
    exact ⟨h1, h2⟩

theorem even_commit (K : Kern W V) (hK : LeavesDtAlone K) (E dt : ℚ) (hdt : dt ≠ 0)
    (p0 : Particle V) (s : LS W V) (hC : ClockInv E dt p0 s) (hI : EvenInv E dt p0 s)
    (hl : s.p.state = .evaluate ∨ s.p.state = .repeat)
    (h : codeAt K dt s = .success ∨ codeAt K dt s = .delete) :
    EvenInv E dt p0 (step K E dt s).1 := by
  have hd : (outAt K dt s).p.dt = sgn dt * s.dtPos := (hK s.w (preAt dt s)).2.1
  have ht : (outAt K dt s).p.time = s.p.time := (hK s.w (preAt dt s)).1
  have hn : (outAt K dt s).nextDt = none := (hK s.w (preAt dt s)).2.2
  have hss := sgn_mul_self_of_ne hdt
  obtain ⟨l1, l2⟩ := hI.live hl
  rw [step_commit K E dt s h rfl rfl rfl rfl rfl]
  refine ⟨?_, ?_⟩
  · exact EvenCalls.snoc hI.calls _ l1 (by simp only [preAt]; rw [l2])
  · simp only [Pending]
    intro hp
    split at hp
    · rename_i hc
      have hsg := hc.2.2
      rw [hn, hC.nd, if_neg (not_not.mpr hsg)]
      simp only [Option.orElse_none, Option.getD_none]
      rw [sgn_eq_of_ne_zero hdt, ht, hd] at hsg
      have hlt : s.dtPos < |E - s.p.time| := by
        rw [abs_eq_mul_sgn hdt hC.le']
        have : (E - (s.p.time + sgn dt * s.dtPos)) * sgn dt
          = (E - s.p.time) * sgn dt - (sgn dt * sgn dt) * s.dtPos := by ring
        rw [this, hss] at hsg; linarith
      have e : s.dtPos = |p0.dt| := by
        rcases min_choice |p0.dt| |E - s.p.time| with h1 | h1
        · rw [l2, h1]
        · rw [l2, h1] at hlt; exact absurd hlt (lt_irrefl _)
      rw [hd, abs_sgn_mul hdt hC.nonneg, ht, e, l1]
      refine ⟨?_, rfl⟩
      simp only [List.length_append, List.length_singleton]
      push_cast; ring
    · rcases h with h | h <;> rw [h] at hp <;> simp at hp

theorem exec1_even (K : Kern W V) (hK : LeavesDtAlone K) (E dt : ℚ) (hdt : isclose dt 0 = false)
    (fuel : Nat) (w : W) (back : Option (Particle V)) (p : Particle V) (s : LS W V)
    (h : exec1 K E dt fuel w back p = some s) (hahead : NotBefore dt p.time E) :
    EvenCalls E dt p s.trace := by
  have hne := isclose_false_ne hdt
  have hK' := resolve_alone hK
  unfold exec1 at h
  simp only [] at h
  split at h
  · cases h; intro i hi; simp at hi
  · rename_i hns
    refine loop_inv K E dt (fun s => ClockInv E dt p s ∧ EvenInv E dt p s)
      (fun s => EvenCalls E dt p s.trace) ?_ ?_ ?_ fuel _ s h
      ⟨clock_init E dt p w back hns hdt hahead, ?_⟩
    · intro s ⟨hC, hI⟩ hc _
      by_cases hr : codeAt K dt s = .success ∨ codeAt K dt s = .delete
      · exact (even_commit K hK E dt hne p s hC hI (clock_cond hdt hc) hr).calls
      · rw [(step_fail K E dt s hr).2.2.2.2.1]
        obtain ⟨l1, l2⟩ := hI.live (clock_cond hdt hc)
        exact EvenCalls.snoc hI.calls _ l1 (by simp only [preAt]; rw [l2])
    · intro s ⟨hC, hI⟩ hc hb
      by_cases hr : codeAt K dt s = .success ∨ codeAt K dt s = .delete
      · exact ⟨clock_commit K hK' E dt hne p s hC (clock_cond hdt hc) hr,
          even_commit K hK E dt hne p s hC hI (clock_cond hdt hc) hr⟩
      · rw [(step_fail K E dt s hr).1] at hb; cases hb
    · intro s ⟨_, hI⟩ _; exact hI.calls
    · refine ⟨fun i hi => by simp at hi, fun _ => ⟨by simp, rfl⟩⟩

/-! ### Termination of the inner loop -/

theorem loop_terminates (K : Kern W V) (hK : LeavesDtAlone K) (E dt : ℚ) (hdt : isclose dt 0 = false)
    (p0 : Particle V) (hd0 : 0 < |p0.dt|) :
    ∀ (n : Nat) (s : LS W V), ClockInv E dt p0 s → EvenInv E dt p0 s → |E - s.p.time| ≤ n * |p0.dt| →
      (loop K E dt (n + 1) s).isSome := by
  have hne := isclose_false_ne hdt
  have hss := sgn_mul_self_of_ne hne
  have hK' := resolve_alone hK
  intro n
  induction n with
  | zero =>
    intro s hC hI hb
    rw [loop]
    split
    · rename_i hc
      have h1 := hC.live (clock_cond hdt hc)
      have h2 := hC.bound
      simp at hb
      rw [hb] at h2; simp at h2; linarith
    · rfl
  | succ n ih =>
    intro s hC hI hb
    rw [loop]
    split
    · rename_i hc
      have hl := clock_cond hdt hc
      split
      · rfl
      · rename_i s' heq
        by_cases hr : codeAt K dt s = .success ∨ codeAt K dt s = .delete
        · have hC' := clock_commit K hK' E dt hne p0 s hC hl hr
          have hI' := even_commit K hK E dt hne p0 s hC hI hl hr
          have e1 : (step K E dt s).1 = s' := by rw [heq]
          rw [e1] at hC' hI'
          by_cases hp : Pending s'.p
          · apply ih s' hC' hI'
            obtain ⟨a1, a2⟩ := hI'.live hp
            obtain ⟨b1, b2⟩ := hI.live hl
            have etr : s'.trace.length = s.trace.length + 1 := by
              rw [← e1, step_commit K E dt s hr rfl rfl rfl rfl rfl]; simp
            rw [abs_eq_mul_sgn hne hC'.le', a1, etr]
            rw [abs_eq_mul_sgn hne hC.le', b1] at hb
            push_cast at hb ⊢
            have e2 : (E - (p0.time + ((s.trace.length : ℚ) + 1) * (sgn dt * |p0.dt|))) * sgn dt =
              (E - (p0.time + (s.trace.length : ℚ) * (sgn dt * |p0.dt|))) * sgn dt
                - (sgn dt * sgn dt) * |p0.dt| := by ring
            rw [e2, hss]; linarith
          · rw [loop, if_neg]
            · rfl
            · intro hc'; exact hp (clock_cond hdt hc')
        · have := (step_fail K E dt s hr).1
          rw [heq] at this; cases this
    · rfl

theorem exec1_terminates (K : Kern W V) (hK : LeavesDtAlone K) (E dt : ℚ)
    (hdt : isclose dt 0 = false) (n : Nat) (w : W) (back : Option (Particle V)) (p : Particle V)
    (hd0 : 0 < |p.dt|) (hahead : NotBefore dt p.time E) (hn : |E - p.time| ≤ n * |p.dt|) :
    (exec1 K E dt (n + 1) w back p).isSome := by
  unfold exec1
  simp only []
  split
  · rfl
  · rename_i hns
    exact loop_terminates K hK E dt hdt p hd0 n _ (clock_init E dt p w back hns hdt hahead)
      ⟨fun i hi => by simp at hi, fun _ => ⟨by simp, rfl⟩⟩ hn

/-! ### Completed calls explain the particle -/

theorem resolve_genuine (K : Kern W V) (w : W) (pre : Particle V) :
    Call.genuine K ⟨pre, resolve pre (K w pre).2, (K w pre).2.p⟩ := by
  refine ⟨w, rfl, ?_, ?_, ?_⟩
  · intro e he
    simp only [] at he ⊢
    unfold resolve; rw [he]
  · intro x hx hne
    simp only [] at hx ⊢
    unfold resolve; rw [hx]; simp [hne]
  · intro hx
    simp only [] at hx ⊢
    have e : resolve pre (K w pre).2 =
        (let res1 := if (K w pre).2.p.state ≠ pre.state then (K w pre).2.p.state else .success
         if res1 = .success ∧ ¬ isclose (K w pre).2.p.dt pre.dt then .repeat else res1) := by
      unfold resolve
      rcases hx with hx | hx <;> rw [hx] <;> simp
    rw [e]
    simp only []
    refine ⟨?_, ?_⟩
    · intro h1 h2
      simp [h1, h2]
    · intro h
      by_cases h1 : (K w pre).2.p.state = pre.state
      · by_cases h3 : isclose (K w pre).2.p.dt pre.dt = true <;> simp [h1, h3]
      · have h2 : (K w pre).2.p.state = .success := by
          rcases h with h | h
          · exact absurd h h1
          · exact h
        rw [if_pos h1, h2]
        by_cases h3 : isclose (K w pre).2.p.dt pre.dt = true <;> simp [h3]

/-- The trace explains the particle at each moment. -/
structure TraceInv (K : Kern W V) (p0 : Particle V) (s : LS W V) : Prop where
  now : (s.p.time, s.p.vars) = s.trace.foldl commit (p0.time, p0.vars)
  genuine : ∀ c ∈ s.trace, Call.genuine K c
  before : ∀ i (hi : i < s.trace.length),
    ((s.trace[i]).before.time, (s.trace[i]).before.vars) =
      (s.trace.take i).foldl commit (p0.time, p0.vars)

theorem TraceInv.of_snoc (K : Kern W V) (p0 : Particle V) (s s' : LS W V) (dt : ℚ)
    (hI : TraceInv K p0 s)
    (htr : s'.trace = s.trace ++ [⟨preAt dt s, codeAt K dt s, (outAt K dt s).p⟩])
    (hp : (s'.p.time, s'.p.vars) =
      commit (s.p.time, s.p.vars) ⟨preAt dt s, codeAt K dt s, (outAt K dt s).p⟩) :
    TraceInv K p0 s' := by
  refine ⟨?_, ?_, ?_⟩
  · rw [htr, List.foldl_append, ← hI.now, hp]; rfl
  · rw [htr]
    intro c hc
    simp only [List.mem_append, List.mem_singleton] at hc
    rcases hc with hc | hc
    · exact hI.genuine c hc
    · subst hc; exact resolve_genuine K s.w (preAt dt s)
  · intro i hi
    have hlen : s'.trace.length = s.trace.length + 1 := by rw [htr]; simp
    rcases Nat.lt_or_ge i s.trace.length with hlt | hge
    · have e : s'.trace[i] = s.trace[i] := by
        simp only [htr]; rw [List.getElem_append_left hlt]
      rw [e, hI.before i hlt, htr, List.take_append_of_le_length (le_of_lt hlt)]
    · have : i = s.trace.length := by omega
      subst this
      have e : s'.trace[s.trace.length] = ⟨preAt dt s, codeAt K dt s, (outAt K dt s).p⟩ := by
        simp only [htr]; rw [List.getElem_append_right (le_refl _)]; simp
      rw [e, htr, List.take_append_of_le_length (le_refl _), List.take_length, ← hI.now]
      rfl

theorem trace_step (K : Kern W V) (E dt : ℚ) (p0 : Particle V) (s : LS W V)
    (hI : TraceInv K p0 s) : TraceInv K p0 (step K E dt s).1 := by
  by_cases hr : codeAt K dt s = .success ∨ codeAt K dt s = .delete
  · refine TraceInv.of_snoc K p0 s _ dt hI ?_ ?_
    · rw [step_commit K E dt s hr rfl rfl rfl rfl rfl]
    · rw [step_commit K E dt s hr rfl rfl rfl rfl rfl]
      simp only [commit]
      rw [if_pos (show Call.done ⟨preAt dt s, codeAt K dt s, (outAt K dt s).p⟩ from hr)]
  · obtain ⟨_, _, _, _, h5, h6⟩ := step_fail K E dt s hr
    refine TraceInv.of_snoc K p0 s _ dt hI h5 ?_
    rw [h6]
    simp only [commit]
    rw [if_neg (show ¬ Call.done ⟨preAt dt s, codeAt K dt s, (outAt K dt s).p⟩ from hr)]

theorem exec1_trace (K : Kern W V) (E dt : ℚ)
    (fuel : Nat) (w : W) (back : Option (Particle V)) (p : Particle V) (s : LS W V)
    (h : exec1 K E dt fuel w back p = some s) : TraceInv K p s := by
  unfold exec1 at h
  simp only [] at h
  split at h
  · cases h
    refine ⟨?_, by simp, by simp⟩
    simp only [List.foldl_nil]
    split <;> rfl
  · refine loop_inv K E dt (TraceInv K p) (TraceInv K p) ?_ ?_ ?_ fuel _ s h
      ⟨rfl, by simp, by simp⟩
    · intro s hI _ _; exact trace_step K E dt p s hI
    · intro s hI _ _; exact trace_step K E dt p s hI
    · intro s hI _; exact hI

/-! ### Independence -/

/-- The kernel touches only its particle. -/
theorem step_local (k : Particle V → KOut V) (E dt : ℚ) (s t : LS W V)
    (h1 : s.p = t.p) (h2 : s.dtPos = t.dtPos) (h3 : s.nextDt = t.nextDt) (h4 : s.trace = t.trace) :
    let a := step (fun (w : W) p => (w, k p)) E dt s
    let b := step (fun (w : W) p => (w, k p)) E dt t
    a.2 = b.2 ∧ a.1.p = b.1.p ∧ a.1.dtPos = b.1.dtPos ∧ a.1.nextDt = b.1.nextDt ∧
      a.1.trace = b.1.trace := by
  simp only [step, h1, h2, h3, h4]
  split <;> exact ⟨rfl, rfl, rfl, rfl, rfl⟩

/-- The observable part of the loop result. -/
def obs (s : LS W V) : Particle V × List (Call V) := (s.p, s.trace)

theorem loop_local (k : Particle V → KOut V) (E dt : ℚ) :
    ∀ n (s t : LS W V), s.p = t.p → s.dtPos = t.dtPos → s.nextDt = t.nextDt → s.trace = t.trace →
      (loop (fun (w : W) p => (w, k p)) E dt n s).map obs =
      (loop (fun (w : W) p => (w, k p)) E dt n t).map obs := by
  intro n
  induction n with
  | zero => intros; rfl
  | succ n ih =>
    intro s t h1 h2 h3 h4
    have hst := step_local k E dt s t h1 h2 h3 h4
    simp only [] at hst
    obtain ⟨e1, e2, e3, e4, e5⟩ := hst
    have hc : cond dt s ↔ cond dt t := by unfold cond; rw [h1]
    rw [loop, loop]
    by_cases hcs : cond dt s
    · rw [if_pos hcs, if_pos (hc.mp hcs)]
      rcases ha : step (fun (w : W) p => (w, k p)) E dt s with ⟨s', b⟩
      rcases hb : step (fun (w : W) p => (w, k p)) E dt t with ⟨t', b'⟩
      rw [ha, hb] at e1 e2 e3 e4 e5
      simp only [] at e1 e2 e3 e4 e5
      subst e1
      cases b
      · exact ih s' t' e2 e3 e4 e5
      · simp [obs, e2, e5]
    · rw [if_neg hcs, if_neg (fun h => hcs (hc.mpr h))]
      simp [obs, h1, h4]

theorem exec1_local (k : Particle V → KOut V) (E dt : ℚ) (n : Nat) (w w' : W)
    (b b' : Option (Particle V)) (p : Particle V) :
    (exec1 (fun (w : W) p => (w, k p)) E dt n w b p).map obs =
    (exec1 (fun (w : W) p => (w, k p)) E dt n w' b' p).map obs := by
  unfold exec1
  simp only []
  split
  · rfl
  · exact loop_local k E dt n _ _ rfl rfl rfl rfl

theorem pass_local (k : Particle V → KOut V) (E dt : ℚ) (n : Nat) (w0 : W) :
    ∀ (ps : List (Particle V)) (w : W) (b : Option (Particle V)) rs,
      (∃ w' b', pass (fun (w : W) p => (w, k p)) E dt n w b ps = some (w', b', rs)) ↔
      List.Forall₂ (fun p r =>
        (exec1 (fun (w : W) p => (w, k p)) E dt n w0 none p).map obs = some r) ps rs := by
  intro ps
  induction ps with
  | nil =>
    intro w b rs
    constructor
    · rintro ⟨w', b', h⟩; simp [pass] at h; rw [h.2.2]; exact List.Forall₂.nil
    · intro h; cases h; exact ⟨w, b, rfl⟩
  | cons p ps ih =>
    intro w b rs
    rw [pass]
    have hl := exec1_local k E dt n w w0 b none p
    constructor
    · rintro ⟨w', b', h⟩
      split at h
      · cases h
      · rename_i s hs
        split at h
        · cases h
        · rename_i w2 b2 rs2 h2
          cases h
          refine List.Forall₂.cons ?_ ((ih _ _ _).mp ⟨_, _, h2⟩)
          rw [← hl, hs]; rfl
    · intro h
      cases h with
      | cons h1 h2 =>
        rw [← hl] at h1
        rcases hs : exec1 (fun (w : W) p => (w, k p)) E dt n w b p with _ | s
        · rw [hs] at h1; simp at h1
        · rw [hs] at h1
          simp at h1
          obtain ⟨w', b', h3⟩ := (ih s.w s.back _).mpr h2
          simp only [h3]
          refine ⟨w', b', ?_⟩
          rw [← h1]; rfl

/-! ### dt ≈ 0 -/

theorem exec1_zero (K : Kern W V) (E dt : ℚ) (hdt : isclose dt 0 = true)
    (n : Nat) (w : W) (b : Option (Particle V)) (p : Particle V) :
    ∃ s, exec1 K E dt (n + 1) w b p = some s ∧ s.trace.length = 1 := by
  have hns : ¬ skips E dt p := by
    unfold skips; rw [hdt]; simp
  unfold exec1
  simp only []
  rw [if_neg hns, loop]
  generalize hs : (LS.mk w p (min |p.dt| |E - p.time|) none b [] : LS W V) = s
  rw [if_pos (show cond dt s from Or.inr (Or.inr hdt))]
  have htr : s.trace = [] := by rw [← hs]
  have hb : (step K E dt s).2 = true ∧ (step K E dt s).1.trace.length = 1 := by
    by_cases hr : codeAt K dt s = .success ∨ codeAt K dt s = .delete
    · rw [step_commit K E dt s hr rfl rfl rfl rfl rfl, htr]
      exact ⟨hdt, rfl⟩
    · obtain ⟨h1, _, _, _, h5, _⟩ := step_fail K E dt s hr
      rw [h5, htr]; exact ⟨h1, rfl⟩
  rcases heq : step K E dt s with ⟨s', b'⟩
  rw [heq] at hb
  obtain ⟨h1, h2⟩ := hb
  simp only [] at h1 h2
  subst h1
  exact ⟨s', rfl, h2⟩

theorem pass_zero (K : Kern W V) (E dt : ℚ) (hdt : isclose dt 0 = true) (n : Nat) :
    ∀ (ps : List (Particle V)) (w : W) (b : Option (Particle V)),
      ∃ w' b' rs, pass K E dt (n + 1) w b ps = some (w', b', rs) ∧
        rs.length = ps.length ∧ ∀ r ∈ rs, r.2.length = 1 := by
  intro ps
  induction ps with
  | nil => intro w b; exact ⟨w, b, [], rfl, rfl, by simp⟩
  | cons p ps ih =>
    intro w b
    obtain ⟨s, hs, hl⟩ := exec1_zero K E dt hdt n w b p
    obtain ⟨w', b', rs, h1, h2, h3⟩ := ih s.w s.back
    refine ⟨w', b', (s.p, s.trace) :: rs, ?_, by simp [h2], ?_⟩
    · rw [pass, hs]; simp only []; rw [h1]
    · intro r hr
      rcases List.mem_cons.mp hr with h | h
      · rw [h]; exact hl
      · exact h3 r h

end Parcels.KernelLoop
