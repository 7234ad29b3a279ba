import Verif.Proofs.Recovery

/-!
Properties C04, C05, C06 and C60 of `Kernel.execute` (Scipy mode): deletion and error recovery.
-/

namespace Parcels.Recovery

open Parcels.KernelLoop

variable {W V : Type}

/-! ## C04 -/

/-- C04. When `Kernel.execute` returns normally, for every kernel, every recovery dictionary and any
number of recovery rounds: every remaining particle is in state Success or Evaluate (so none is in
Delete, Repeat or an error state); every removed particle had been marked Delete; the remaining
particles are still in their original order; and remaining and removed particles together are
exactly the particles that were there, none lost and none doubled. -/
theorem C04_execute_leaves_no_pending_particle (K : Kern W V) (user : RMap W V) (E dt : ℚ)
    (fuel nRounds : Nat) (w : W) (ps : List (TP V)) (r : Result V)
    (h : execute K user E dt fuel nRounds w ps = some r) :
    (r.ending = .normal → ∀ p ∈ r.ps, p.2.state = .success ∨ p.2.state = .evaluate) ∧
    (∀ p ∈ r.removed, p.2.state = .delete) ∧
    (r.ps.map Prod.fst).Sublist (ps.map Prod.fst) ∧
    (r.ps.map Prod.fst ++ r.removed.map Prod.fst).Perm (ps.map Prod.fst) := by
  unfold execute at h
  split at h
  · cases h
  · rename_i w1 ps1 cs h1
    have ht := (runPass_tags K E dt fuel _ _ _ _ _ h1).1
    have ht' : ps1.map Prod.fst = ps.map Prod.fst := by
      rw [ht, List.map_map]; rfl
    obtain ⟨a1, a2, a3, a4⟩ := rounds_spec K _ E dt fuel nRounds w1 (kept ps1) (dropped ps1) [cs] r h
      (dropped_delete ps1)
    refine ⟨a1, a2, ?_, ?_⟩
    · rw [← ht']; exact a3.trans ((kept_sublist ps1).map _)
    · refine a4.trans ?_
      rw [← ht', ← List.map_append]
      exact (kept_dropped_perm ps1).map _

/-! ## C05 -/

/-- The user's recovery functions, `Code → function on the particle` (`none` result = raise),
instrumented with a log of their invocations. -/
def logged (hs : Code → Option (Particle V → Option (Particle V))) :
    RMap (List (Code × Particle V)) V :=
  fun c => (hs c).map fun f => fun w p => (w ++ [(c, p)], f p)

/-- Under which key the handler for code `c` was registered by the user: `c` itself, or, for a
through-surface error without own handler, the out-of-bounds key. -/
def servedBy (hs : Code → Option (Particle V → Option (Particle V))) (c : Code) : Option Code :=
  if (hs c).isSome then some c
  else if c = .errorThroughSurface ∧ (hs .errorOutOfBounds).isSome then some .errorOutOfBounds
  else none

/-- Codes that are not errors to be recovered from. -/
def notAnError (c : Code) : Prop :=
  c = .success ∨ c = .evaluate ∨ c = .repeat ∨ c = .delete ∨ c = .stopExecution

instance (c : Code) : Decidable (notAnError c) := by unfold notAnError; infer_instance

theorem recoveryMap_logged (hs : Code → Option (Particle V → Option (Particle V))) (c : Code) :
    recoveryMap (logged hs) c =
      match servedBy hs c with
      | some key => logged hs key
      | none => baseMap c := by
  unfold recoveryMap extendUser servedBy logged
  rcases h1 : hs c with _ | f
  · by_cases h2 : c = .errorThroughSurface
    · subst h2
      rcases h3 : hs .errorOutOfBounds with _ | g <;> simp [h1, h3]
    · simp [h1, h2]
  · by_cases h2 : c = .errorThroughSurface
    · subst h2; simp [h1]
    · simp [h1, h2]

/-- C05, "exactly, once each": the log of recovery-function invocations of one recovery round is the
list of the particles in the codes the functions are registered for, in collection order, each
once, and the function sees the particle in state Success. -/
theorem C05_handlers_called_exactly_on_their_errors
    (hs : Code → Option (Particle V → Option (Particle V))) (w w' : List (Code × Particle V))
    (ps ps' : List (TP V)) (h : handleAll (recoveryMap (logged hs)) w ps = .done w' ps') :
    w' = w ++ ps.filterMap fun p =>
      if notAnError p.2.state then none
      else (servedBy hs p.2.state).map fun key => (key, { p.2 with state := .success }) := by
  induction ps generalizing w ps' with
  | nil => simp [handleAll] at h; simp [h.1]
  | cons p ps ih =>
    rw [handleAll] at h
    split at h
    · rename_i herr
      split at h
      · cases h
      · cases h
      · rename_i v' p1 hp1
        split at h
        · rename_i w2 ps2 h2
          cases h
          rw [ih _ _ h2]
          unfold handleOne at hp1
          split at hp1
          · cases hp1
          · rename_i n1
            split at hp1
            · rename_i n2; cases hp1; simp [List.filterMap_cons, notAnError, n2]
            · rename_i n2
              split at hp1
              · rename_i n3; cases hp1; simp [List.filterMap_cons, notAnError, n3]
              · rename_i n3
                have hn : ¬ notAnError p.2.state := by
                  unfold notAnError
                  unfold isError at herr
                  simp [herr.1, herr.2, n1, n2, n3]
                rw [recoveryMap_logged] at hp1
                rw [List.filterMap_cons]
                simp only [hn, if_false]
                rcases hk : servedBy hs p.2.state with _ | key
                · simp only [hk] at hp1
                  simp only [Option.map_none]
                  split at hp1
                  · rename_i g hg
                    have hbase : g = fun w _ => (w, none) := by
                      revert hg; unfold baseMap; split <;> intro hg <;> cases hg <;> rfl
                    subst hbase
                    cases hp1
                  · cases hp1; rfl
                · simp only [hk] at hp1
                  simp only [Option.map_some]
                  split at hp1
                  · rename_i g hg
                    unfold logged at hg
                    rcases hf : hs key with _ | f
                    · simp [hf] at hg
                    · simp [hf] at hg
                      subst hg
                      split at hp1
                      · cases hp1
                      · rename_i w3 p3 he
                        cases hp1
                        have hw : w ++ [(key, { p.2 with state := .success })] = v' :=
                          congrArg Prod.fst he
                        rw [← hw]; simp
                  · rename_i hg
                    exfalso
                    unfold logged at hg
                    have : (hs key).isSome := by
                      unfold servedBy at hk
                      split at hk
                      · rename_i hx; cases hk; exact hx
                      · split at hk
                        · rename_i hx; cases hk; exact hx.2
                        · cases hk
                    rw [Option.map_eq_none_iff] at hg
                    rw [hg] at this; cases this
        · rename_i h1 h2
          exact absurd h (h2 _ _)
    · rename_i herr
      split at h
      · rename_i w2 ps2 h2
        cases h
        rw [ih _ _ h2]
        have : notAnError p.2.state := by
          unfold isError at herr
          unfold notAnError
          by_cases h1 : p.2.state = .success
          · exact Or.inl h1
          · by_cases h2 : p.2.state = .evaluate
            · exact Or.inr (Or.inl h2)
            · exact absurd ⟨h1, h2⟩ herr
        simp [List.filterMap_cons, this]
      · rename_i h1 h2
        exact absurd h (h2 _ _)

/-- C05, "what becomes of the particles" in one recovery round: particles without error are left
alone; Repeat becomes Evaluate; a particle whose error code has a handler becomes what the handler
makes of it, and is resumed (Evaluate) if the handler did not change its state; a particle whose
code has no handler at all is marked for deletion. -/
theorem C05_outcome_of_recovery
    (hs : Code → Option (Particle V → Option (Particle V))) (w w' : List (Code × Particle V))
    (ps ps' : List (TP V)) (h : handleAll (recoveryMap (logged hs)) w ps = .done w' ps') :
    List.Forall₂ (fun p p' => p'.1 = p.1 ∧
      (p.2.state = .success ∨ p.2.state = .evaluate ∨ p.2.state = .delete → p'.2 = p.2) ∧
      (p.2.state = .repeat → p'.2 = { p.2 with state := .evaluate }) ∧
      (¬ notAnError p.2.state → ∀ key f, servedBy hs p.2.state = some key → hs key = some f →
        ∃ q, f { p.2 with state := .success } = some q ∧
          p'.2 = if q.state = .success then { q with state := .evaluate } else q) ∧
      (¬ notAnError p.2.state → servedBy hs p.2.state = none →
        p'.2 = { p.2 with state := .delete })) ps ps' := by
  refine (handleAll_forall₂ _ ps w w' ps' h).imp ?_
  intro p p' ⟨e1, e2, e3⟩
  refine ⟨e1, ?_, ?_, ?_, ?_⟩
  · rintro (hs | hs | hs)
    · exact e2 (by unfold isError; simp [hs])
    · exact e2 (by unfold isError; simp [hs])
    · obtain ⟨v, v', hv⟩ := e3 (by unfold isError; simp [hs])
      unfold handleOne at hv
      simp [hs] at hv
      exact hv.2.symm
  · intro hs
    obtain ⟨v, v', hv⟩ := e3 (by unfold isError; simp [hs])
    unfold handleOne at hv
    simp [hs] at hv
    exact hv.2.symm
  · intro hn key f hk hf
    have hn' := hn
    unfold notAnError at hn'
    simp only [not_or] at hn'
    obtain ⟨n1, n2, n3, n4, n5⟩ := hn'
    obtain ⟨v, v', hv⟩ := e3 ⟨n1, n2⟩
    unfold handleOne at hv
    rw [if_neg n5, if_neg n3, if_neg n4, recoveryMap_logged, hk] at hv
    simp only [logged, hf, Option.map_some] at hv
    split at hv
    · cases hv
    · rename_i w3 p3 he
      injection hv with hv1 hv2
      have he' : f { p.2 with state := .success } = some p3 := congrArg Prod.snd he
      exact ⟨p3, he', hv2.symm⟩
  · intro hn hk
    have hn' := hn
    unfold notAnError at hn'
    simp only [not_or] at hn'
    obtain ⟨n1, n2, n3, n4, n5⟩ := hn'
    obtain ⟨v, v', hv⟩ := e3 ⟨n1, n2⟩
    unfold handleOne at hv
    rw [if_neg n5, if_neg n3, if_neg n4, recoveryMap_logged, hk] at hv
    simp only [] at hv
    split at hv
    · rename_i g hg
      have hbase : g = fun w _ => (w, none) := by
        revert hg; unfold baseMap; split <;> intro hg <;> cases hg <;> rfl
      subst hbase
      cases hv
    · injection hv with hv1 hv2
      exact hv2.symm

/-- A recovery dictionary with only an out-of-bounds function, which brings the particle back. -/
def bringBack : Code → Option (Particle ℚ → Option (Particle ℚ))
  | .errorOutOfBounds => some fun p => some { p with vars := 0 }
  | _ => none

example : (match handleAll (recoveryMap (logged bringBack)) []
    [(0, ⟨0, 1, .errorOutOfBounds, 7⟩), (1, ⟨0, 1, .success, 8⟩), (2, ⟨0, 1, .errorThroughSurface, 9⟩),
     (3, ⟨0, 1, .repeat, 10⟩), (4, ⟨0, 1, .other 42, 11⟩)] with
    | .done w ps => (w.map (·.1), ps.map fun p => (p.2.state, p.2.vars))
    | _ => ([], [])) =
    ([.errorOutOfBounds, .errorOutOfBounds],
     [(.evaluate, 0), (.success, 8), (.evaluate, 0), (.evaluate, 10), (.delete, 11)]) := by
  decide +kernel

/-- A kernel that leaves the domain when x > 5 and deletes particles with x < 0. -/
def boundedKernel : Kern Unit ℚ := fun w p =>
  if p.vars > 5 then (w, { p := p, nextDt := none, res := .exc .outOfBound })
  else if p.vars < 0 then (w, { p := { p with state := .delete }, nextDt := none, res := .ret none })
  else (w, { p := { p with vars := p.vars + p.dt }, nextDt := none, res := .ret none })

/-- A recovery dictionary that moves out-of-bounds particles to x = 0. -/
def toZero : RMap Unit ℚ
  | .errorOutOfBounds => some fun w p => (w, some { p with vars := 0 })
  | _ => none

example : ((execute boundedKernel toZero 4 1 10 10 ()
    [(0, ⟨0, 1, .success, 3⟩), (1, ⟨0, 1, .success, -1⟩), (2, ⟨2, 1, .success, 1⟩)]).map fun r =>
      (r.ending, r.ps.map (fun p => (p.1, p.2.state, p.2.vars)), r.removed.map (·.1)))
    = some (.normal, [(0, .success, 1), (2, .success, 3)], [1]) := by
  decide +kernel

/-! ## C06 -/

/-- Number of kernel calls for the particle with tag `t` in a result. -/
def callsFor (t : Nat) (r : Result V) : Nat :=
  (r.calls.map fun cs => ((cs.filter fun c => c.1 = t).map fun c => c.2.length).sum).sum

/-- C06 is false of the code. With dt = 0 and a recovery function that resumes one failed particle,
the recovery rerun executes the kernel a second time on all the other particles: here the second
particle (tag 1), which had no error, gets two calls. -/
theorem C06_runtime_zero_runs_twice :
    ∃ (K : Kern Unit ℚ) (user : RMap Unit ℚ) (ps : List (TP ℚ)) (r : Result ℚ),
      execute K user 0 0 10 10 () ps = some r ∧ r.ending = .normal ∧ callsFor 1 r = 2 := by
  have h : ((execute boundedKernel toZero 0 0 10 10 ()
      [(0, ⟨0, 0, .success, 7⟩), (1, ⟨0, 0, .success, 1⟩)]).map fun r => (r.ending, callsFor 1 r))
      = some (.normal, 2) := by decide +kernel
  rcases hr : execute boundedKernel toZero 0 0 10 10 ()
      [(0, ⟨0, 0, .success, 7⟩), (1, ⟨0, 0, .success, 1⟩)] with _ | r
  · rw [hr] at h; cases h
  · rw [hr] at h
    simp only [Option.map_some, Option.some.injEq, Prod.mk.injEq] at h
    exact ⟨boundedKernel, toZero, _, r, hr, h.1, h.2⟩

/-- The kernel never fails: it returns None, Success or Delete, and changes the state at most to
Delete; it leaves time and dt alone. -/
def NeverFails (K : Kern W V) : Prop :=
  ∀ w p, ((K w p).2.res = .ret none ∨ (K w p).2.res = .ret (some .success) ∨
      (K w p).2.res = .ret (some .delete)) ∧
    ((K w p).2.p.state = p.state ∨ (K w p).2.p.state = .delete) ∧
    (K w p).2.p.time = p.time ∧ (K w p).2.p.dt = p.dt

theorem neverFails_code {K : Kern W V} (hK : NeverFails K) (dt : ℚ) (s : LS W V) :
    codeAt K dt s = .success ∨ codeAt K dt s = .delete := by
  unfold codeAt resolve outAt
  obtain ⟨h1, h2, _, h4⟩ := hK s.w (preAt dt s)
  have hcl : isclose (K s.w (preAt dt s)).2.p.dt (preAt dt s).dt = true := by
    rw [h4]; exact isclose_self _
  rcases h1 with h1 | h1 | h1 <;> rw [h1] <;> rcases h2 with h2 | h2 <;>
    by_cases h5 : (K s.w (preAt dt s)).2.p.state = (preAt dt s).state <;>
    simp_all

theorem exec1_zero_neverFails (K : Kern W V) (hK : NeverFails K) (E : ℚ) (n : Nat) (w : W)
    (b : Option (Particle V)) (p : Particle V) (s : LS W V)
    (h : exec1 K E 0 (n + 1) w b p = some s) :
    s.p.time = p.time ∧ (s.p.state = .success ∨ s.p.state = .delete) := by
  have hz : isclose (0 : ℚ) 0 = true := isclose_self 0
  have hns : ¬ skips E 0 p := by unfold skips; rw [hz]; simp
  unfold exec1 at h
  simp only [] at h
  rw [if_neg hns, loop] at h
  generalize hs : (LS.mk w p (min |p.dt| |E - p.time|) none b [] : LS W V) = s0 at h
  rw [if_pos (show cond 0 s0 from Or.inr (Or.inr hz))] at h
  have hr := neverFails_code hK 0 s0
  rw [step_commit K E 0 s0 hr rfl rfl rfl rfl rfl] at h
  simp only [hz] at h
  cases h
  simp only []
  obtain ⟨_, _, ht, hd⟩ := hK s0.w (preAt 0 s0)
  have e1 : (outAt K 0 s0).p.dt = 0 := by
    unfold outAt; rw [hd]; simp [preAt, sgn_zero]
  have e2 : (outAt K 0 s0).p.time = p.time := by
    unfold outAt; rw [ht]; simp [preAt, ← hs]
  refine ⟨by rw [e1, e2, add_zero], ?_⟩
  split
  · rename_i hc
    exfalso
    have h1 := hc.2.1
    have h2 := hc.2.2
    rw [sgn_zero] at h2
    have h3 : E - ((outAt K 0 s0).p.time + (outAt K 0 s0).p.dt) = 0 := by
      rcases sgn_cases (E - ((outAt K 0 s0).p.time + (outAt K 0 s0).p.dt)) with
        ⟨_, e⟩ | ⟨_, e⟩ | ⟨e, _⟩
      · rw [e] at h2; norm_num at h2
      · rw [e] at h2; norm_num at h2
      · exact e
    apply h1
    rw [h3, abs_zero, min_eq_right (abs_nonneg _)]
    exact isclose_self 0
  · exact hr

theorem zipWith_mem {α β γ : Type} (f : α → β → γ) (R : α → β → Prop) :
    ∀ (ps : List α) (rs : List β), List.Forall₂ R ps rs →
      ∀ x ∈ List.zipWith f ps rs, ∃ a ∈ ps, ∃ b ∈ rs, R a b ∧ x = f a b := by
  intro ps rs h
  induction h with
  | nil => intro x hx; simp at hx
  | cons h _ ih =>
    intro x hx
    rw [List.zipWith_cons_cons] at hx
    rcases List.mem_cons.mp hx with hx | hx
    · exact ⟨_, List.mem_cons_self, _, List.mem_cons_self, h, hx⟩
    · obtain ⟨a, ha, b, hb, hR, e⟩ := ih x hx
      exact ⟨a, List.mem_cons_of_mem _ ha, b, List.mem_cons_of_mem _ hb, hR, e⟩

/-- C06, partial: with dt = 0, a kernel that never fails is executed exactly once on every particle,
no particle's time changes, and `execute` returns. Missing: kernels that fail on some particles
(false, `C06_runtime_zero_runs_twice`); for those, `C06_one_call_per_pass` gives exactly one call in
each pass. -/
theorem C06_runtime_zero_once_partial (K : Kern W V) (hK : NeverFails K) (user : RMap W V) (E : ℚ)
    (fuel nRounds : Nat) (w : W) (ps : List (TP V)) :
    ∃ r cs, execute K user E 0 (fuel + 1) (nRounds + 1) w ps = some r ∧ r.ending = .normal ∧
      r.calls = [cs] ∧ cs.map Prod.fst = ps.map Prod.fst ∧ (∀ c ∈ cs, c.2.length = 1) ∧
      ∀ p ∈ r.ps, ∃ q ∈ ps, q.1 = p.1 ∧ q.2.time = p.2.time := by
  have hz : isclose (0 : ℚ) 0 = true := isclose_self 0
  set ps0 : List (TP V) := ps.map fun p => (p.1, { p.2 with state := .evaluate }) with hps0
  obtain ⟨w1, b1, rs, h1, h2, h3⟩ := pass_zero K E 0 hz fuel (ps0.map Prod.snd) w none
  rw [List.length_map] at h2
  have hrun : runPass K E 0 (fuel + 1) w ps0 = some (w1,
      List.zipWith (fun a r => (a.1, r.1)) ps0 rs, List.zipWith (fun a r => (a.1, r.2)) ps0 rs) := by
    unfold runPass; rw [h1]
  have hF := pass_forall₂ K E 0 (fuel + 1)
    (fun p r => r.1.time = p.time ∧ (r.1.state = .success ∨ r.1.state = .delete))
    (fun w b p s hs => exec1_zero_neverFails K hK E fuel w b p s hs) _ w none w1 b1 rs h1
  rw [List.forall₂_map_left_iff] at hF
  have hmem := zipWith_mem (fun (a : TP V) (r : Particle V × List (Call V)) => (a.1, r.1)) _ ps0 rs hF
  have hns : ((kept (List.zipWith (fun a r => (a.1, r.1)) ps0 rs)).any fun p => isError p.2) = false := by
    rw [Bool.eq_false_iff]
    intro hany
    rw [List.any_eq_true] at hany
    obtain ⟨p, hp, he⟩ := hany
    have hnd := kept_not_delete _ p hp
    obtain ⟨a, _, b, _, ⟨_, hst⟩, e⟩ := hmem p ((kept_sublist _).subset hp)
    rw [e] at hnd he
    simp only [] at hnd
    have hse : b.1.state = .success := by
      rcases hst with h | h
      · exact h
      · exact absurd h hnd
    simp [isError, hse] at he
  refine ⟨⟨.normal, kept (List.zipWith (fun a r => (a.1, r.1)) ps0 rs),
    dropped (List.zipWith (fun a r => (a.1, r.1)) ps0 rs),
    [List.zipWith (fun a r => (a.1, r.2)) ps0 rs]⟩,
    List.zipWith (fun a r => (a.1, r.2)) ps0 rs, ?_, rfl, rfl, ?_, ?_, ?_⟩
  · unfold execute
    rw [← hps0, hrun]
    simp only []
    rw [rounds, if_neg (by rw [hns]; simp)]
  · rw [zipWith_fst _ ps0 rs h2.symm, hps0, List.map_map]; rfl
  · intro c hc
    obtain ⟨a, _, b, hb, _, e⟩ := zipWith_mem (fun (a : TP V) (r : Particle V × List (Call V)) =>
      (a.1, r.2)) _ ps0 rs hF c hc
    rw [e]; exact h3 b hb
  · intro p hp
    obtain ⟨a, ha, b, _, ⟨ht, _⟩, e⟩ := hmem p ((kept_sublist _).subset hp)
    rw [hps0, List.mem_map] at ha
    obtain ⟨q, hq, hqa⟩ := ha
    refine ⟨q, hq, ?_, ?_⟩
    · rw [e, ← hqa]
    · rw [e]; simp only []; rw [ht, ← hqa]

example : NeverFails (V := ℚ) (W := Unit) (fun w p =>
    (w, { p := { p with vars := p.vars + 1 }, nextDt := none, res := .ret none })) :=
  fun _ _ => ⟨Or.inl rfl, Or.inl rfl, rfl, rfl⟩

/-! ## C60: the caller's recovery dictionary -/

/-- The dictionary object the caller passed in, after `execute` has returned: lines 404-407 store
the inherited through-surface entry in the caller's own dictionary (parcels/kernel.py:406-407). -/
def callerDictAfter (user : RMap W V) : RMap W V := extendUser user

/-- C60 is false of the code: `execute` changes the caller's dictionary, and if the caller later
replaces its out-of-bounds function and calls `execute` again, through-surface errors still go to
the old function. -/
theorem C60_recovery_dictionary_is_changed :
    ∃ (user : RMap Unit ℚ) (new : Handler Unit ℚ) (p : Particle ℚ),
      callerDictAfter user .errorThroughSurface ≠ user .errorThroughSurface ∧
      let second : RMap Unit ℚ := fun c =>
        if c = .errorOutOfBounds then some new else callerDictAfter user c
      ∃ f, recoveryMap second .errorThroughSurface = some f ∧ (f () p).2 ≠ (new () p).2 := by
  refine ⟨toZero, fun w p => (w, some { p with vars := 1 }), ⟨0, 0, .success, 3⟩, ?_, ?_⟩
  · intro h
    have : (callerDictAfter toZero .errorThroughSurface).isSome = (toZero .errorThroughSurface).isSome := by
      rw [h]
    revert this; decide
  · refine ⟨fun w p => (w, some { p with vars := 0 }), rfl, ?_⟩
    simp

/-- C60, partial: `execute` leaves every entry other than the through-surface one as it was, and
leaves the dictionary entirely alone when the caller registered a through-surface function or no
out-of-bounds function. -/
theorem C60_recovery_dictionary_partial (user : RMap W V) (c : Code)
    (h : c ≠ .errorThroughSurface ∨ (user .errorThroughSurface).isSome ∨
      user .errorOutOfBounds = none) :
    callerDictAfter user c = user c := by
  unfold callerDictAfter extendUser
  rcases h with h | h | h
  · rw [if_neg (fun hx => h hx.1)]
  · rw [if_neg]
    rintro ⟨_, _, hx⟩
    rw [Option.isNone_iff_eq_none] at hx
    rw [hx] at h; cases h
  · rw [if_neg]
    rintro ⟨_, hx, _⟩
    rw [h] at hx; cases hx

example : toZero .errorOutOfBounds ≠ none := by simp [toZero]

end Parcels.Recovery
