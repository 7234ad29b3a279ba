import Verif.Proofs.JitClock
import Verif.Proofs.Recovery
import Verif.Model.JitExec
import Verif.Props.KernelLoop

/-!
C01, C02, C03, C04 and C06 in JIT mode: the same claims as in Props/KernelLoop and Props/Recovery, for the loop of the generated
C code and `Kernel.execute` around it. `g` is the pair of C globals `_next_dt_set`, `_next_dt` left from before.
-/

namespace Parcels.JitLoop

open KernelLoop

variable {W V : Type}

/-! ## C01 -/

/-- C01 in JIT mode. For every kernel that respects the clock, every set and every particle with a step of its own that is not
already past `E`: time moves only in the direction of `dt` and never past `E`; every kernel call happens between the start time
and `E` with a step in the direction of `dt` that is no longer than what is left. Whatever step an earlier particle left in the
globals. -/
theorem C01_jit_clock_never_passes_end (K : Kern W V) (hK : RespectsClock K) (E dt : ℚ) (hdt : dt ≠ 0) (fuel : Nat) (w w' : W)
    (g g' : Option ℚ) (ps : List (Particle V)) (rs : List (Particle V × List (Call V)))
    (h : pass K E dt fuel w g ps = some (w', g', rs)) :
    List.Forall₂ (fun p r => p.dt ≠ 0 → NotBefore dt p.time E →
      NotBefore dt p.time r.1.time ∧ NotBefore dt r.1.time E ∧
      ∀ c ∈ r.2, NotBefore dt p.time c.before.time ∧ NotBefore dt c.before.time E ∧
        0 < c.before.dt * sgn dt ∧ |c.before.dt| ≤ |E - c.before.time|) ps rs := by
  refine jpass_forall₂ K E dt fuel (fun _ => True) _ ?_ ps w g w' g' rs trivial h
  intro w g p s _ hs
  refine ⟨fun hnz hahead => ?_, trivial⟩
  have hC := jexec1_clock K hK E dt hdt fuel w g p s hs hnz hahead
  exact ⟨hC.le, hC.le', hC.calls⟩

/-- C01 in JIT mode. A particle that was waiting to be executed and ends in state Success has arrived at `E`, up to the
closeness tolerance; a step left in the globals must be a real one. -/
theorem C01_jit_success_means_arrived (K : Kern W V) (hK : RespectsClock K) (hN : RequestsRealSteps K)
    (E dt : ℚ) (hdt : dt ≠ 0) (fuel : Nat) (w w' : W) (g g' : Option ℚ) (hg : ∀ x, g = some x → 1 / 100000000 < |x|)
    (ps : List (Particle V)) (rs : List (Particle V × List (Call V)))
    (h : pass K E dt fuel w g ps = some (w', g', rs)) :
    List.Forall₂ (fun p r => NotBefore dt p.time E → Pending p → 1 / 100000000 < |p.dt| →
      r.1.state = .success → |E - r.1.time| ≤ 1 / 100000000) ps rs :=
  jpass_forall₂ K E dt fuel Real _
    (fun w g p s hg hs => ⟨fun ha hp hd hst => jexec1_success K hK hN E dt hdt fuel w g p s hs hg ha hp hd hst,
      jexec1_real K hN E dt fuel w g p s hs hg⟩)
    ps w g w' g' rs hg h

/-- C01 in JIT mode. If the kernel leaves time and dt alone, the i-th call of a particle happens exactly `i` full steps after
its start time, and sees the step `min(|dt|, |E - time|)` in the direction of `dt`. -/
theorem C01_jit_calls_evenly_spaced (K : Kern W V) (hK : LeavesDtAlone K) (E dt : ℚ) (hdt : dt ≠ 0) (fuel : Nat) (w w' : W)
    (g' : Option ℚ) (ps : List (Particle V)) (rs : List (Particle V × List (Call V)))
    (h : pass K E dt fuel w none ps = some (w', g', rs)) :
    List.Forall₂ (fun p r => p.dt ≠ 0 → NotBefore dt p.time E → ∀ (i : Nat) (hi : i < r.2.length),
      (r.2[i]).before.time = p.time + i * (sgn dt * |p.dt|) ∧
      (r.2[i]).before.dt = sgn dt * min |p.dt| |E - (r.2[i]).before.time|) ps rs :=
  jpass_forall₂ K E dt fuel (fun g => g = none) _
    (fun w g p s hg hs => by
      subst hg
      have := jexec1_even K hK E dt hdt fuel w p s hs
      exact ⟨this.2, this.1⟩)
    ps w none w' g' rs rfl h

/-- C01/C12 in JIT mode. The inner loop of one particle stops: a kernel that leaves time and dt alone is called at most `n + 1`
times when `n` full steps cover the distance to `E`. -/
theorem C01_jit_loop_terminates (K : Kern W V) (hK : LeavesDtAlone K) (E dt : ℚ) (hdt : dt ≠ 0) (n : Nat) (w : W)
    (p : Particle V) (hd0 : 0 < |p.dt|) (hahead : NotBefore dt p.time E) (hn : |E - p.time| ≤ n * |p.dt|) :
    (exec1 K E dt (n + 1) w none p).isSome :=
  jexec1_terminates K hK E dt hdt n w p hd0 hahead hn

example : ((pass driftKernel 10 3 20 () none twoParticles).map fun r =>
    r.2.2.map fun x => x.2.map fun c => (c.before.time, c.before.dt))
    = some [[(0, 3), (3, 3), (6, 3), (9, 1)], [(4, 3), (7, 3)]] := by
  decide +kernel

/-- The extra hypothesis that no particle has step 0 is needed: such a particle, waiting at time 4 for time 10, gets one call
with step 0. -/
example : ((pass driftKernel 10 3 20 () none [⟨4, 0, .evaluate, 200⟩]).map fun r =>
    r.2.2.map fun x => (x.1.time, x.2.map fun c => (c.before.time, c.before.dt)))
    = some [(4, [(4, 0)])] := by
  decide +kernel

/-! ## C02 -/

/-- C02 in JIT mode. After any number of calls, a particle's time and variables are exactly what its completed calls made of
them; every call was given the particle as the completed calls before it left it, and the recorded outcome of each call is what
the kernel really did. No assumption on the kernel. (Variables of type uint64 are not restored by the generated code, see C67;
here `vars` stands for the other variables.) -/
theorem C02_jit_failed_call_leaves_no_trace (K : Kern W V) (E dt : ℚ) (fuel : Nat) (w w' : W) (g g' : Option ℚ)
    (ps : List (Particle V)) (rs : List (Particle V × List (Call V)))
    (h : pass K E dt fuel w g ps = some (w', g', rs)) :
    List.Forall₂ (fun p r =>
      (r.1.time, r.1.vars) = r.2.foldl commit (p.time, p.vars) ∧
      (∀ c ∈ r.2, GenuineJit K c) ∧
      ∀ i (hi : i < r.2.length), ((r.2[i]).before.time, (r.2[i]).before.vars) =
        (r.2.take i).foldl commit (p.time, p.vars)) ps rs :=
  jpass_forall₂ K E dt fuel (fun _ => True) _
    (fun w g p s _ hs => by
      have hT := jexec1_trace K E dt fuel w g p s hs
      exact ⟨⟨hT.now, hT.genuine, hT.before⟩, trivial⟩) ps w g w' g' rs trivial h

-- The step of 1 asked for by the failed call of the first particle is given to the second (C46), which needs four calls.
example : ((pass clobberKernel 10 3 20 () none twoParticles).map fun r =>
    r.2.2.map fun x => (x.1.time, x.1.state, x.1.vars, x.2.map (·.code)))
    = some [(3, .errorOutOfBounds, 101, [.success, .errorOutOfBounds]),
            (10, .success, 204, [.success, .success, .success, .success])] := by
  decide +kernel

/-! ## C03 -/

/-- C03 in JIT mode, partial: for kernels that never call `update_next_dt`, executing a set is executing each particle alone.
Missing: kernels that do, where the claim is false (`C46_leak_fails`). -/
theorem C03_jit_each_particle_as_if_alone_partial (k : Particle V → KOut V) (hk : ∀ p, (k p).nextDt = none) (E dt : ℚ)
    (fuel : Nat) (w w' : W) (ps : List (Particle V)) (rs : List (Particle V × List (Call V)))
    (h : pass (ownParticleOnly k) E dt fuel w none ps = some (w', none, rs)) (v : W) :
    List.Forall₂ (fun p r => ∃ v', pass (ownParticleOnly k) E dt fuel v none [p] = some (v', none, [r])) ps rs := by
  have h1 := (jpass_own k hk E dt fuel w ps w rs).mp ⟨w', h⟩
  refine h1.imp ?_
  intro p r hr
  exact (jpass_own k hk E dt fuel w [p] v [r]).mpr (List.Forall₂.cons hr List.Forall₂.nil)

/-- C03 in JIT mode, partial: permuting the set permutes the result, for kernels that never call `update_next_dt`. -/
theorem C03_jit_permutation_partial (k : Particle V → KOut V) (hk : ∀ p, (k p).nextDt = none) (E dt : ℚ) (fuel : Nat)
    (w w' : W) (ps qs : List (Particle V)) (hperm : ps.Perm qs) (rs : List (Particle V × List (Call V)))
    (h : pass (ownParticleOnly k) E dt fuel w none ps = some (w', none, rs)) :
    ∃ w'' ts, pass (ownParticleOnly k) E dt fuel w none qs = some (w'', none, ts) ∧ (ps.zip rs).Perm (qs.zip ts) := by
  have h1 := (jpass_own k hk E dt fuel w ps w rs).mp ⟨w', h⟩
  have key : ∃ ts, List.Forall₂ (fun p r =>
      (exec1 (fun (w : W) p => (w, k p)) E dt fuel w none p).map jobs = some r) qs ts ∧
      (ps.zip rs).Perm (qs.zip ts) := by
    clear h
    induction hperm generalizing rs with
    | nil => cases h1; exact ⟨[], List.Forall₂.nil, List.Perm.refl _⟩
    | cons x _ ih =>
      cases h1 with
      | cons a t =>
        obtain ⟨ts, h2, h3⟩ := ih _ t
        exact ⟨_, List.Forall₂.cons a h2, List.Perm.cons _ h3⟩
    | swap x y l =>
      cases h1 with
      | cons a t =>
        cases t with
        | cons a' t' =>
          exact ⟨_, List.Forall₂.cons a' (List.Forall₂.cons a t'), List.Perm.swap _ _ _⟩
    | trans _ _ ih1 ih2 =>
      obtain ⟨ts, h2, h3⟩ := ih1 _ h1
      obtain ⟨us, h4, h5⟩ := ih2 _ h2
      exact ⟨us, h4, h3.trans h5⟩
  obtain ⟨ts, h2, h3⟩ := key
  obtain ⟨w'', e⟩ := (jpass_own k hk E dt fuel w qs w ts).mpr h2
  exact ⟨w'', ts, e, h3⟩

example : ∀ p, (driftKernel () p).2.nextDt = none := fun _ => rfl
example : ((pass driftKernel 10 3 20 () none twoParticles.reverse).map fun r => (r.2.1, r.2.2.map fun x => x.1.vars))
    = some (none, [206, 110]) := by decide +kernel

/-! ## C06 -/

/-- C06 in JIT mode, for one pass: with step 0 every particle, in whatever state, gets exactly one kernel call, with step 0, its
clock does not move and the loop ends. For kernels that leave time and dt alone. -/
theorem C06_jit_one_call_per_pass (K : Kern W V) (hK : LeavesDtAlone K) (E dt : ℚ) (n : Nat) (ps : List (Particle V)) (w : W)
    (hps : ∀ p ∈ ps, p.dt = 0) :
    ∃ w' rs, pass K E dt (n + 1) w none ps = some (w', none, rs) ∧
      List.Forall₂ (fun p r => r.2.length = 1 ∧ r.1.time = p.time ∧ ∀ c ∈ r.2, c.before.dt = 0) ps rs :=
  jpass_zero K hK E dt n ps w hps

example : ((pass driftKernel 3 0 1 () none [⟨3, 0, .evaluate, 5⟩, ⟨7, 0, .success, 6⟩]).map fun r =>
    r.2.2.map fun x => (x.1.time, x.1.vars, x.2.length)) = some [(3, 5, 1), (7, 6, 1)] := by
  decide +kernel

end Parcels.JitLoop

namespace Parcels.JitExec

open KernelLoop Recovery

variable {W V : Type}

/-! ## C04 -/

theorem runPass_tags (K : Kern W V) (prep : W → W) (E dt : ℚ) (fuel : Nat) (w w' : W × Option ℚ) (ps ps' : List (TP V))
    (h : runPass K prep E dt fuel w ps = some (w', ps')) : ps'.map Prod.fst = ps.map Prod.fst := by
  unfold runPass at h
  split at h
  · cases h
  · rename_i w1 g1 rs h1
    cases h
    have hl := (JitLoop.jpass_forall₂ K E dt fuel (fun _ => True) (fun _ _ => True)
      (fun _ _ _ _ _ _ => ⟨trivial, trivial⟩) _ _ _ _ _ _ trivial h1).length_eq
    rw [List.length_map] at hl
    exact zipWith_fst _ ps rs hl

theorem rounds_spec (K : Kern W V) (prep : W → W) (rm : RMap W V) (E dt : ℚ) (fuel : Nat) :
    ∀ (n : Nat) (w : W × Option ℚ) (ps removed : List (TP V)) (e : Ending) (qs out : List (TP V)),
      rounds K prep rm E dt fuel n w ps removed = some (e, qs, out) →
      (∀ p ∈ removed, p.2.state = .delete) →
      (e = .normal → ∀ p ∈ qs, p.2.state = .success ∨ p.2.state = .evaluate) ∧
      (∀ p ∈ out, p.2.state = .delete) ∧
      (qs.map Prod.fst).Sublist (ps.map Prod.fst) ∧
      (qs.map Prod.fst ++ out.map Prod.fst).Perm (ps.map Prod.fst ++ removed.map Prod.fst) := by
  intro n
  induction n with
  | zero => intro w ps removed e qs out h; simp [rounds] at h
  | succ n ih =>
    intro w ps removed e qs out h hrem
    rw [rounds] at h
    split at h
    · split at h
      · cases h; exact ⟨(by intro h; cases h), hrem, List.Sublist.refl _, List.Perm.refl _⟩
      · cases h; exact ⟨(by intro h; cases h), hrem, List.Sublist.refl _, List.Perm.refl _⟩
      · rename_i w1 ps1 h1
        split at h
        · cases h
        · rename_i w2 ps2 h2
          have ht := runPass_tags K prep E dt fuel _ _ _ _ h2
          have ht1 := handleAll_tags rm ps w.1 w1 ps1 h1
          obtain ⟨a1, a2, a3, a4⟩ := ih w2 ps2 (removed ++ dropped ps1) _ _ _ h (by
            intro p hp
            rcases List.mem_append.mp hp with h | h
            · exact hrem p h
            · exact dropped_delete ps1 p h)
          refine ⟨a1, a2, ?_, ?_⟩
          · rw [ht] at a3
            rw [← ht1]
            exact a3.trans ((kept_sublist ps1).map _)
          · refine a4.trans ?_
            rw [ht, ← ht1, List.map_append]
            have := ((kept_dropped_perm ps1).map Prod.fst)
            rw [List.map_append] at this
            refine List.Perm.trans ?_ (this.append_right _)
            rw [List.append_assoc]
            exact List.Perm.append_left _ List.perm_append_comm
    · rename_i hne
      cases h
      refine ⟨fun _ p hp => ?_, hrem, List.Sublist.refl _, List.Perm.refl _⟩
      simp only [List.any_eq_true, decide_eq_true_eq, not_exists, not_and] at hne
      have := hne p hp
      unfold isError at this
      by_cases h1 : p.2.state = .success
      · exact Or.inl h1
      · right
        by_contra h2
        exact this ⟨h1, h2⟩

/-- C04 in JIT mode. When `Kernel.execute` returns normally, for every kernel, every recovery dictionary, any number of recovery
rounds, and whatever Python does to the fields before each call of the C code: every remaining particle is in state Success or
Evaluate; every removed particle had been marked Delete; the remaining particles are still in their original order; and
remaining and removed particles together are exactly the particles that were there, none lost and none doubled. -/
theorem C04_jit_execute_leaves_no_pending_particle (K : Kern W V) (start prep : W → W) (user : RMap W V) (E dt : ℚ)
    (fuel nRounds : Nat) (w : W × Option ℚ) (ps : List (TP V)) (e : Ending) (qs out : List (TP V))
    (h : execute K start prep user E dt fuel nRounds w ps = some (e, qs, out)) :
    (e = .normal → ∀ p ∈ qs, p.2.state = .success ∨ p.2.state = .evaluate) ∧
    (∀ p ∈ out, p.2.state = .delete) ∧
    (qs.map Prod.fst).Sublist (ps.map Prod.fst) ∧
    (qs.map Prod.fst ++ out.map Prod.fst).Perm (ps.map Prod.fst) := by
  unfold execute at h
  split at h
  · cases h
  · rename_i w1 ps1 h1
    have ht := runPass_tags K prep E dt fuel _ _ _ _ h1
    have ht' : ps1.map Prod.fst = ps.map Prod.fst := by
      rw [ht, List.map_map]; rfl
    obtain ⟨a1, a2, a3, a4⟩ := rounds_spec K prep _ E dt fuel nRounds w1 (kept ps1) (dropped ps1) _ _ _ h
      (dropped_delete ps1)
    refine ⟨a1, a2, ?_, ?_⟩
    · rw [← ht']; exact a3.trans ((kept_sublist ps1).map _)
    · refine a4.trans ?_
      rw [← ht', ← List.map_append]
      exact (kept_dropped_perm ps1).map _

/-- A kernel that leaves the domain when x > 5 and deletes particles with x < 0. -/
def bounded : Kern Unit ℚ := fun w p =>
  if p.vars > 5 then (w, { p := p, nextDt := none, res := .exc .outOfBound })
  else if p.vars < 0 then (w, { p := { p with state := .delete }, nextDt := none, res := .ret none })
  else (w, { p := { p with vars := p.vars + p.dt }, nextDt := none, res := .ret none })

/-- A recovery dictionary that moves out-of-bounds particles to x = 0. -/
def home : RMap Unit ℚ
  | .errorOutOfBounds => some fun w p => (w, some { p with vars := 0 })
  | _ => none

example : ((execute bounded id id home 4 1 10 10 ((), none)
    [(0, ⟨0, 1, .success, 3⟩), (1, ⟨0, 1, .success, -1⟩), (2, ⟨2, 1, .success, 1⟩)]).map fun r =>
      (r.1, r.2.1.map (fun p => (p.1, p.2.state, p.2.vars)), r.2.2.map (·.1)))
    = some (.normal, [(0, .success, 1), (2, .success, 3)], [1]) := by
  decide +kernel

end Parcels.JitExec
