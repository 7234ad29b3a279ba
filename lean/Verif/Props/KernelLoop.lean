import Verif.Proofs.KernelLoop3

/-!
Properties C01, C02, C03, C06 (one pass) and C07 of the Scipy-mode particle loop
`Kernel.execute_python`. Vocabulary: Verif/Spec/KernelLoop.lean.
-/

namespace Parcels.KernelLoop

variable {W V : Type}

/-! ## C01: the clock never passes the end time -/

/-- C01. For every kernel that respects the clock (adaptive kernels included), every set of
particles and every particle that is not already past `E`: time moves only in the direction of
`dt` and never past `E`; every kernel call happens between the start time and `E` with a step in
the direction of `dt` that is no longer than what is left. -/
theorem C01_clock_never_passes_end (K : Kern W V) (hK : RespectsClock K) (E dt : ℚ)
    (hdt : isclose dt 0 = false) (fuel : Nat) (w w' : W) (back back' : Option (Particle V))
    (ps : List (Particle V)) (rs : List (Particle V × List (Call V)))
    (h : pass K E dt fuel w back ps = some (w', back', rs)) :
    List.Forall₂ (fun p r => NotBefore dt p.time E →
      NotBefore dt p.time r.1.time ∧ NotBefore dt r.1.time E ∧
      ∀ c ∈ r.2, NotBefore dt p.time c.before.time ∧ NotBefore dt c.before.time E ∧
        0 < c.before.dt * sgn dt ∧ |c.before.dt| ≤ |E - c.before.time|) ps rs := by
  refine pass_forall₂ K E dt fuel _ ?_ ps w back w' back' rs h
  intro w b p s hs hahead
  have hC := exec1_clock K hK E dt hdt fuel w b p s hs hahead
  exact ⟨hC.le, hC.le', hC.calls⟩

/-- C01. A particle that was waiting to be executed and ends in state Success has arrived at `E`,
up to the closeness tolerance. -/
theorem C01_success_means_arrived (K : Kern W V) (hK : RespectsClock K) (hN : RequestsRealSteps K)
    (E dt : ℚ) (hdt : isclose dt 0 = false) (fuel : Nat) (w w' : W)
    (back back' : Option (Particle V))
    (ps : List (Particle V)) (rs : List (Particle V × List (Call V)))
    (h : pass K E dt fuel w back ps = some (w', back', rs)) :
    List.Forall₂ (fun p r => NotBefore dt p.time E → Pending p → 1 / 100000000 < |p.dt| →
      r.1.state = .success → |E - r.1.time| ≤ 1 / 100000000) ps rs :=
  pass_forall₂ K E dt fuel _
    (fun w b p s hs ha hp hd hst => exec1_success K hK hN E dt hdt fuel w b p s hs ha hp hd hst)
    ps w back w' back' rs h

/-- C01. If the kernel leaves time and dt alone, the i-th call of a particle happens exactly
`i` full steps after its start time, and sees the step `min(|dt|, |E - time|)` in the direction
of `dt`. -/
theorem C01_calls_evenly_spaced (K : Kern W V) (hK : LeavesDtAlone K) (E dt : ℚ)
    (hdt : isclose dt 0 = false) (fuel : Nat) (w w' : W) (back back' : Option (Particle V))
    (ps : List (Particle V)) (rs : List (Particle V × List (Call V)))
    (h : pass K E dt fuel w back ps = some (w', back', rs)) :
    List.Forall₂ (fun p r => NotBefore dt p.time E → ∀ (i : Nat) (hi : i < r.2.length),
      (r.2[i]).before.time = p.time + i * (sgn dt * |p.dt|) ∧
      (r.2[i]).before.dt = sgn dt * min |p.dt| |E - (r.2[i]).before.time|) ps rs :=
  pass_forall₂ K E dt fuel _
    (fun w b p s hs ha => exec1_even K hK E dt hdt fuel w b p s hs ha) ps w back w' back' rs h

/-- C01/C12. The inner loop of one particle stops: a kernel that leaves time and dt alone is called
at most `n + 1` times when `n` full steps cover the distance to `E`. -/
theorem C01_loop_terminates (K : Kern W V) (hK : LeavesDtAlone K) (E dt : ℚ)
    (hdt : isclose dt 0 = false) (n : Nat) (w : W) (back : Option (Particle V)) (p : Particle V)
    (hd0 : 0 < |p.dt|) (hahead : NotBefore dt p.time E) (hn : |E - p.time| ≤ n * |p.dt|) :
    (exec1 K E dt (n + 1) w back p).isSome :=
  exec1_terminates K hK E dt hdt n w back p hd0 hahead hn

/-- A kernel that moves its particle by one unit per second. -/
def driftKernel : Kern Unit ℚ := fun w p =>
  (w, { p := { p with vars := p.vars + p.dt }, nextDt := none, res := .ret none })

/-- Two particles, one at time 0 and one at time 4, with dt = 3, on their way to time 10. -/
def twoParticles : List (Particle ℚ) :=
  [⟨0, 3, .evaluate, 100⟩, ⟨4, 3, .evaluate, 200⟩]

example : LeavesDtAlone driftKernel := fun _ _ => ⟨rfl, rfl, rfl⟩
example : RespectsClock driftKernel := fun _ _ => ⟨rfl, Or.inl rfl⟩
example : RequestsRealSteps driftKernel := fun _ _ _ h => by cases h
example : isclose (3 : ℚ) 0 = false := by decide +kernel
example : ∀ p ∈ twoParticles, NotBefore 3 p.time 10 ∧ Pending p ∧ 1 / 100000000 < |p.dt| := by
  intro p hp
  simp only [twoParticles, List.mem_cons, List.not_mem_nil, or_false] at hp
  rcases hp with h | h <;> subst h <;> simp only [NotBefore, Pending, sgn] <;> norm_num
example : ((pass driftKernel 10 3 20 () none twoParticles).map fun r =>
    r.2.2.map fun x => (x.1.time, x.1.state, x.1.vars))
    = some [(10, .success, 110), (10, .success, 206)] := by
  decide +kernel
example : ((pass driftKernel 10 3 20 () none twoParticles).map fun r =>
    r.2.2.map fun x => x.2.map fun c => (c.before.time, c.before.dt))
    = some [[(0, 3), (3, 3), (6, 3), (9, 1)], [(4, 3), (7, 3)]] := by
  decide +kernel

/-! ## C02: a failed or repeated call leaves no trace -/

/-- C02. After any number of calls, a particle's time and variables (all variables except `dt` and
`state`) are exactly what its completed calls (Success or Delete) made of them: the calls that
ended in an error, an exception, Repeat or a silent change of dt contribute nothing. Every call was
given the particle as the completed calls before it left it, and the recorded outcome of each call
is what the kernel really did. No assumption on the kernel. -/
theorem C02_failed_call_leaves_no_trace (K : Kern W V) (E dt : ℚ) (fuel : Nat) (w w' : W)
    (back back' : Option (Particle V)) (ps : List (Particle V))
    (rs : List (Particle V × List (Call V)))
    (h : pass K E dt fuel w back ps = some (w', back', rs)) :
    List.Forall₂ (fun p r =>
      (r.1.time, r.1.vars) = r.2.foldl commit (p.time, p.vars) ∧
      (∀ c ∈ r.2, Call.genuine K c) ∧
      ∀ i (hi : i < r.2.length), ((r.2[i]).before.time, (r.2[i]).before.vars) =
        (r.2.take i).foldl commit (p.time, p.vars)) ps rs :=
  pass_forall₂ K E dt fuel _
    (fun w b p s hs => by
      have hT := exec1_trace K E dt fuel w b p s hs
      exact ⟨hT.now, hT.genuine, hT.before⟩) ps w back w' back' rs h

/-- C02, the single call in isolation: if the only call ended in an error, the particle's time and
variables are those it started with. -/
theorem C02_single_failure (K : Kern W V) (E dt : ℚ) (fuel : Nat) (w w' : W)
    (back back' : Option (Particle V)) (p q : Particle V) (c : Call V)
    (h : pass K E dt fuel w back [p] = some (w', back', [(q, [c])]))
    (hc : c.code ≠ .success) (hc' : c.code ≠ .delete) :
    q.time = p.time ∧ q.vars = p.vars := by
  have := C02_failed_call_leaves_no_trace K E dt fuel w w' back back' [p] _ h
  cases this with
  | cons h1 _ =>
    have h2 := h1.1
    have hd : ¬ Call.done c := fun hd => by
      rcases hd with hd | hd
      · exact hc hd
      · exact hc' hd
    simp only [List.foldl_cons, List.foldl_nil, commit, if_neg hd] at h2
    exact ⟨congrArg Prod.fst h2, congrArg Prod.snd h2⟩

/-- A kernel that clobbers its particle and then raises once it is at time 3. -/
def clobberKernel : Kern Unit ℚ := fun w p =>
  if p.time = 3 then
    (w, { p := { p with vars := -1, time := 77 }, nextDt := some 1, res := .exc .outOfBound })
  else (w, { p := { p with vars := p.vars + 1 }, nextDt := none, res := .ret none })

example : ((pass clobberKernel 10 3 20 () none twoParticles).map fun r =>
    r.2.2.map fun x => (x.1.time, x.1.state, x.1.vars, x.2.map (·.code)))
    = some [(3, .errorOutOfBounds, 101, [.success, .errorOutOfBounds]),
            (10, .success, 202, [.success, .success])] := by
  decide +kernel

/-! ## C03: particles are processed independently -/

/-- A kernel that only looks at and touches its own particle. -/
def ownParticleOnly (k : Particle V → KOut V) : Kern W V := fun w p => (w, k p)

/-- C03. Executing a set is executing each particle alone, from any world and any leftovers in the
shared backup dictionary. -/
theorem C03_each_particle_as_if_alone (k : Particle V → KOut V) (E dt : ℚ) (fuel : Nat)
    (w w' : W) (b b' : Option (Particle V)) (ps : List (Particle V))
    (rs : List (Particle V × List (Call V)))
    (h : pass (ownParticleOnly k) E dt fuel w b ps = some (w', b', rs)) (v : W)
    (d : Option (Particle V)) :
    List.Forall₂ (fun p r => ∃ v' d',
      pass (ownParticleOnly k) E dt fuel v d [p] = some (v', d', [r])) ps rs := by
  have h1 := (pass_local k E dt fuel w ps w b rs).mp ⟨w', b', h⟩
  refine h1.imp ?_
  intro p r hr
  exact (pass_local k E dt fuel w [p] v d [r]).mpr (List.Forall₂.cons hr List.Forall₂.nil)

/-- C03. Whether the set is executed at all (no fuel exhaustion) is decided particle by particle. -/
theorem C03_set_runs_if_each_runs (k : Particle V → KOut V) (E dt : ℚ) (fuel : Nat)
    (w : W) (b : Option (Particle V)) (ps : List (Particle V))
    (h : ∀ p ∈ ps, (pass (ownParticleOnly k) E dt fuel w b [p]).isSome) :
    (pass (ownParticleOnly k) E dt fuel w b ps).isSome := by
  have : ∃ rs, List.Forall₂ (fun p r =>
      (exec1 (fun (w : W) p => (w, k p)) E dt fuel w none p).map obs = some r) ps rs := by
    induction ps with
    | nil => exact ⟨[], List.Forall₂.nil⟩
    | cons p ps ih =>
      obtain ⟨rs, hrs⟩ := ih (fun q hq => h q (List.mem_cons_of_mem _ hq))
      have hp := h p List.mem_cons_self
      rcases hx : pass (ownParticleOnly k) E dt fuel w b [p] with _ | ⟨w1, b1, r1⟩
      · rw [hx] at hp; cases hp
      · have := (pass_local k E dt fuel w [p] w b r1).mp ⟨_, _, hx⟩
        cases this with
        | cons a _ => exact ⟨_, List.Forall₂.cons a hrs⟩
  obtain ⟨rs, hrs⟩ := this
  obtain ⟨w', b', e⟩ := (pass_local k E dt fuel w ps w b rs).mpr hrs
  have e' : pass (ownParticleOnly k) E dt fuel w b ps = some (w', b', rs) := e
  rw [e']; rfl

/-- C03. Permuting the set permutes the result: particle by particle the outcome is the same. -/
theorem C03_permutation (k : Particle V → KOut V) (E dt : ℚ) (fuel : Nat)
    (w w' : W) (b b' : Option (Particle V)) (ps qs : List (Particle V)) (hperm : ps.Perm qs)
    (rs : List (Particle V × List (Call V)))
    (h : pass (ownParticleOnly k) E dt fuel w b ps = some (w', b', rs)) :
    ∃ w'' b'' ts, pass (ownParticleOnly k) E dt fuel w b qs = some (w'', b'', ts) ∧
      (ps.zip rs).Perm (qs.zip ts) := by
  have h1 := (pass_local k E dt fuel w ps w b rs).mp ⟨w', b', h⟩
  have key : ∃ ts, List.Forall₂ (fun p r =>
      (exec1 (fun (w : W) p => (w, k p)) E dt fuel w none p).map obs = some r) qs ts ∧
      (ps.zip rs).Perm (qs.zip ts) := by
    clear h
    induction hperm generalizing rs with
    | nil => cases h1; exact ⟨[], List.Forall₂.nil, List.Perm.refl _⟩
    | cons x _ ih =>
      cases h1 with
      | cons a t =>
        obtain ⟨ts, h2, h3⟩ := ih _ t
        exact ⟨_, List.Forall₂.cons a h2, List.Perm.cons _ h3⟩
    | swap x y l =>
      cases h1 with
      | cons a t =>
        cases t with
        | cons a' t' =>
          exact ⟨_, List.Forall₂.cons a' (List.Forall₂.cons a t'), List.Perm.swap _ _ _⟩
    | trans _ _ ih1 ih2 =>
      obtain ⟨ts, h2, h3⟩ := ih1 _ h1
      obtain ⟨us, h4, h5⟩ := ih2 _ h2
      exact ⟨us, h4, h3.trans h5⟩
  obtain ⟨ts, h2, h3⟩ := key
  obtain ⟨w'', b'', e⟩ := (pass_local k E dt fuel w qs w b ts).mpr h2
  exact ⟨w'', b'', ts, e, h3⟩

example : ∃ k, driftKernel = ownParticleOnly k := ⟨fun p => (driftKernel () p).2, rfl⟩
example : (pass clobberKernel 10 3 20 () none twoParticles).isSome := by decide +kernel
example : ∃ k, clobberKernel = ownParticleOnly k := by
  refine ⟨fun p => (clobberKernel () p).2, ?_⟩
  funext w p
  simp only [clobberKernel, ownParticleOnly]

/-! ## C06, one pass: exactly one call per particle when dt is zero -/

/-- C06 for one pass of the particle loop: with dt (close to) zero every particle, in whatever
state, gets exactly one kernel call, for every kernel, and the loop terminates. The claim for the
whole of `execute` fails when a recovery function resumes a particle, see
`C06_runtime_zero_runs_twice` in Props/Recovery. -/
theorem C06_one_call_per_pass (K : Kern W V) (E dt : ℚ) (hdt : isclose dt 0 = true) (n : Nat)
    (ps : List (Particle V)) (w : W) (b : Option (Particle V)) :
    ∃ w' b' rs, pass K E dt (n + 1) w b ps = some (w', b', rs) ∧
      rs.length = ps.length ∧ ∀ r ∈ rs, r.2.length = 1 :=
  pass_zero K E dt hdt n ps w b

example : isclose (0 : ℚ) 0 = true := by decide +kernel
example : ((pass clobberKernel 3 0 1 () none [⟨3, 0, .evaluate, 5⟩, ⟨7, 0, .success, 6⟩]).map fun r =>
    r.2.2.map fun x => (x.1.time, x.1.vars, x.2.length)) = some [(3, 5, 1), (7, 7, 1)] := by
  decide +kernel

/-! ## C07: the user's dt is used for every full step -/

/-- C07 is false of the code. With `dt = 3` and interruptions at 5 and 10 the steps are
3, 2 | 2, 2, 1: after the step shortened by the first interruption the particle keeps the short
step, so the call at time 5 is made with a step of 2 although 5 time units are left. -/
theorem C07_short_step_persists :
    ∃ (K : Kern Unit ℚ), LeavesDtAlone K ∧
      (segments K 3 20 () [5, 10] (⟨0, 3, .evaluate, 0⟩ : Particle ℚ)).map
        (fun r => r.2.map fun tr => tr.map fun c => (c.before.time, c.before.dt)) =
      some [[(0, 3), (3, 2)], [(5, 2), (7, 2), (9, 1)]] :=
  ⟨driftKernel, fun _ _ => ⟨rfl, rfl, rfl⟩, by decide +kernel⟩

/-- C07, partial: if all interruption times lie on the lattice `start + ℕ·dt` (in run order), every
kernel call of the whole run sees exactly the user's dt, for every kernel that leaves time and dt
alone. Missing: interruption times off the lattice, where the claim is false
(`C07_short_step_persists`). -/
theorem C07_user_dt_every_step_partial (K : Kern W V) (hK : LeavesDtAlone K) (dt : ℚ)
    (hdt : isclose dt 0 = false) (fuel : Nat) (ms : List Nat) (hms : ms.Pairwise (· ≤ ·)) (w : W)
    (p q : Particle V) (hp : p.dt = dt) (trs : List (List (Call V)))
    (h : segments K dt fuel w (ms.map fun m : Nat => p.time + m * dt) p = some (q, trs)) :
    ∀ tr ∈ trs, ∀ c ∈ tr, c.before.dt = dt :=
  segments_lattice K hK p.time dt hdt fuel ms w p 0 hp (by simp)
    (List.pairwise_cons.mpr ⟨fun _ _ => Nat.zero_le _, hms⟩) q trs h

example : (segments driftKernel (-3) 20 () ([2, 3].map fun m : Nat => (20 : ℚ) + m * (-3))
      (⟨20, -3, .evaluate, 0⟩ : Particle ℚ)).map
        (fun r => r.2.map fun tr => tr.map fun c => (c.before.time, c.before.dt)) =
      some [[(20, -3), (17, -3)], [(14, -3)]] := by decide +kernel

end Parcels.KernelLoop
