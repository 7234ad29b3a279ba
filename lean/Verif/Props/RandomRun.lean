import Verif.Proofs.RandomRun4

/-!
C103: whole runs with random numbers.
-/

namespace Parcels.RandomRun

open KernelLoop (Particle Kern Exc)
open Recovery (TP RMap)
open WholeRun (St Run Opts Until Regular records core outputTimes)

variable {W V : Type}

/-- C103. A run with random numbers in which everything happens after a whole number of steps: from one interruption to the next, all particles that have started
make their steps, particle by particle, and each step draws from the state of the generator that the step before it left. This determines, from the state of the
generator at the start, the particles at the end and the state of the generator at the end. In both modes. -/
theorem C103_run {f : Scheme W V} {user : RMap W V} {exec : Exec W V} (hm : IsMode (kernel f) user exec) {o : Opts} {S : ℚ} {N : ℕ} {ps : List (TP V)}
    (h : Regular o S N ps) (hl : Loaded o) (w : W) (hok : Deletes user ∨ (journey f o.dt (stops o S N) w (ps.map core)).2.length = ps.length)
    (fuel : ℕ) (file : Output.PFile) (r : Run V × W) (hr : execute o exec fuel w file ps = some r) :
    ∃ s, r = (.done s, (journey f o.dt (stops o S N) w (ps.map core)).1) ∧ s.ps.map core = (journey f o.dt (stops o S N) w (ps.map core)).2 := by
  obtain ⟨s, w', h1, h2, -⟩ := execute_good h hl (mode_effect hm h.step) w hok fuel file r hr
  exact ⟨s, by rw [h1, ← h2], by rw [← h2]⟩

/-- C103. The output file then contains the particles that have started, at the start, at every `outputdt` and at the end, as they are on this journey. -/
theorem C103_records {f : Scheme W V} {user : RMap W V} {exec : Exec W V} (hm : IsMode (kernel f) user exec) {o : Opts} {S : ℚ} {N : ℕ} {ps : List (TP V)}
    (h : Regular o S N ps) (hl : Loaded o) (w : W) (hok : Deletes user ∨ (journey f o.dt (stops o S N) w (ps.map core)).2.length = ps.length)
    (fuel : ℕ) (file : Output.PFile) (r : Run V × W) (hr : execute o exec fuel w file ps = some r) (hf : o.hasFile = true)
    (hw : file.writeOndelete = false) (hlast : file.lasttime ≠ some S) (i : ℚ) (hi : o.outputdt = some i) :
    ∃ s w', r = (.done s, w') ∧ records s = ((ps.map core).filter fun c => decide (c.2.1 = S)) ++
      log f o.dt (fun t => t ∈ outputTimes S o.dt i N) (stops o S N) w (ps.map core) := by
  obtain ⟨s, w', h1, -, -, h2⟩ := execute_good h hl (mode_effect hm h.step) w hok fuel file r hr
  obtain ⟨-, -, h3⟩ := h2 hf hw i hi
  refine ⟨s, w', h1, ?_⟩
  rw [h3, firstRecords, if_neg hlast]

/-- C103. If a step fails and the recovery functions raise (as they do by default), the run raises. -/
theorem C103_raises {f : Scheme W V} {user : RMap W V} {exec : Exec W V} (hm : IsMode (kernel f) user exec) {o : Opts} {S : ℚ} {N : ℕ} {ps : List (TP V)}
    (h : Regular o S N ps) (hl : Loaded o) (w : W) (hu : Raises user) (hbad : (journey f o.dt (stops o S N) w (ps.map core)).2.length < ps.length)
    (fuel : ℕ) (file : Output.PFile) (r : Run V × W) (hr : execute o exec fuel w file ps = some r) : ∃ s w', r = (.raised s, w') := by
  obtain ⟨s, w', h1, -⟩ := execute_bad h hl (mode_effect hm h.step) w hu hbad fuel file r hr
  exact ⟨s, w', h1⟩

/-- C103. The run ends: `N + 1` turns of the loops are enough. -/
theorem C103_ends (f : Scheme W V) {user : RMap W V} (hok : Deletes user ∨ Raises user) {o : Opts} {S : ℚ} {N : ℕ} {ps : List (TP V)}
    (h : Regular o S N ps) (hl : Loaded o) (w : W) (file : Output.PFile) :
    (execute o (kernelExecute (scipyPass (kernel f) (N + 1)) user 2) (N + 1) w file ps).isSome ∧
    (execute o (kernelExecute (jitPass (kernel f) (N + 1)) user 2) (N + 1) w file ps).isSome :=
  ⟨execute_total h hl (mode_effect (f := f) ⟨_, _, Or.inl rfl⟩ h.step)
      (exec_total (WholeRun.ne_zero_of h.step) (scipy_good f h.step _) (scipy_total f h.step N) user hok) hok w file,
   execute_total h hl (mode_effect (f := f) ⟨_, _, Or.inr rfl⟩ h.step)
      (exec_total (WholeRun.ne_zero_of h.step) (jit_good f h.step _) (jit_total f h.step N) user hok) hok w file⟩

/-- C103. The same state of the generator (the same seed) gives the same particles, the same output and the same state of the generator afterwards: in Scipy and in
JIT mode, and whenever a run is repeated. Or both runs raise. -/
theorem C103_modes {f : Scheme W V} {user : RMap W V} {exec exec' : Exec W V} (hm : IsMode (kernel f) user exec) (hm' : IsMode (kernel f) user exec')
    (hok : Deletes user ∨ Raises user) {o : Opts} {S : ℚ} {N : ℕ} {ps : List (TP V)} (h : Regular o S N ps) (hl : Loaded o) (w : W)
    (fuel fuel' : ℕ) (file : Output.PFile) (hf : o.hasFile = true) (hw : file.writeOndelete = false) (i : ℚ) (hi : o.outputdt = some i) (r r' : Run V × W)
    (hr : execute o exec fuel w file ps = some r) (hr' : execute o exec' fuel' w file ps = some r') :
    (∃ s s' w', r = (.done s, w') ∧ r' = (.done s', w') ∧ s.ps.map core = s'.ps.map core ∧ records s = records s') ∨
    (∃ s s' w1 w2, r = (.raised s, w1) ∧ r' = (.raised s', w2)) := by
  by_cases c : Deletes user ∨ (journey f o.dt (stops o S N) w (ps.map core)).2.length = ps.length
  · obtain ⟨s, w1, h1, h2, -, h3⟩ := execute_good h hl (mode_effect hm h.step) w c fuel file r hr
    obtain ⟨s', w2, k1, k2, -, k3⟩ := execute_good h hl (mode_effect hm' h.step) w c fuel' file r' hr'
    obtain ⟨-, -, h4⟩ := h3 hf hw i hi
    obtain ⟨-, -, k4⟩ := k3 hf hw i hi
    have e := h2.trans k2.symm
    obtain ⟨e1, e2⟩ := Prod.mk.inj e
    subst e1
    exact Or.inl ⟨s, s', w1, h1, k1, e2, h4.trans k4.symm⟩
  · right
    have hu : Raises user := by
      rcases hok with hd | hu
      · exact absurd (Or.inl hd) c
      · exact hu
    have hlt : (journey f o.dt (stops o S N) w (ps.map core)).2.length < ps.length := by
      have := journey_length f o.dt (stops o S N) w (ps.map core)
      rw [List.length_map] at this
      exact lt_of_le_of_ne this fun e => c (Or.inr e)
    obtain ⟨s, w1, h1, -⟩ := execute_bad h hl (mode_effect hm h.step) w hu hlt fuel file r hr
    obtain ⟨s', w2, k1, -⟩ := execute_bad h hl (mode_effect hm' h.step) w hu hlt fuel' file r' hr'
    exact ⟨s, s', w1, w2, h1, k1⟩

/-- C103. A run that ends at a multiple of all its intervals can be continued by a second run: from the particles, the output file and the state of the generator that
the first run left, the second leads to the same particles, the same state of the generator and, together, the same output as one run of the whole length. -/
theorem C103_split {f : Scheme W V} {user : RMap W V} {exec : Exec W V} (hm : IsMode (kernel f) user exec) {o : Opts} {S : ℚ} {N M : ℕ} {u u' : Until}
    {ps : List (TP V)} (h : Regular o S N ps) (h' : Regular (o.lasting u') S (N + M) ps) (hl : Loaded o)
    (hM : 1 / 100000 ≤ M * |o.dt|) (hu : match u with | .runtime r => r = M * |o.dt| | .endtime e => e = S + N * o.dt + M * o.dt)
    (w : W) (hok : Deletes user ∨ (journey f o.dt (stops o S (N + M)) w (ps.map core)).2.length = ps.length)
    (hf : o.hasFile = true) (i : ℚ) (hi : o.outputdt = some i) (hmul : ∀ i ∈ intervals o, ∃ K : ℕ, N * |o.dt| = K * i)
    (n1 n2 n3 : ℕ) (file : Output.PFile) (hw : file.writeOndelete = false) (s1 : St V) (w1 : W) (r2 r3 : Run V × W)
    (hr1 : execute o exec n1 w file ps = some (.done s1, w1)) (hsome : ∃ q ∈ s1.ps, q.2.time = S + N * o.dt)
    (hr2 : execute (o.lasting u) exec n2 w1 s1.file s1.ps = some r2) (hr3 : execute (o.lasting u') exec n3 w file ps = some r3) :
    ∃ s2 s3 w', r2 = (.done s2, w') ∧ r3 = (.done s3, w') ∧ s2.ps.map core = s3.ps.map core ∧ records s1 ++ records s2 = records s3 := by
  have hne := WholeRun.ne_zero_of h.step
  have hM0 : 0 < M := by
    rcases Nat.eq_zero_or_pos M with rfl | hM0
    · norm_num at hM
    · exact hM0
  have hmem : i ∈ intervals o := by simp [intervals, hf, hi]
  have happ := stops_append (M := M) h hM0 (fun e => by rw [e] at hmem; cases hmem) hmul
  have hok1 : Deletes user ∨ (journey f o.dt (stops o S N) w (ps.map core)).2.length = ps.length := by
    rcases hok with hd | hd
    · exact Or.inl hd
    · right
      have k1 := journey_length f o.dt (stops o S N) w (ps.map core)
      rw [happ, journey_append] at hd
      have k2 := journey_length f o.dt (stops o (S + N * o.dt) M) (journey f o.dt (stops o S N) w (ps.map core)).1 (journey f o.dt (stops o S N) w (ps.map core)).2
      rw [List.length_map] at k1
      omega
  obtain ⟨s1', w1', a1, a2, a3, a4⟩ := execute_good h hl (mode_effect hm h.step) w hok1 n1 file _ hr1
  obtain ⟨rfl, rfl⟩ : s1 = s1' ∧ w1 = w1' := by cases a1; exact ⟨rfl, rfl⟩
  obtain ⟨b1, b2, b3⟩ := a4 hf hw i hi
  have h2 := regular_second h u a3 hsome hM hu
  have hok2 : Deletes user ∨ (journey f o.dt (stops o (S + N * o.dt) M) w1 (s1.ps.map core)).2.length = s1.ps.length := by
    rcases hok with hd | hd
    · exact Or.inl hd
    · right
      rw [happ, journey_append, ← a2] at hd
      dsimp only at hd
      rcases hok1 with hd' | hd'
      · have k1 := journey_length f o.dt (stops o S N) w (ps.map core)
        have k2 := journey_length f o.dt (stops o (S + N * o.dt) M) w1 (s1.ps.map core)
        rw [← a2] at k1
        simp only [List.length_map] at k1 k2
        exact le_antisymm k2 (by rw [hd]; exact k1)
      · rw [← a2] at hd'
        simp only [List.length_map] at hd'
        exact hd.trans hd'.symm
  obtain ⟨s2, w2, c1, c2, -, c3⟩ := execute_good h2 hl (mode_effect hm h.step) w1 hok2 n2 s1.file _ hr2
  obtain ⟨-, -, c4⟩ := c3 hf b2 i hi
  obtain ⟨s3, w3, d1, d2, -, d3⟩ := execute_good h' hl (mode_effect hm h.step) w hok n3 file _ hr3
  obtain ⟨-, -, d4⟩ := d3 hf hw i hi
  have e : (w2, s2.ps.map core) = (w3, s3.ps.map core) := by
    rw [d2, c2]
    show journey f o.dt (stops o (S + N * o.dt) M) w1 (s1.ps.map core) = journey f o.dt (stops o S (N + M)) w (ps.map core)
    rw [happ, journey_append, ← a2]
  obtain ⟨e1, e2⟩ := Prod.mk.inj e
  subst e1
  refine ⟨s2, s3, w2, c1, d1, e2, ?_⟩
  obtain ⟨k, hk, rfl⟩ := h.output i hi
  have hkN : k ∣ N := multiple_steps hne (hmul _ hmem)
  rw [b3, c4, d4]
  have hfirst : firstRecords (S + N * o.dt) s1.file s1.ps = [] := if_pos b1
  rw [hfirst, List.nil_append, List.append_assoc]
  congr 1
  show log f o.dt _ (stops o S N) w (ps.map core) ++ log f o.dt (fun t => t ∈ outputTimes (S + N * o.dt) o.dt (k * |o.dt|) M) (stops o (S + N * o.dt) M) w1 (s1.ps.map core) =
    log f o.dt (fun t => t ∈ outputTimes S o.dt (k * |o.dt|) (N + M)) (stops o S (N + M)) w (ps.map core)
  rw [happ, log_append, ← a2]
  congr 1
  · apply log_congr
    intro t ht
    obtain ⟨n, x1, x2, rfl⟩ := mem_stops ht
    exact (due_first hne hk hkN hM0 x1 x2).symm
  · apply log_congr
    intro t ht
    obtain ⟨n, x1, x2, rfl⟩ := mem_stops ht
    exact (due_second hne hk hkN x1 x2).symm

/-- C103. With one particle, the result does not depend on when the run is interrupted: the particle makes all its steps, one after the other. -/
theorem C103_single {f : Scheme W V} {user : RMap W V} {exec : Exec W V} (hm : IsMode (kernel f) user exec) {o : Opts} {S : ℚ} {N : ℕ} {q : TP V}
    (h : Regular o S N [q]) (hl : Loaded o) (w : W) (hok : Deletes user ∨ (walk f o.dt N S w q.2.vars).2.isSome)
    (fuel : ℕ) (file : Output.PFile) (r : Run V × W) (hr : execute o exec fuel w file [q] = some r) :
    ∃ s, r = (.done s, (walk f o.dt N S w q.2.vars).1) ∧
      s.ps.map core = ((walk f o.dt N S w q.2.vars).2.map fun v => (q.1, S + N * o.dt, v)).toList := by
  have hj := journey_single f h w
  obtain ⟨s, h1, h2⟩ := C103_run hm h hl w (by
    rcases hok with hd | hd
    · exact Or.inl hd
    · right
      rw [hj]
      obtain ⟨v, hv⟩ := Option.isSome_iff_exists.mp hd
      rw [hv]
      rfl) fuel file r hr
  rw [hj] at h1 h2
  exact ⟨s, h1, h2⟩

/-! ### Cases -/

/-- A small generator, and a random walk in a field that ends at 100. -/
def exWalk : Scheme ℕ ℚ := fun w _ dt v => ((5 * w + 3) % 16, if v < 100 then .ok (v + dt * w) else .error .outOfBound)

def exPs : List (TP ℚ) := [(0, ⟨0, 1, .success, 1⟩), (1, ⟨1, 1, .success, 97⟩), (2, ⟨2, 1, .success, 3⟩)]

def exOpts (i : ℚ) (u : Until) : Opts := ⟨1, u, true, some i, none, none, fun _ _ => .pinf⟩

def exDelete : RMap W V := fun _ => some fun w p => (w, some { p with state := .delete })

theorem exDeletes : Deletes (exDelete (W := W) (V := V)) := by
  intro e
  cases e <;> rfl

theorem exLoaded (i : ℚ) (u : Until) : Loaded (exOpts i u) := fun _ _ _ h => by cases h

theorem exRegular (k : ℕ) (hk : 0 < k) (N : ℕ) (hN : 0 < N) : Regular (exOpts k (.runtime N)) 0 N exPs := by
  refine ⟨⟨_, List.mem_cons_self, rfl⟩, by norm_num [exOpts], ?_, by simp [exOpts], ?_, ?_, ?_, ?_, ?_, ?_⟩
  · have : (1 : ℚ) ≤ N := by exact_mod_cast hN
    simp only [exOpts, abs_one, mul_one]
    linarith
  · intro i hi
    simp only [exOpts, Option.some.injEq] at hi
    exact ⟨k, hk, by rw [← hi]; simp [exOpts]⟩
  · intro i hi; cases hi
  · intro i hi; cases hi
  · intro i t; show (0 : ℚ) < 1; norm_num
  · intro i t q hq; cases hq
  · intro q hq
    simp only [exPs, List.mem_cons, List.not_mem_nil, or_false] at hq
    rcases hq with rfl | rfl | rfl
    · exact ⟨0, by norm_num [exOpts]⟩
    · exact ⟨1, by norm_num [exOpts]⟩
    · exact ⟨2, by norm_num [exOpts]⟩

/-- The hypotheses of C103 can be met: a run of five steps with output after every other step; the second particle leaves the field and is deleted. -/
example : Regular (exOpts (2 : ℕ) (.runtime (5 : ℕ))) 0 5 exPs ∧ Loaded (exOpts (2 : ℕ) (.runtime (5 : ℕ))) ∧ Deletes (exDelete (W := ℕ) (V := ℚ)) ∧
    Raises (fun _ => none : RMap ℕ ℚ) :=
  ⟨exRegular 2 (by norm_num) 5 (by norm_num), exLoaded _ _, exDeletes, fun e => by cases e <;> exact ⟨_, rfl, fun _ _ => rfl⟩⟩

theorem exStops : stops (exOpts 2 (.runtime 5)) 0 5 = [2, 4, 5] := by decide +kernel

theorem exJourney : journey exWalk 1 [2, 4, 5] 7 (exPs.map core) = (0, [(0, 5, 47), (2, 5, 39)]) := by decide +kernel

/-- The run itself, in both modes. -/
theorem exRunScipy : (match execute (exOpts 2 (.runtime 5)) (kernelExecute (scipyPass (kernel exWalk) 6) exDelete 2) 6 7 (Output.newFile false false) exPs with
    | some (.done s, w) => decide (s.ps.map core = [(0, 5, 47), (2, 5, 39)] ∧ w = 0)
    | _ => false) = true := by decide +kernel

theorem exRunJit : (match execute (exOpts 2 (.runtime 5)) (kernelExecute (jitPass (kernel exWalk) 6) exDelete 2) 6 7 (Output.newFile false false) exPs with
    | some (.done s, w) => decide (s.ps.map core = [(0, 5, 47), (2, 5, 39)] ∧ w = 0)
    | _ => false) = true := by decide +kernel

/-- The run with output after every step ends with other particles (compare C97: without random numbers, the output interval does not matter). -/
theorem exRunOften : (match execute (exOpts 1 (.runtime 5)) (kernelExecute (scipyPass (kernel exWalk) 6) exDelete 2) 6 7 (Output.newFile false false) exPs with
    | some (.done s, w) => decide (s.ps.map core = [(0, 5, 41), (2, 5, 37)] ∧ w = 0)
    | _ => false) = true := by decide +kernel

/-- The run of the first particle alone. -/
theorem exRunAlone : (match execute (exOpts 2 (.runtime 5)) (kernelExecute (scipyPass (kernel exWalk) 6) exDelete 2) 6 7 (Output.newFile false false) (exPs.take 1) with
    | some (.done s, w) => decide (s.ps.map core = [(0, 5, 34)] ∧ w = 10)
    | _ => false) = true := by decide +kernel

/-- From a computed check to the run itself. -/
theorem ex_done {x : Option (Run ℚ × ℕ)} {cs : List (ℕ × ℚ × ℚ)} {w0 : ℕ}
    (h : (match x with | some (.done s, w) => decide (s.ps.map core = cs ∧ w = w0) | _ => false) = true) :
    ∃ s, x = some (.done s, w0) ∧ s.ps.map core = cs := by
  split at h
  · obtain ⟨h1, h2⟩ := of_decide_eq_true h
    exact ⟨_, by rw [h2], h1⟩
  · cases h

/-- C103 depends on the output interval: with the same generator and the same particles, a run with output after every step and a run with output after every other
step lead to different positions. -/
theorem C103_output_fails : ∃ s t : St ℚ, ∃ w w',
    execute (exOpts 2 (.runtime 5)) (kernelExecute (scipyPass (kernel exWalk) 6) exDelete 2) 6 7 (Output.newFile false false) exPs = some (.done s, w) ∧
    execute (exOpts 1 (.runtime 5)) (kernelExecute (scipyPass (kernel exWalk) 6) exDelete 2) 6 7 (Output.newFile false false) exPs = some (.done t, w') ∧
    s.ps.map core = [(0, 5, 47), (2, 5, 39)] ∧ t.ps.map core = [(0, 5, 41), (2, 5, 37)] := by
  obtain ⟨s, h1, h2⟩ := ex_done exRunScipy
  obtain ⟨t, k1, k2⟩ := ex_done exRunOften
  exact ⟨s, t, _, _, h1, k1, h2, k2⟩

/-- C103 depends on the other particles: alone, the first particle ends elsewhere, with the same generator and the same options. -/
theorem C103_particles_fails : ∃ s t : St ℚ, ∃ w w',
    execute (exOpts 2 (.runtime 5)) (kernelExecute (scipyPass (kernel exWalk) 6) exDelete 2) 6 7 (Output.newFile false false) exPs = some (.done s, w) ∧
    execute (exOpts 2 (.runtime 5)) (kernelExecute (scipyPass (kernel exWalk) 6) exDelete 2) 6 7 (Output.newFile false false) (exPs.take 1) = some (.done t, w') ∧
    s.ps.map core = [(0, 5, 47), (2, 5, 39)] ∧ t.ps.map core = [(0, 5, 34)] := by
  obtain ⟨s, h1, h2⟩ := ex_done exRunScipy
  obtain ⟨t, k1, k2⟩ := ex_done exRunAlone
  exact ⟨s, t, _, _, h1, k1, h2, k2⟩

/-- A recovery function that brings the particle to a random place and lets it go on. -/
def exRepair : RMap ℕ ℚ := fun _ => some fun w p => ((5 * w + 3) % 16, some { p with vars := w })

/-- A case with a recovery function that does not delete: the particle that left the field is brought back, and goes on with the numbers that follow, in both modes. (A case only:
C103 is about recovery functions that delete or raise.) -/
theorem C103_repair :
    (match execute (exOpts 2 (.runtime 5)) (kernelExecute (scipyPass (kernel exWalk) 6) exRepair 3) 6 7 (Output.newFile false false) exPs with
    | some (.done s, w) => decide (s.ps.map core = [(0, 5, 33), (1, 5, 26), (2, 5, 32)] ∧ w = 13)
    | _ => false) = true ∧
    (match execute (exOpts 2 (.runtime 5)) (kernelExecute (jitPass (kernel exWalk) 6) exRepair 3) 6 7 (Output.newFile false false) exPs with
    | some (.done s, w) => decide (s.ps.map core = [(0, 5, 33), (1, 5, 26), (2, 5, 32)] ∧ w = 13)
    | _ => false) = true := by decide +kernel

/-- The hypotheses of C103_split can be met: two runs of 4 and 3 steps with output after every other step, and one of 7. -/
example : Regular (exOpts (2 : ℕ) (.runtime (4 : ℕ))) 0 4 exPs ∧ Regular ((exOpts (2 : ℕ) (.runtime (4 : ℕ))).lasting (.runtime (7 : ℕ))) 0 (4 + 3) exPs ∧
    (∀ i ∈ intervals (exOpts (2 : ℕ) (.runtime (4 : ℕ))), ∃ K : ℕ, ((4 : ℕ) : ℚ) * |(exOpts (2 : ℕ) (.runtime (4 : ℕ))).dt| = K * i) := by
  refine ⟨exRegular 2 (by norm_num) 4 (by norm_num), exRegular 2 (by norm_num) 7 (by norm_num), ?_⟩
  intro i hi
  simp only [intervals, exOpts, if_true, Option.toList, List.append_nil, List.mem_singleton] at hi
  subst hi
  exact ⟨2, by norm_num [exOpts]⟩

/-- After the first of these runs there are particles under way. -/
theorem exRunFirst : (match execute (exOpts 2 (.runtime 4)) (kernelExecute (jitPass (kernel exWalk) 6) exDelete 2) 6 7 (Output.newFile false false) exPs with
    | some (.done s, w) => decide (s.ps.map core = [(0, 4, 33), (2, 4, 30)] ∧ w = 14)
    | _ => false) = true := by decide +kernel

/-- A run of one particle in which everything succeeds. -/
example : (walk exWalk 1 5 0 7 1).2.isSome := by decide +kernel

end Parcels.RandomRun
