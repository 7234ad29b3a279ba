import Verif.Proofs.ReleaseRun3
import Verif.Props.WholeRun

/-!
C102: a run with repeated release gives what a run gives in which the particles of all releases are there from the start.
-/

namespace Parcels.ReleaseRun

open KernelLoop (Kern)
open Recovery (TP RMap)
open WholeRun (Exec St Run Opts Until Scheme trajectory record core Regular Deletes Raises records outputTimes ne_zero_of kernel scipyExec jitExec exScheme exDelete
  exFile exDeletes)

variable {V : Type}

/-- C102. A run with repeated release, in which everything happens after a whole number of steps, returns (if no trajectory ends or if the recovery functions
delete). Then there are the particles that were there at the start and, in the order of their release, one particle for each of the values `vs` at every whole
number of intervals after the first release, as far as their trajectory has not ended, each where its trajectory is at the end of the run. In both modes. -/
theorem C102_run {f : Scheme V} {user : RMap Unit V} {exec : Exec V} {pass : Pass V} (hm : IsMode (kernel f) user exec pass) {o : Opts} {S : ℚ} {N : ℕ}
    {ps : List (TP V)} (h : Regular o S N ps) {rep : Repeat V} (hrep : Repeats o S rep) {vs : List V} (hv : rep.held = some vs)
    (hok : Deletes user ∨ ∀ q ∈ everyone o S rep vs N ps, (trajectory f o.dt (S + N * o.dt) q).isSome) (fresh : V → V) (fuel : ℕ) (file : Output.PFile)
    (r : Run V × Repeat V) (hr : execute o exec pass fresh fuel file rep ps = some r) :
    ∃ s, r.1 = .done s ∧ s.ps.map core = (everyone o S rep vs N ps).filterMap (trajectory f o.dt (S + N * o.dt)) := by
  obtain ⟨s, h1, h2, -⟩ := execute_good h hrep hv (WholeRun.mode_effect hm.exec h.step) hok fuel file r hr
  exact ⟨s, by rw [h1], h2⟩

/-- C102. The output file then contains, for the start, every `outputdt` and the end of the run, in this order, exactly the particles that have been released and
whose trajectory has not ended, each where its trajectory is at that time. -/
theorem C102_records {f : Scheme V} {user : RMap Unit V} {exec : Exec V} {pass : Pass V} (hm : IsMode (kernel f) user exec pass) {o : Opts} {S : ℚ} {N : ℕ}
    {ps : List (TP V)} (h : Regular o S N ps) {rep : Repeat V} (hrep : Repeats o S rep) {vs : List V} (hv : rep.held = some vs)
    (hok : Deletes user ∨ ∀ q ∈ everyone o S rep vs N ps, (trajectory f o.dt (S + N * o.dt) q).isSome) (fresh : V → V) (fuel : ℕ) (file : Output.PFile)
    (r : Run V × Repeat V) (hr : execute o exec pass fresh fuel file rep ps = some r) (hf : o.hasFile = true) (hw : file.writeOndelete = false)
    (hl : file.lasttime ≠ some S) (i : ℚ) (hi : o.outputdt = some i) :
    ∃ s, r.1 = .done s ∧ records s = (outputTimes S o.dt i N).flatMap fun t => (everyone o S rep vs N ps).filterMap (record f o.dt t) := by
  obtain ⟨s, h1, -, h3⟩ := execute_good h hrep hv (WholeRun.mode_effect hm.exec h.step) hok fuel file r hr
  refine ⟨s, by rw [h1], ?_⟩
  rw [h3 hf hw i hi, WholeRun.firstRecords, if_neg hl]
  obtain ⟨k', hk', rfl⟩ := h.output i hi
  have h1 : N / k' * k' ≤ N := Nat.div_mul_le_self N k'
  have h2 : N < (N / k' + 1) * k' := (Nat.div_lt_iff_lt_mul hk').mp (Nat.lt_succ_self _)
  rw [WholeRun.outputTimes_eq (ne_zero_of h.step) hk' h1 h2, List.tail_cons, List.flatMap_cons]
  congr 1
  obtain ⟨⟨k, hk, hr1⟩, z, hz⟩ := hrep
  have := upTo_record f (args_setup h vs rep.nextId (z := z) hk) (Nat.zero_le N)
  rw [upTo_zero, WholeRun.zero_steps] at this
  rw [← this]
  unfold everyone upTo
  rw [hr1, hz]

/-- C102. If the trajectory of one of these particles ends before the end of the run and the recovery functions raise (as they do by default), the run raises. -/
theorem C102_raises {f : Scheme V} {user : RMap Unit V} {exec : Exec V} {pass : Pass V} (hm : IsMode (kernel f) user exec pass) {o : Opts} {S : ℚ} {N : ℕ}
    {ps : List (TP V)} (h : Regular o S N ps) {rep : Repeat V} (hrep : Repeats o S rep) {vs : List V} (hv : rep.held = some vs)
    (hu : Raises user) (hbad : ∃ q ∈ everyone o S rep vs N ps, trajectory f o.dt (S + N * o.dt) q = none) (fresh : V → V) (fuel : ℕ) (file : Output.PFile)
    (r : Run V × Repeat V) (hr : execute o exec pass fresh fuel file rep ps = some r) : ∃ s, r.1 = .raised s :=
  execute_bad h hrep hv (WholeRun.mode_effect hm.exec h.step) hu hbad fuel file r hr

/-- C102. The run ends: `N + 1` turns of the loops are enough. -/
theorem C102_ends (f : Scheme V) {user : RMap Unit V} (hok : Deletes user ∨ Raises user) {o : Opts} {S : ℚ} {N : ℕ} {ps : List (TP V)}
    (h : Regular o S N ps) {rep : Repeat V} (hrep : Repeats o S rep) (fresh : V → V) (file : Output.PFile) :
    (execute o (scipyExec (kernel f) user (N + 1) 2) (scipyPass (kernel f) (N + 1)) fresh (N + 1) file rep ps).isSome ∧
    (execute o (jitExec (kernel f) user (N + 1) 2) (jitPass (kernel f) (N + 1)) fresh (N + 1) file rep ps).isSome := by
  have key : ∀ (exec : Exec V) (pass : Pass V), IsMode (kernel f) user exec pass →
      (∀ n ps, n ≤ N → (∀ q ∈ ps, q.2.dt = o.dt ∧ ∃ j : ℕ, q.2.time = S + j * o.dt) → (exec (S + n * o.dt) o.dt ps).isSome) →
      (execute o exec pass fresh (N + 1) file rep ps).isSome := by
    intro exec pass hm htot
    cases hh : rep.held with
    | some vs => exact execute_total h hrep hh (WholeRun.mode_effect hm.exec h.step) htot hok file
    | none =>
      obtain ⟨n, e1, e2, -, -, -, e3, -⟩ := execute_first f h (exec := exec) (pass := pass) (fresh := fresh) hrep
      have hx := htot n (ps.map fun q => (q.1, { q.2 with dt := o.dt })) e2 (by
        intro q hq
        obtain ⟨q0, hq0, rfl⟩ := List.mem_map.mp hq
        exact ⟨rfl, h.starts q0 hq0⟩)
      obtain ⟨qs, hqs⟩ := Option.isSome_iff_exists.mp (pass_some hm hx)
      rw [e3 N file (qs.map fun q => fresh q.2.vars) (by rw [hh, hold, hqs]; rfl)]
      exact execute_total h (rep := { rep with held := some (qs.map fun q => fresh q.2.vars) }) hrep rfl (WholeRun.mode_effect hm.exec h.step) htot hok file
  exact ⟨key _ _ ⟨_, _, Or.inl ⟨rfl, rfl⟩⟩ fun n ps hn hps => WholeRun.scipy_total f user h.step hok n ps hn hps,
    key _ _ ⟨_, _, Or.inr ⟨rfl, rfl⟩⟩ fun n ps hn hps => WholeRun.jit_total f user h.step hok n ps hn hps⟩

/-- C102. The same as a run without repeated release of a set in which the particles of all releases are there from the start, with the times of release as
their start times: the same particles and the same records. -/
theorem C102_delayed {f : Scheme V} {user : RMap Unit V} {exec : Exec V} {pass : Pass V} (hm : IsMode (kernel f) user exec pass) {o : Opts} {S : ℚ} {N : ℕ}
    {ps : List (TP V)} (h : Regular o S N ps) {rep : Repeat V} (hrep : Repeats o S rep) {vs : List V} (hv : rep.held = some vs)
    (hok : Deletes user ∨ ∀ q ∈ everyone o S rep vs N ps, (trajectory f o.dt (S + N * o.dt) q).isSome) (fresh : V → V) (fuel fuel' : ℕ)
    (file : Output.PFile) (r : Run V × Repeat V) (r' : Run V) (hr : execute o exec pass fresh fuel file rep ps = some r)
    (hr' : WholeRun.execute o exec fuel' file (everyone o S rep vs N ps) = some r') :
    ∃ s s', r.1 = .done s ∧ r' = .done s' ∧ s.ps.map core = s'.ps.map core ∧
      (o.hasFile = true → file.writeOndelete = false → file.lasttime ≠ some S → ∀ i, o.outputdt = some i → records s = records s') := by
  have hreg : Regular o S N (everyone o S rep vs N ps) := by
    refine regular_append h ?_
    intro q hq
    obtain ⟨j, -, -, hj⟩ := times_mem (releases_mem hq).1
    exact ⟨j, hj⟩
  obtain ⟨s, h1, h2⟩ := C102_run hm h hrep hv hok fresh fuel file r hr
  obtain ⟨s', k1, k2⟩ := WholeRun.C97_run hm.exec hreg hok fuel' file r' hr'
  refine ⟨s, s', h1, k1, by rw [h2, k2], ?_⟩
  intro hf hw hl i hi
  obtain ⟨t, h3, h4⟩ := C102_records hm h hrep hv hok fresh fuel file r hr hf hw hl i hi
  obtain ⟨t', k3, k4⟩ := WholeRun.C97_records hm.exec hreg hok fuel' file r' hr' hf hw hl i hi
  obtain rfl : s = t := by rw [h1] at h3; exact WholeRun.Run.done.inj h3
  obtain rfl : s' = t' := by rw [k1] at k3; exact WholeRun.Run.done.inj k3
  rw [h4, k4]

/-- C102. A run of `N` steps and then a run of `M` steps give the same particles as one run of `N + M` steps, with the releases at the same times, also if there
is one at the end of the first run; provided that some particle is under way at the end of the first run. -/
theorem C102_split_partial {f : Scheme V} {user : RMap Unit V} {exec : Exec V} {pass : Pass V} (hm : IsMode (kernel f) user exec pass) {o : Opts} {S : ℚ}
    {N M : ℕ} {u u' : Until} {ps : List (TP V)} (h : Regular o S N ps) (h' : Regular (o.lasting u') S (N + M) ps) {rep : Repeat V} (hrep : Repeats o S rep)
    {vs : List V} (hv : rep.held = some vs)
    (hM : 1 / 100000 ≤ M * |o.dt|) (hu : match u with | .runtime r => r = M * |o.dt| | .endtime e => e = S + N * o.dt + M * o.dt)
    (hok : Deletes user ∨ ∀ q ∈ everyone o S rep vs (N + M) ps, (trajectory f o.dt (S + ((N + M : ℕ) : ℚ) * o.dt) q).isSome)
    (hsome : ∃ q ∈ everyone o S rep vs N ps, ∃ c, record f o.dt (S + N * o.dt) q = some c)
    (fresh : V → V) (n1 n2 n3 : ℕ) (file1 file2 file3 : Output.PFile) (s1 : St V) (rep1 : Repeat V) (r2 r3 : Run V × Repeat V)
    (hr1 : execute o exec pass fresh n1 file1 rep ps = some (.done s1, rep1))
    (hr2 : execute (o.lasting u) exec pass fresh n2 file2 rep1 s1.ps = some r2)
    (hr3 : execute (o.lasting u') exec pass fresh n3 file3 rep ps = some r3) :
    ∃ s2 s3, r2.1 = .done s2 ∧ r3.1 = .done s3 ∧ s2.ps.map core = s3.ps.map core := by
  have hne := ne_zero_of h.step
  have e : S + N * o.dt + M * o.dt = S + ((N + M : ℕ) : ℚ) * o.dt := by push_cast; ring
  have hreg : Regular o S N (everyone o S rep vs N ps) := by
    refine regular_append h ?_
    intro q hq
    obtain ⟨j, -, -, hj⟩ := times_mem (releases_mem hq).1
    exact ⟨j, hj⟩
  have hall : everyone o S rep vs (N + M) ps = everyone o S rep vs N ps ++ releases o.dt vs
      (rep.nextId + (releaseTimes (rep.start.getD S) S o.dt rep.repeatdt N).length * vs.length)
      (releaseTimes (rep.start.getD S) (S + N * o.dt) o.dt rep.repeatdt M) := by
    unfold everyone
    rw [times_split, releases_split, List.append_assoc]
  have hok1 : Deletes user ∨ ∀ q ∈ everyone o S rep vs N ps, (trajectory f o.dt (S + N * o.dt) q).isSome := by
    rcases hok with hd | hd
    · exact Or.inl hd
    · right
      intro q hq
      obtain ⟨j, hj⟩ := hreg.starts q hq
      exact WholeRun.traj_isSome f hne (core q) j N (N + M) hj (by omega) (hd q (by rw [hall]; exact List.mem_append_left _ hq))
  obtain ⟨s1', a1, a2, -⟩ := execute_good h hrep hv (WholeRun.mode_effect hm.exec h.step) hok1 n1 file1 _ hr1
  simp only [Prod.mk.injEq] at a1
  obtain ⟨a0, rfl⟩ := a1
  obtain rfl : s1 = s1' := WholeRun.Run.done.inj a0
  have h2 := WholeRun.regular_second hreg u a2 hsome hM hu
  have hrep2 : Repeats (o.lasting u) (S + N * o.dt) ⟨rep.repeatdt, some (rep.start.getD S), some vs,
      rep.nextId + (releaseTimes (rep.start.getD S) S o.dt rep.repeatdt N).length * vs.length⟩ := by
    obtain ⟨⟨k, hk, hr1⟩, z, hz⟩ := hrep
    refine ⟨⟨k, hk, hr1⟩, z + N, ?_⟩
    change rep.start.getD S = S + N * o.dt - ((z + N : ℕ) : ℚ) * o.dt
    rw [hz]
    push_cast
    ring
  have hcore : (everyone (o.lasting u) (S + N * o.dt) ⟨rep.repeatdt, some (rep.start.getD S), some vs,
      rep.nextId + (releaseTimes (rep.start.getD S) S o.dt rep.repeatdt N).length * vs.length⟩ vs M s1.ps).filterMap
        (trajectory f o.dt (S + N * o.dt + M * o.dt)) = (everyone o S rep vs (N + M) ps).filterMap (trajectory f o.dt (S + ((N + M : ℕ) : ℚ) * o.dt)) := by
    rw [hall, List.filterMap_append, ← e, ← WholeRun.second_trajectory hreg M a2, ← List.filterMap_append]
    rfl
  have hok2 : Deletes user ∨ ∀ q ∈ everyone (o.lasting u) (S + N * o.dt) ⟨rep.repeatdt, some (rep.start.getD S), some vs,
      rep.nextId + (releaseTimes (rep.start.getD S) S o.dt rep.repeatdt N).length * vs.length⟩ vs M s1.ps,
      (trajectory f o.dt (S + N * o.dt + M * o.dt) q).isSome := by
    rcases hok with hd | hd
    · exact Or.inl hd
    · right
      intro q hq
      rcases List.mem_append.mp hq with hq | hq
      · have : core q ∈ s1.ps.map core := List.mem_map_of_mem hq
        rw [a2, List.mem_filterMap] at this
        obtain ⟨q0, hq0, eq⟩ := this
        obtain ⟨j, hj⟩ := hreg.starts q0 hq0
        have hh := hd q0 (by rw [hall]; exact List.mem_append_left _ hq0)
        rw [WholeRun.trajectory_eq, ← WholeRun.traj_comp f hne (core q0) j N (N + M) hj (by omega), ← WholeRun.trajectory_eq, eq] at hh
        rw [e]
        exact hh
      · rw [e]
        exact hd q (by rw [hall]; exact List.mem_append_right _ hq)
  obtain ⟨s2, b1, b2⟩ := C102_run hm h2 hrep2 rfl hok2 fresh n2 file2 r2 hr2
  obtain ⟨s3, c1, c2⟩ := C102_run hm h' hrep hv hok fresh n3 file3 r3 hr3
  refine ⟨s2, s3, b1, c1, ?_⟩
  rw [b2, c2]
  exact hcore

/-- C102. In the first run of a set the values with which particles are released are not those that were given: they are where the particles of the set are at the
first interruption of the run, which is not after the first output and at most one interval of release after the start. (If no trajectory ends.) -/
theorem C102_first {f : Scheme V} {user : RMap Unit V} {exec : Exec V} {pass : Pass V} (hm : IsMode (kernel f) user exec pass) {o : Opts} {S : ℚ} {N : ℕ}
    {ps : List (TP V)} (h : Regular o S N ps) {rep : Repeat V} (hrep : Repeats o S rep) (hv : rep.held = none)
    (hall : ∀ q ∈ ps, (trajectory f o.dt (S + N * o.dt) q).isSome) (fresh : V → V) (fuel : ℕ) (file : Output.PFile)
    (r : Run V × Repeat V) (hr : execute o exec pass fresh fuel file rep ps = some r) :
    ∃ n : ℕ, 0 < n ∧ n ≤ N ∧ (n : ℚ) * |o.dt| ≤ rep.repeatdt ∧ (∀ i, o.hasFile = true → o.outputdt = some i → (n : ℚ) * |o.dt| ≤ i) ∧
      Schedule.nextStop (args o S rep.repeatdt (rep.start.getD S)) (Schedule.init (args o S rep.repeatdt (rep.start.getD S))) = .fin (S + n * o.dt) ∧
      ∃ vs, vs = (ps.filterMap (trajectory f o.dt (S + n * o.dt))).map (fun c => fresh c.2.2) ∧
        execute o exec pass fresh fuel file { rep with held := some vs } ps = some r ∧
        ((Deletes user ∨ ∀ q ∈ everyone o S rep vs N ps, (trajectory f o.dt (S + N * o.dt) q).isSome) →
          ∃ s, r.1 = .done s ∧ s.ps.map core = (everyone o S rep vs N ps).filterMap (trajectory f o.dt (S + N * o.dt))) := by
  have hne := ne_zero_of h.step
  obtain ⟨n, e1, e2, e3, e4, e5, e6, e7⟩ := execute_first f h (exec := exec) (pass := pass) (fresh := fresh) hrep
  refine ⟨n, e1, e2, e3, e4, e5, ?_⟩
  obtain ⟨vs, hvs⟩ := Option.isSome_iff_exists.mp (e7 fuel file r hr)
  have hvs' := hvs
  rw [hv, hold, Option.map_eq_some_iff] at hvs
  obtain ⟨qs, hq1, rfl⟩ := hvs
  have hat := WholeRun.start_at f h
  have hg := pass_good hm h.step (hat.fits hne h.starts n) (hat.some hne h.starts (Nat.zero_le n) (fun q hq => by
    obtain ⟨j, hj⟩ := h.starts q hq
    exact WholeRun.traj_isSome f hne (core q) j n N hj e2 (hall q hq))) hq1
  rw [hat.next hne h.starts (Nat.zero_le n)] at hg
  have hr2 : execute o exec pass fresh fuel file { rep with held := some (qs.map fun q => fresh q.2.vars) } ps = some r := by
    cases fuel with
    | zero =>
      exfalso
      obtain ⟨⟨k, hk, hr1⟩, z, hz⟩ := id hrep
      have hs := args_setup h ([] : List V) rep.nextId (z := z) hk
      unfold execute at hr
      rw [h.startTime] at hr
      dsimp only at hr
      rw [hz, hr1] at hr
      obtain ⟨s1, w1, -⟩ := WholeRun.start_J f h hs.plain file
      rw [w1] at hr
      dsimp only at hr
      rw [loop] at hr
      cases hr
    | succ fuel => rw [← e6 fuel file _ hvs']; exact hr
  refine ⟨qs.map fun q => fresh q.2.vars, ?_, hr2, ?_⟩
  · rw [← hg, List.map_map]; rfl
  · intro hok
    exact C102_run hm h (rep := { rep with held := some (qs.map fun q => fresh q.2.vars) }) hrep rfl hok fresh fuel file r hr2

/-! ### Cases -/

/-- Two particles, with a release every 2 steps. -/
def exPair : List (TP ℚ) := [(0, ⟨0, 1, .success, 1⟩), (1, ⟨0, 1, .success, 40⟩)]

def exRep (held : Option (List ℚ)) : Repeat ℚ := ⟨2, some 0, held, 2⟩

def exOpts (dt i : ℚ) (u : Until) : Opts := ⟨dt, u, true, some i, none, none, fun _ _ => if 0 < dt then .pinf else .ninf⟩

theorem exRegular : Regular (exOpts 1 3 (.runtime 5)) 0 5 exPair := by
  refine ⟨⟨_, List.mem_cons_self, rfl⟩, by norm_num [exOpts], by norm_num [exOpts], by norm_num [exOpts], ?_, ?_, ?_, ?_, ?_, ?_⟩
  · intro i hi
    simp only [exOpts, Option.some.injEq] at hi
    exact ⟨3, by norm_num, by rw [← hi]; norm_num [exOpts]⟩
  · intro i hi; cases hi
  · intro i hi; cases hi
  · intro i t; simp only [exOpts]; rw [if_pos one_pos]; show (0 : ℚ) < 1; norm_num
  · intro i t q hq; simp only [exOpts] at hq; rw [if_pos one_pos] at hq; cases hq
  · intro q hq
    simp only [exPair, List.mem_cons, List.not_mem_nil, or_false] at hq
    rcases hq with rfl | rfl
    · exact ⟨0, by norm_num [exOpts]⟩
    · exact ⟨0, by norm_num [exOpts]⟩

theorem exRepeats (held : Option (List ℚ)) : Repeats (exOpts 1 3 (.runtime 5)) 0 (exRep held) :=
  ⟨⟨2, by norm_num, by norm_num [exRep, exOpts]⟩, 0, by norm_num [exRep]⟩

/-- The hypotheses of C102 can be met: with the values 1 and 40 kept, particles are released at 2 and 4; those that started with 40 leave the field (which ends at
100) after three steps. -/
example : Regular (exOpts 1 3 (.runtime 5)) 0 5 exPair ∧ Repeats (exOpts 1 3 (.runtime 5)) 0 (exRep (some [1, 40])) ∧ Deletes (exDelete (V := ℚ)) ∧
    releaseTimes 0 0 1 2 5 = [2, 4] ∧
    (everyone (exOpts 1 3 (.runtime 5)) 0 (exRep (some [1, 40])) [1, 40] 5 exPair).filterMap (trajectory exScheme 1 5) =
      [(0, 5, 32), (2, 5, 8), (4, 5, 2), (5, 5, 80)] :=
  ⟨exRegular, exRepeats _, exDeletes, by decide +kernel, by decide +kernel⟩

/-- The run itself, in both modes. -/
example : (match execute (exOpts 1 3 (.runtime 5)) (scipyExec (kernel exScheme) exDelete 6 2) (scipyPass (kernel exScheme) 6) id 6 exFile (exRep (some [1, 40])) exPair with
    | some (.done s, rep) => decide (s.ps.map core = [(0, 5, 32), (2, 5, 8), (4, 5, 2), (5, 5, 80)] ∧ rep.nextId = 6 ∧
      records s = [(0, 0, 1), (1, 0, 40), (0, 3, 8), (2, 3, 2), (3, 3, 80), (0, 5, 32), (2, 5, 8), (4, 5, 2), (5, 5, 80)])
    | _ => false) = true := by decide +kernel

example : (match execute (exOpts 1 3 (.runtime 5)) (jitExec (kernel exScheme) exDelete 6 2) (jitPass (kernel exScheme) 6) id 6 exFile (exRep (some [1, 40])) exPair with
    | some (.done s, rep) => decide (s.ps.map core = [(0, 5, 32), (2, 5, 8), (4, 5, 2), (5, 5, 80)] ∧ rep.nextId = 6 ∧
      records s = [(0, 0, 1), (1, 0, 40), (0, 3, 8), (2, 3, 2), (3, 3, 80), (0, 5, 32), (2, 5, 8), (4, 5, 2), (5, 5, 80)])
    | _ => false) = true := by decide +kernel

/-- Backward in time, in the second run of a set whose first release was at 10: the second run starts at 8 and releases at 7. -/
def exBackOpts : Opts := exOpts (-1) 1 (.runtime 2)

def exBackRep : Repeat ℚ := ⟨3, some 10, some [5], 7⟩

def exBackSet : List (TP ℚ) := [(1, ⟨8, -1, .success, 16⟩)]

example : Regular exBackOpts 8 2 exBackSet ∧ Repeats exBackOpts 8 exBackRep ∧
    (match execute exBackOpts (jitExec (kernel fun _ dt v => .ok (v + dt)) exDelete 3 2) (jitPass (kernel fun _ dt v => .ok (v + dt)) 3) id 3 exFile exBackRep exBackSet with
    | some (.done s, rep) => decide (s.ps.map core = [(1, 6, 14), (7, 6, 4)] ∧ rep.nextId = 8 ∧ records s = [(1, 8, 16), (1, 7, 15), (7, 7, 5), (1, 6, 14), (7, 6, 4)])
    | _ => false) = true := by
  refine ⟨⟨⟨_, List.mem_cons_self, rfl⟩, by norm_num [exBackOpts, exOpts], by norm_num [exBackOpts, exOpts], by norm_num [exBackOpts, exOpts], ?_, ?_, ?_, ?_, ?_, ?_⟩,
    ⟨⟨3, by norm_num, by norm_num [exBackRep, exBackOpts, exOpts]⟩, 2, by norm_num [exBackRep, exBackOpts, exOpts]⟩, by decide +kernel⟩
  · intro i hi
    simp only [exBackOpts, exOpts, Option.some.injEq] at hi
    exact ⟨1, by norm_num, by rw [← hi]; norm_num [exBackOpts, exOpts]⟩
  · intro i hi; cases hi
  · intro i hi; cases hi
  · intro i t; simp only [exBackOpts, exOpts]; rw [if_neg (by norm_num)]; show (-1 : ℚ) < 0; norm_num
  · intro i t q hq; simp only [exBackOpts, exOpts] at hq; rw [if_neg (by norm_num)] at hq; cases hq
  · intro q hq
    simp only [exBackSet, List.mem_cons, List.not_mem_nil, or_false] at hq
    subst hq
    exact ⟨0, by norm_num [exBackOpts, exOpts]⟩

/-- A single particle, with the value 1. -/
def exOne : List (TP ℚ) := [(0, ⟨0, 1, .success, 1⟩)]

/-- C102 fails for the positions that were given: in the first run of a set with one particle, which starts at 1, the particle that is released after two steps starts
at 4, where the first particle is by then. -/
theorem C102_given_fails : ∃ s rep, execute (exOpts 1 3 (.runtime 3)) (scipyExec (kernel exScheme) exDelete 4 2) (scipyPass (kernel exScheme) 4) id 4 exFile
      ⟨2, some 0, none, 1⟩ exOne = some (.done s, rep) ∧
    s.ps.map core = [(0, 3, 8), (1, 3, 8)] ∧ exOne.filterMap (trajectory exScheme 1 1) = [(0, 1, 2)] := by
  have h1 : (match execute (exOpts 1 3 (.runtime 3)) (scipyExec (kernel exScheme) exDelete 4 2) (scipyPass (kernel exScheme) 4) id 4 exFile
      ⟨2, some 0, none, 1⟩ exOne with
    | some (.done s, _) => decide (s.ps.map core = [(0, 3, 8), (1, 3, 8)]) | _ => false) = true := by decide +kernel
  split at h1
  · rename_i s rep hs
    exact ⟨s, rep, hs, of_decide_eq_true h1, by decide +kernel⟩
  · cases h1

/-- C102. What is released in the first run depends on the interval of output: with output after every step, the particle starts at 2 instead. -/
theorem C102_output_fails : ∃ s rep t rep', execute (exOpts 1 3 (.runtime 3)) (jitExec (kernel exScheme) exDelete 4 2) (jitPass (kernel exScheme) 4) id 4 exFile
      ⟨2, some 0, none, 1⟩ exOne = some (.done s, rep) ∧
    execute (exOpts 1 1 (.runtime 3)) (jitExec (kernel exScheme) exDelete 4 2) (jitPass (kernel exScheme) 4) id 4 exFile
      ⟨2, some 0, none, 1⟩ exOne = some (.done t, rep') ∧
    s.ps.map core = [(0, 3, 8), (1, 3, 8)] ∧ t.ps.map core = [(0, 3, 8), (1, 3, 4)] := by
  have h1 : (match execute (exOpts 1 3 (.runtime 3)) (jitExec (kernel exScheme) exDelete 4 2) (jitPass (kernel exScheme) 4) id 4 exFile
      ⟨2, some 0, none, 1⟩ exOne with
    | some (.done s, _) => decide (s.ps.map core = [(0, 3, 8), (1, 3, 8)]) | _ => false) = true := by decide +kernel
  have h2 : (match execute (exOpts 1 1 (.runtime 3)) (jitExec (kernel exScheme) exDelete 4 2) (jitPass (kernel exScheme) 4) id 4 exFile
      ⟨2, some 0, none, 1⟩ exOne with
    | some (.done s, _) => decide (s.ps.map core = [(0, 3, 8), (1, 3, 4)]) | _ => false) = true := by decide +kernel
  split at h1
  · rename_i s rep hs
    split at h2
    · rename_i t rep' ht
      exact ⟨s, rep, t, rep', hs, ht, of_decide_eq_true h1, of_decide_eq_true h2⟩
    · cases h2
  · cases h1

/-- The hypotheses of `C102_first` can be met. -/
example : Regular (exOpts 1 3 (.runtime 5)) 0 5 exPair ∧ Repeats (exOpts 1 3 (.runtime 5)) 0 (exRep none) ∧
    ∀ q ∈ exPair, (trajectory (fun _ dt v => .ok (v + dt)) 1 (0 + ((5 : ℕ) : ℚ) * 1) q).isSome := by
  refine ⟨exRegular, exRepeats _, by decide +kernel⟩

/-- The hypotheses of `C102_split_partial` can be met: a run of 4 steps, at the end of which particles are released, and one of 1 step. -/
example : (match execute (exOpts 1 3 (.runtime 4)) (scipyExec (kernel exScheme) exDelete 6 2) (scipyPass (kernel exScheme) 6) id 6 exFile (exRep (some [1, 40])) exPair with
    | some (.done s, rep) => decide (s.ps.map core = [(0, 4, 16), (2, 4, 4), (3, 4, 160), (4, 4, 1), (5, 4, 40)]) &&
      (match execute (exOpts 1 3 (.runtime 1)) (scipyExec (kernel exScheme) exDelete 6 2) (scipyPass (kernel exScheme) 6) id 6 s.file rep s.ps with
        | some (.done s, rep) => decide (s.ps.map core = [(0, 5, 32), (2, 5, 8), (4, 5, 2), (5, 5, 80)] ∧ rep.nextId = 6)
        | _ => false)
    | _ => false) = true := by decide +kernel

end Parcels.ReleaseRun
