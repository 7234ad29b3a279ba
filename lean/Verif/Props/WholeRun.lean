import Verif.Proofs.WholeRun4

/-!
C97: a whole run gives the numerical solution, and the output file contains it; C98: a run can be split.
-/

namespace Parcels.WholeRun

open KernelLoop (Particle Kern Exc)
open Recovery (TP RMap)

variable {V : Type}

/-! ## C97 -/

/-- C97. A run in which everything happens after a whole number of steps returns, if no trajectory ends or if the recovery functions delete; then exactly the
particles whose trajectory has not ended are left, in the same order, each where its trajectory is at the end of the run. In both modes. -/
theorem C97_run {f : Scheme V} {user : RMap Unit V} {exec : Exec V} (hm : IsMode (kernel f) user exec) {o : Opts} {S : ℚ} {N : ℕ} {ps : List (TP V)}
    (h : Regular o S N ps) (hok : Deletes user ∨ ∀ q ∈ ps, (trajectory f o.dt (S + N * o.dt) q).isSome) (fuel : ℕ) (file : Output.PFile) (r : Run V)
    (hr : execute o exec fuel file ps = some r) :
    ∃ s, r = .done s ∧ s.ps.map core = ps.filterMap (trajectory f o.dt (S + N * o.dt)) := by
  obtain ⟨s, h1, h2, -⟩ := execute_good h (mode_effect hm h.step) hok fuel file r hr
  exact ⟨s, h1, h2⟩

/-- C97. The output file then contains, for the start, every `outputdt` and the end of the run, in this order, exactly the particles that have started and whose
trajectory has not ended, each where its trajectory is at that time. (The file was not written to at the start of the run before.) -/
theorem C97_records {f : Scheme V} {user : RMap Unit V} {exec : Exec V} (hm : IsMode (kernel f) user exec) {o : Opts} {S : ℚ} {N : ℕ} {ps : List (TP V)}
    (h : Regular o S N ps) (hok : Deletes user ∨ ∀ q ∈ ps, (trajectory f o.dt (S + N * o.dt) q).isSome) (fuel : ℕ) (file : Output.PFile) (r : Run V)
    (hr : execute o exec fuel file ps = some r) (hf : o.hasFile = true) (hw : file.writeOndelete = false) (hl : file.lasttime ≠ some S) (i : ℚ)
    (hi : o.outputdt = some i) :
    ∃ s, r = .done s ∧ records s = (outputTimes S o.dt i N).flatMap fun t => ps.filterMap (record f o.dt t) := by
  obtain ⟨s, h1, -, -, h3⟩ := execute_good h (mode_effect hm h.step) hok fuel file r hr
  obtain ⟨-, -, h4⟩ := h3 hf hw i hi
  refine ⟨s, h1, ?_⟩
  rw [h4, firstRecords, if_neg hl]
  obtain ⟨k, hk, rfl⟩ := h.output i hi
  have h1 : N / k * k ≤ N := Nat.div_mul_le_self N k
  have h2 : N < (N / k + 1) * k := (Nat.div_lt_iff_lt_mul hk).mp (Nat.lt_succ_self _)
  rw [outputTimes_eq (ne_zero_of h.step) hk h1 h2, List.tail_cons, List.flatMap_cons]

/-- C97. If a trajectory ends before the end of the run and the recovery functions raise (as they do by default), the run raises. -/
theorem C97_raises {f : Scheme V} {user : RMap Unit V} {exec : Exec V} (hm : IsMode (kernel f) user exec) {o : Opts} {S : ℚ} {N : ℕ} {ps : List (TP V)}
    (h : Regular o S N ps) (hu : Raises user) (hbad : ∃ q ∈ ps, trajectory f o.dt (S + N * o.dt) q = none) (fuel : ℕ) (file : Output.PFile) (r : Run V)
    (hr : execute o exec fuel file ps = some r) : ∃ s, r = .raised s :=
  execute_bad h (mode_effect hm h.step) hu hbad fuel file r hr

/-- C97. The run ends: `N + 1` turns of the loops are enough. -/
theorem C97_ends (f : Scheme V) {user : RMap Unit V} (hok : Deletes user ∨ Raises user) {o : Opts} {S : ℚ} {N : ℕ} {ps : List (TP V)}
    (h : Regular o S N ps) (file : Output.PFile) :
    (execute o (scipyExec (kernel f) user (N + 1) 2) (N + 1) file ps).isSome ∧ (execute o (jitExec (kernel f) user (N + 1) 2) (N + 1) file ps).isSome :=
  ⟨execute_total h (mode_effect (f := f) ⟨_, _, Or.inl rfl⟩ h.step) (fun n ps hn hps => scipy_total f user h.step hok n ps hn hps) hok file,
   execute_total h (mode_effect (f := f) ⟨_, _, Or.inr rfl⟩ h.step) (fun n ps hn hps => jit_total f user h.step hok n ps hn hps) hok file⟩

/-- C97. A run with `AdvectionRK4` in a flow that is defined everywhere: every particle that has started by the end of the run is where as many steps of the
classical Runge-Kutta method as fit between its start and the end lead, the others are still where they were; whatever the recovery functions. -/
theorem C97_rk4 (g : ℚ → ℚ → ℚ × ℚ → ℚ × ℚ) {user : RMap Unit (ℚ × ℚ × ℚ)} {exec : Exec (ℚ × ℚ × ℚ)}
    (hm : IsMode (Advection.toKern (Advection.plain (Advection.rk4 (Advection.total g)))) user exec) {o : Opts} {S : ℚ} {N : ℕ}
    {ps : List (TP (ℚ × ℚ × ℚ))} (h : Regular o S N ps) (fuel : ℕ) (file : Output.PFile) (r : Run (ℚ × ℚ × ℚ))
    (hr : execute o exec fuel file ps = some r) :
    ∃ s, r = .done s ∧ s.ps.map core = ps.map fun q =>
      if 0 < (q.2.time - (S + N * o.dt)) * sgn o.dt then core q
      else
        let x := rk4Path g o.dt q.2.vars.2.2 ⌊(S + N * o.dt - q.2.time) / o.dt⌋₊ q.2.time (q.2.vars.1, q.2.vars.2.1)
        (q.1, S + N * o.dt, x.1, x.2, q.2.vars.2.2) := by
  rw [rk4_kernel] at hm
  obtain ⟨s, h1, h2⟩ := C97_run hm h (Or.inr fun q _ => by rw [rk4_trajectory]; rfl) fuel file r hr
  refine ⟨s, h1, ?_⟩
  rw [h2, ← List.filterMap_eq_map']
  apply List.filterMap_congr
  intro q _
  rw [rk4_trajectory]

/-- C97. In a uniform flow, each particle ends at its start plus velocity times the time since then. -/
theorem C97_uniform (u v : ℚ) {user : RMap Unit (ℚ × ℚ × ℚ)} {exec : Exec (ℚ × ℚ × ℚ)}
    (hm : IsMode (Advection.toKern (Advection.plain (Advection.rk4 (Advection.uniform u v)))) user exec) {o : Opts} {S : ℚ} {N : ℕ}
    {ps : List (TP (ℚ × ℚ × ℚ))} (h : Regular o S N ps) (fuel : ℕ) (file : Output.PFile) (r : Run (ℚ × ℚ × ℚ))
    (hr : execute o exec fuel file ps = some r) :
    ∃ s, r = .done s ∧ s.ps.map core = ps.map fun q =>
      if 0 < (q.2.time - (S + N * o.dt)) * sgn o.dt then core q
      else (q.1, S + N * o.dt, q.2.vars.1 + u * (S + N * o.dt - q.2.time), q.2.vars.2.1 + v * (S + N * o.dt - q.2.time), q.2.vars.2.2) := by
  have hne := ne_zero_of h.step
  obtain ⟨s, h1, h2⟩ := C97_rk4 (fun _ _ _ => (u, v)) hm h fuel file r hr
  refine ⟨s, h1, ?_⟩
  rw [h2]
  apply List.map_congr_left
  intro q hq
  split
  · rfl
  · rename_i c
    obtain ⟨j, hj⟩ := h.starts q hq
    rw [hj, grid_lt hne, not_lt] at c
    have e : S + N * o.dt - q.2.time = ((N - j : ℕ) : ℚ) * o.dt := by rw [hj, Nat.cast_sub c]; ring
    dsimp only
    rw [uniform_path, e, mul_div_assoc, div_self hne, mul_one, Nat.floor_natCast]

/-! ### Cases -/

/-- Euler's method for x' = x; the field ends at 100. -/
def exScheme : Scheme ℚ := fun _ dt v => if v < 100 then .ok (v + dt * v) else .error .outOfBound

/-- Three particles that start at different times. -/
def exPs : List (TP ℚ) := [(0, ⟨0, 1, .success, 1⟩), (1, ⟨1, 1, .success, 50⟩), (2, ⟨2, 1, .success, 3⟩)]

/-- Recovery functions that delete. -/
def exDelete : RMap Unit V := fun _ => some fun w p => (w, some { p with state := .delete })

def exOpts (i : ℚ) (u : Until) : Opts := ⟨1, u, true, some i, none, none, fun _ _ => .pinf⟩

def exFile : Output.PFile := Output.newFile false false

theorem exRegular : Regular (exOpts 2 (.runtime 4)) 0 4 exPs := by
  refine ⟨⟨_, List.mem_cons_self, rfl⟩, by norm_num [exOpts], by norm_num [exOpts], by norm_num [exOpts], ?_, ?_, ?_, ?_, ?_, ?_⟩
  · intro i hi
    simp only [exOpts, Option.some.injEq] at hi
    exact ⟨2, by norm_num, by rw [← hi]; norm_num [exOpts]⟩
  · intro i hi; cases hi
  · intro i hi; cases hi
  · intro i t; show (0 : ℚ) < 1; norm_num
  · intro i t q hq; cases hq
  · intro q hq
    simp only [exPs, List.mem_cons, List.not_mem_nil, or_false] at hq
    rcases hq with rfl | rfl | rfl
    · exact ⟨0, by norm_num [exOpts]⟩
    · exact ⟨1, by norm_num [exOpts]⟩
    · exact ⟨2, by norm_num [exOpts]⟩

theorem exDeletes : Deletes (exDelete (V := V)) := by
  intro e
  cases e <;> rfl

/-- The hypotheses of C97 can be met: the run deletes the second particle and keeps the others; the default recovery functions raise. -/
example : Regular (exOpts 2 (.runtime 4)) 0 4 exPs ∧ Deletes (exDelete (V := ℚ)) ∧ Raises (fun _ => none : RMap Unit ℚ) ∧
    exPs.filterMap (trajectory exScheme 1 4) = [(0, 4, 16), (2, 4, 12)] ∧
    (∃ q ∈ exPs, trajectory exScheme 1 4 q = none) ∧
    ((outputTimes 0 1 2 4).flatMap fun t => exPs.filterMap (record exScheme 1 t)) =
      [(0, 0, 1), (0, 2, 4), (1, 2, 100), (2, 2, 3), (0, 4, 16), (2, 4, 12)] := by
  refine ⟨exRegular, exDeletes, ?_, by decide +kernel, ⟨(1, ⟨1, 1, .success, 50⟩), by simp [exPs], by decide +kernel⟩, by decide +kernel⟩
  intro e
  cases e <;> exact ⟨_, rfl, fun _ _ => rfl⟩

/-- The run itself, in both modes. -/
example : (match execute (exOpts 2 (.runtime 4)) (scipyExec (kernel exScheme) exDelete 5 2) 5 exFile exPs with
    | some (.done s) => decide (s.ps.map core = [(0, 4, 16), (2, 4, 12)] ∧
      records s = [(0, 0, 1), (0, 2, 4), (1, 2, 100), (2, 2, 3), (0, 4, 16), (2, 4, 12)])
    | _ => false) = true ∧
  (match execute (exOpts 2 (.runtime 4)) (jitExec (kernel exScheme) exDelete 5 2) 5 exFile exPs with
    | some (.done s) => decide (s.ps.map core = [(0, 4, 16), (2, 4, 12)] ∧
      records s = [(0, 0, 1), (0, 2, 4), (1, 2, 100), (2, 2, 3), (0, 4, 16), (2, 4, 12)])
    | _ => false) = true := by decide +kernel

/-- Backward in time, with `AdvectionRK4` in a rotating flow and to a given end time. -/
def exBack : Opts := ⟨-1 / 2, .endtime 8, true, some 1, some (1 / 2), none, fun _ _ => .ninf⟩

def exRot : ℚ → ℚ → ℚ × ℚ → ℚ × ℚ := fun _ _ x => (-x.2, x.1)

def exPts : List (TP (ℚ × ℚ × ℚ)) := [(5, ⟨10, 1, .success, (1, 0, 3)⟩), (6, ⟨9, 1, .success, (0, 2, 3)⟩), (7, ⟨7, 1, .success, (0, 2, 3)⟩)]

example : Regular exBack 10 4 exPts ∧
    (match execute exBack (jitExec (Advection.toKern (Advection.plain (Advection.rk4 (Advection.total exRot)))) (fun _ => none) 5 2) 5 exFile exPts with
    | some (.done s) => decide ((s.ps.map core).map (fun c => (c.1, c.2.1)) = [(5, 8), (6, 8), (7, 7)] ∧
        (records s).map (fun c => (c.1, c.2.1)) = [(5, 10), (5, 9), (6, 9), (5, 8), (6, 8)])
    | _ => false) = true := by
  refine ⟨⟨by decide +kernel, by norm_num [exBack, abs_div], by norm_num [exBack, abs_div], by norm_num [exBack], ?_, ?_, ?_, ?_, ?_, ?_⟩, by decide +kernel⟩
  · intro i hi
    simp only [exBack, Option.some.injEq] at hi
    exact ⟨2, by norm_num, by rw [← hi]; norm_num [exBack, abs_div]⟩
  · intro i hi
    simp only [exBack, Option.some.injEq] at hi
    exact ⟨1, by norm_num, by rw [← hi]; norm_num [exBack, abs_div]⟩
  · intro i hi; cases hi
  · intro i t; show (-1 / 2 : ℚ) < 0; norm_num
  · intro i t q hq; cases hq
  · intro q hq
    simp only [exPts, List.mem_cons, List.not_mem_nil, or_false] at hq
    rcases hq with rfl | rfl | rfl
    · exact ⟨0, by norm_num [exBack]⟩
    · exact ⟨2, by norm_num [exBack]⟩
    · exact ⟨6, by norm_num [exBack]⟩

/-- C97 needs whole numbers of steps: two runs that differ in the output interval only (2 and 3/2 steps) end with different positions. -/
theorem C97_off_grid_fails : ∃ s t : St ℚ,
    execute (exOpts 2 (.runtime 4)) (scipyExec (kernel exScheme) exDelete 5 2) 5 exFile exPs = some (.done s) ∧
    execute (exOpts (3 / 2) (.runtime 4)) (scipyExec (kernel exScheme) exDelete 5 2) 5 exFile exPs = some (.done t) ∧
    s.ps.map core = [(0, 4, 16), (2, 4, 12)] ∧ t.ps.map core = [(0, 4, 729 / 32), (2, 4, 12)] := by
  have h1 : (match execute (exOpts 2 (.runtime 4)) (scipyExec (kernel exScheme) exDelete 5 2) 5 exFile exPs with
    | some (.done s) => decide (s.ps.map core = [(0, 4, 16), (2, 4, 12)]) | _ => false) = true := by decide +kernel
  have h2 : (match execute (exOpts (3 / 2) (.runtime 4)) (scipyExec (kernel exScheme) exDelete 5 2) 5 exFile exPs with
    | some (.done s) => decide (s.ps.map core = [(0, 4, 729 / 32), (2, 4, 12)]) | _ => false) = true := by decide +kernel
  split at h1
  · rename_i s hs
    split at h2
    · rename_i t ht
      exact ⟨s, t, hs, ht, of_decide_eq_true h1, of_decide_eq_true h2⟩
    · cases h2
  · cases h1

/-! ## C98 -/

/-- C98. A run of `N` steps and then a run of `M` steps, with the same options, give the same particles as one run of `N + M` steps, provided that some particle is under
way at the end of the first run. In both modes, with `runtime` and with `endtime`. -/
theorem C98_split_partial {f : Scheme V} {user : RMap Unit V} {exec : Exec V} (hm : IsMode (kernel f) user exec) {o : Opts} {S : ℚ} {N M : ℕ} {u u' : Until}
    {ps : List (TP V)} (h : Regular o S N ps) (h' : Regular (o.lasting u') S (N + M) ps)
    (hM : 1 / 100000 ≤ M * |o.dt|) (hu : match u with | .runtime r => r = M * |o.dt| | .endtime e => e = S + N * o.dt + M * o.dt)
    (hok : Deletes user ∨ ∀ q ∈ ps, (trajectory f o.dt (S + N * o.dt + M * o.dt) q).isSome)
    (hsome : ∃ q ∈ ps, ∃ c, record f o.dt (S + N * o.dt) q = some c)
    (n1 n2 n3 : ℕ) (file1 file2 file3 : Output.PFile) (s1 : St V) (r2 r3 : Run V)
    (hr1 : execute o exec n1 file1 ps = some (.done s1)) (hr2 : execute (o.lasting u) exec n2 file2 s1.ps = some r2)
    (hr3 : execute (o.lasting u') exec n3 file3 ps = some r3) :
    ∃ s2 s3, r2 = .done s2 ∧ r3 = .done s3 ∧ s2.ps.map core = s3.ps.map core := by
  have hne := ne_zero_of h.step
  have e : S + N * o.dt + M * o.dt = S + ((N + M : ℕ) : ℚ) * o.dt := by push_cast; ring
  have hok1 : Deletes user ∨ ∀ q ∈ ps, (trajectory f o.dt (S + N * o.dt) q).isSome := by
    rcases hok with hd | hd
    · exact Or.inl hd
    · right
      intro q hq
      obtain ⟨j, hj⟩ := h.starts q hq
      refine traj_isSome f hne (core q) j N (N + M) hj (by omega) ?_
      rw [← e]
      exact hd q hq
  obtain ⟨s1', hs1, hc1⟩ := C97_run hm h hok1 n1 file1 _ hr1
  obtain rfl : s1 = s1' := by cases hs1; rfl
  have h2 := regular_second (u := u) h hc1 hsome hM hu
  have hok2 : Deletes user ∨ ∀ q ∈ s1.ps, (trajectory f o.dt (S + N * o.dt + M * o.dt) q).isSome := by
    rcases hok with hd | hd
    · exact Or.inl hd
    · right
      intro q hq
      have : core q ∈ s1.ps.map core := List.mem_map_of_mem hq
      rw [hc1, List.mem_filterMap] at this
      obtain ⟨q0, hq0, eq⟩ := this
      obtain ⟨j, hj⟩ := h.starts q0 hq0
      have hh := hd q0 hq0
      rw [e, trajectory_eq, ← traj_comp f hne (core q0) j N (N + M) hj (by omega), ← trajectory_eq, eq] at hh
      rw [e]
      exact hh
  obtain ⟨s2, k1, k2⟩ := C97_run hm h2 hok2 n2 file2 _ hr2
  obtain ⟨s3, k3, k4⟩ := C97_run hm h' (by
    rcases hok with hd | hd
    · exact Or.inl hd
    · right
      intro q hq
      have := hd q hq
      rw [e] at this
      exact this) n3 file3 _ hr3
  refine ⟨s2, s3, k1, k3, ?_⟩
  rw [k2, k4]
  change s1.ps.filterMap (trajectory f o.dt (S + N * o.dt + M * o.dt)) = ps.filterMap (trajectory f o.dt (S + ((N + M : ℕ) : ℚ) * o.dt))
  rw [second_trajectory h M hc1, e]

/-- C98. If moreover the first run ends at an output time, the two runs write to the same file exactly what one run writes. -/
theorem C98_records_partial {f : Scheme V} {user : RMap Unit V} {exec : Exec V} (hm : IsMode (kernel f) user exec) {o : Opts} {S : ℚ} {N M : ℕ} {u u' : Until}
    {ps : List (TP V)} (h : Regular o S N ps) (h' : Regular (o.lasting u') S (N + M) ps)
    (hM : 1 / 100000 ≤ M * |o.dt|) (hu : match u with | .runtime r => r = M * |o.dt| | .endtime e => e = S + N * o.dt + M * o.dt)
    (hok : Deletes user ∨ ∀ q ∈ ps, (trajectory f o.dt (S + N * o.dt + M * o.dt) q).isSome)
    (hsome : ∃ q ∈ ps, ∃ c, record f o.dt (S + N * o.dt) q = some c)
    (hf : o.hasFile = true) (i : ℚ) (hi : o.outputdt = some i) (hend : ∃ K : ℕ, N * |o.dt| = K * i)
    (n1 n2 n3 : ℕ) (file : Output.PFile) (hw : file.writeOndelete = false) (hl : file.lasttime ≠ some S) (s1 : St V) (r2 r3 : Run V)
    (hr1 : execute o exec n1 file ps = some (.done s1)) (hr2 : execute (o.lasting u) exec n2 s1.file s1.ps = some r2)
    (hr3 : execute (o.lasting u') exec n3 file ps = some r3) :
    ∃ s2 s3, r2 = .done s2 ∧ r3 = .done s3 ∧ records s1 ++ records s2 = records s3 := by
  have hne := ne_zero_of h.step
  have hp := abs_pos.mpr hne
  have e : S + N * o.dt + M * o.dt = S + ((N + M : ℕ) : ℚ) * o.dt := by push_cast; ring
  have hok1 : Deletes user ∨ ∀ q ∈ ps, (trajectory f o.dt (S + N * o.dt) q).isSome := by
    rcases hok with hd | hd
    · exact Or.inl hd
    · right
      intro q hq
      obtain ⟨j, hj⟩ := h.starts q hq
      refine traj_isSome f hne (core q) j N (N + M) hj (by omega) ?_
      rw [← e]
      exact hd q hq
  have hok3 : Deletes user ∨ ∀ q ∈ ps, (trajectory f o.dt (S + ((N + M : ℕ) : ℚ) * o.dt) q).isSome := by rw [← e]; exact hok
  obtain ⟨s1', hs1, hc1, -, hx1⟩ := execute_good h (mode_effect hm h.step) hok1 n1 file _ hr1
  obtain rfl : s1 = s1' := by cases hs1; rfl
  obtain ⟨x1, x2, -⟩ := hx1 hf hw i hi
  have h2 := regular_second (u := u) h hc1 hsome hM hu
  have hok2 : Deletes user ∨ ∀ q ∈ s1.ps, (trajectory f o.dt (S + N * o.dt + M * o.dt) q).isSome := by
    rcases hok with hd | hd
    · exact Or.inl hd
    · right
      intro q hq
      have : core q ∈ s1.ps.map core := List.mem_map_of_mem hq
      rw [hc1, List.mem_filterMap] at this
      obtain ⟨q0, hq0, eq⟩ := this
      obtain ⟨j, hj⟩ := h.starts q0 hq0
      have hh := hd q0 hq0
      rw [e, trajectory_eq, ← traj_comp f hne (core q0) j N (N + M) hj (by omega), ← trajectory_eq, eq] at hh
      rw [e]
      exact hh
  obtain ⟨s2, k1, -, -, k2⟩ := execute_good h2 (mode_effect hm h.step) hok2 n2 s1.file _ hr2
  obtain ⟨-, -, k2⟩ := k2 hf x2 i hi
  obtain ⟨s3, k3, k4⟩ := C97_records hm h' hok3 n3 file _ hr3 hf hw hl i hi
  obtain ⟨s1', hs1, k5⟩ := C97_records hm h hok1 n1 file _ hr1 hf hw hl i hi
  obtain rfl : s1 = s1' := by cases hs1; rfl
  refine ⟨s2, s3, k1, k3, ?_⟩
  obtain ⟨k, hk, rfl⟩ := h.output i hi
  obtain ⟨K, hK⟩ := hend
  have hN : N = K * k := by
    have : (N : ℚ) * |o.dt| = ((K * k : ℕ) : ℚ) * |o.dt| := by rw [hK]; push_cast; ring
    exact_mod_cast mul_right_cancel₀ hp.ne' this
  rw [k4, k5, k2, firstRecords, if_pos x1, List.nil_append]
  change _ ++ (outputTimes (S + N * o.dt) o.dt (k * |o.dt|) M).tail.flatMap (fun t => s1.ps.filterMap (record f o.dt t)) =
    (outputTimes S o.dt (k * |o.dt|) (N + M)).flatMap (fun t => ps.filterMap (record f o.dt t))
  rw [outputTimes_append hne hk hN, List.flatMap_append]
  congr 1
  apply List.flatMap_congr
  intro t ht
  obtain ⟨m, rfl⟩ : ∃ m : ℕ, t = S + N * o.dt + m * o.dt := by
    have h1 : M / k * k ≤ M := Nat.div_mul_le_self M k
    have h2 : M < (M / k + 1) * k := (Nat.div_lt_iff_lt_mul hk).mp (Nat.lt_succ_self _)
    rw [outputTimes_eq hne hk h1 h2, List.tail_cons, List.mem_append] at ht
    rcases ht with ht | ht
    · obtain ⟨j, -, rfl⟩ := List.mem_map.mp ht
      exact ⟨_, rfl⟩
    · split at ht
      · cases ht
      · exact ⟨M, by simpa using ht⟩
  exact second_record h m hc1

/-- The hypotheses of C98 can be met: two runs of 2 steps. -/
example : Regular (exOpts 2 (.runtime 2)) 0 2 exPs ∧ Regular ((exOpts 2 (.runtime 2)).lasting (.runtime 4)) 0 (2 + 2) exPs ∧
    (∃ q ∈ exPs, ∃ c, record exScheme 1 (0 + (2 : ℕ) * 1) q = some c) ∧
    (match execute (exOpts 2 (.runtime 2)) (jitExec (kernel exScheme) exDelete 5 2) 5 exFile exPs with
      | some (.done s) =>
        match execute (exOpts 2 (.runtime 2)) (jitExec (kernel exScheme) exDelete 5 2) 5 s.file s.ps with
        | some (.done t) => decide (t.ps.map core = [(0, 4, 16), (2, 4, 12)] ∧
            records s ++ records t = [(0, 0, 1), (0, 2, 4), (1, 2, 100), (2, 2, 3), (0, 4, 16), (2, 4, 12)])
        | _ => false
      | _ => false) = true := by
  refine ⟨?_, exRegular, ⟨(0, ⟨0, 1, .success, 1⟩), by simp [exPs], (0, 2, 4), by decide +kernel⟩, by decide +kernel⟩
  exact ⟨exRegular.start, exRegular.step, by norm_num [exOpts], by norm_num [exOpts], exRegular.output, exRegular.movie, exRegular.callback, exRegular.ahead,
    exRegular.input, exRegular.starts⟩

/-- A particle that leaves the domain at once, and one that starts at time 10. -/
def exLate : List (TP ℚ) := [(0, ⟨0, 1, .success, 200⟩), (1, ⟨10, 1, .success, 1⟩)]

/-- C98 needs a particle under way, first case: when all particles are deleted in the first run, a second run fails (ValueError), one longer run does not. -/
theorem C98_empty_fails : ∃ s t : St ℚ,
    execute (exOpts 2 (.runtime 2)) (scipyExec (kernel exScheme) exDelete 5 2) 5 exFile (exLate.take 1) = some (.done s) ∧
    (∃ c, execute (exOpts 2 (.runtime 2)) (scipyExec (kernel exScheme) exDelete 5 2) 5 s.file s.ps = some (.crash c)) ∧
    execute (exOpts 2 (.runtime 4)) (scipyExec (kernel exScheme) exDelete 5 2) 5 exFile (exLate.take 1) = some (.done t) := by
  have h1 : (match execute (exOpts 2 (.runtime 2)) (scipyExec (kernel exScheme) exDelete 5 2) 5 exFile (exLate.take 1) with
    | some (.done s) =>
      match execute (exOpts 2 (.runtime 2)) (scipyExec (kernel exScheme) exDelete 5 2) 5 s.file s.ps with
      | some (.crash _) => true
      | _ => false
    | _ => false) = true := by decide +kernel
  have h2 : (match execute (exOpts 2 (.runtime 4)) (scipyExec (kernel exScheme) exDelete 5 2) 5 exFile (exLate.take 1) with
    | some (.done _) => true | _ => false) = true := by decide +kernel
  split at h1
  · rename_i s hs
    split at h1
    · rename_i c hc
      split at h2
      · rename_i t ht
        exact ⟨s, t, hs, ⟨c, hc⟩, ht⟩
      · cases h2
    · cases h1
  · cases h1

/-- C98 needs a particle under way, second case: when only particles are left that start later, `runtime` of the second run counts from their start. Here the
second run ends at time 12, one longer run at time 4. -/
theorem C98_late_fails : ∃ s t r : St ℚ,
    execute (exOpts 2 (.runtime 2)) (scipyExec (kernel exScheme) exDelete 5 2) 5 exFile exLate = some (.done s) ∧
    execute (exOpts 2 (.runtime 2)) (scipyExec (kernel exScheme) exDelete 5 2) 5 s.file s.ps = some (.done t) ∧
    execute (exOpts 2 (.runtime 4)) (scipyExec (kernel exScheme) exDelete 5 2) 5 exFile exLate = some (.done r) ∧
    t.ps.map core = [(1, 12, 4)] ∧ r.ps.map core = [(1, 10, 1)] := by
  have h1 : (match execute (exOpts 2 (.runtime 2)) (scipyExec (kernel exScheme) exDelete 5 2) 5 exFile exLate with
    | some (.done s) =>
      match execute (exOpts 2 (.runtime 2)) (scipyExec (kernel exScheme) exDelete 5 2) 5 s.file s.ps with
      | some (.done t) => decide (t.ps.map core = [(1, 12, 4)])
      | _ => false
    | _ => false) = true := by decide +kernel
  have h2 : (match execute (exOpts 2 (.runtime 4)) (scipyExec (kernel exScheme) exDelete 5 2) 5 exFile exLate with
    | some (.done r) => decide (r.ps.map core = [(1, 10, 1)]) | _ => false) = true := by decide +kernel
  split at h1
  · rename_i s hs
    split at h1
    · rename_i t ht
      split at h2
      · rename_i r hr
        exact ⟨s, t, r, hs, ht, hr, of_decide_eq_true h1, of_decide_eq_true h2⟩
      · cases h2
    · cases h1
  · cases h1

/-- C98 needs a first run that ends at an output time: with output every 2 steps, two runs of 3 steps write at other times than one run of 6 steps. -/
theorem C98_output_fails : ∃ s t r : St ℚ,
    execute (exOpts 2 (.runtime 3)) (scipyExec (kernel exScheme) exDelete 9 2) 9 exFile (exPs.take 1) = some (.done s) ∧
    execute (exOpts 2 (.runtime 3)) (scipyExec (kernel exScheme) exDelete 9 2) 9 s.file s.ps = some (.done t) ∧
    execute (exOpts 2 (.runtime 6)) (scipyExec (kernel exScheme) exDelete 9 2) 9 exFile (exPs.take 1) = some (.done r) ∧
    (records s ++ records t).map (fun c => c.2.1) = [0, 2, 3, 5, 6] ∧ (records r).map (fun c => c.2.1) = [0, 2, 4, 6] := by
  have h1 : (match execute (exOpts 2 (.runtime 3)) (scipyExec (kernel exScheme) exDelete 9 2) 9 exFile (exPs.take 1) with
    | some (.done s) =>
      match execute (exOpts 2 (.runtime 3)) (scipyExec (kernel exScheme) exDelete 9 2) 9 s.file s.ps with
      | some (.done t) => decide ((records s ++ records t).map (fun c => c.2.1) = [0, 2, 3, 5, 6])
      | _ => false
    | _ => false) = true := by decide +kernel
  have h2 : (match execute (exOpts 2 (.runtime 6)) (scipyExec (kernel exScheme) exDelete 9 2) 9 exFile (exPs.take 1) with
    | some (.done r) => decide ((records r).map (fun c => c.2.1) = [0, 2, 4, 6]) | _ => false) = true := by decide +kernel
  split at h1
  · rename_i s hs
    split at h1
    · rename_i t ht
      split at h2
      · rename_i r hr
        exact ⟨s, t, r, hs, ht, hr, of_decide_eq_true h1, of_decide_eq_true h2⟩
      · cases h2
    · cases h1
  · cases h1

end Parcels.WholeRun
