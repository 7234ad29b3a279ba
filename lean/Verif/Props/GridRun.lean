import Verif.Proofs.GridRun3
import Verif.Props.WholeRun

/-!
C99: a whole run on gridded data follows the interpolated fields, and the two modes agree.
-/

namespace Parcels.GridRun

open Search Interp TimeInterp
open KernelLoop (Exc)
open WholeRun (Scheme Opts Run Exec St execute scipyExec jitExec kernel solution trajectory record records outputTimes core Regular Deletes Raises)
open Recovery (TP RMap)

variable {V : Type}

/-! ### Samples -/

/-- C99. A sample is the interpolated value, and succeeds where there is one; in both modes, whatever cells of the grid the particle remembers. -/
theorem C99_sample {f : Fld} (hf : Sound f) (t z y x w : ℚ) (h : Hint)
    (hx : h.xi + 1 < f.grid.lon.length) (hy : h.yi + 1 < f.grid.lat.length) (hz : h.zi ≤ f.grid.depth.length - 1) (ht : h.ti < f.time.length) :
    (eval f t z y x = .ok w ↔ FieldValue f t z y x w) ∧ ((∃ h', cEval f t z y x h = .ok (w, h')) ↔ FieldValue f t z y x w) := by
  have hh : HintOk f h := ⟨hx, hy, hz, ht⟩
  refine ⟨eval_iff hf t z y x w, fun ⟨h', e⟩ => ?_, fun e => ⟨_, (cEval_iff hf hh t z y x w).mpr e⟩⟩
  have e2 := cEval_shape e
  rw [e2] at e
  exact (cEval_iff hf hh t z y x w).mp e

/-- C99. There is exactly one value where the field covers the place and time, and none elsewhere. -/
theorem C99_covers {f : Fld} (hf : Sound f) (t z y x : ℚ) : (∃! w, FieldValue f t z y x w) ↔ Covers f t z y x := by
  constructor
  · rintro ⟨w, hw, -⟩
    exact value_covers hf hw
  · intro h
    obtain ⟨w, hw⟩ := covers_value hf h
    refine ⟨w, hw, fun v hv => ?_⟩
    have a := (eval_iff hf t z y x w).mpr hw
    have b := (eval_iff hf t z y x v).mpr hv
    rw [a] at b
    injection b with b
    exact b.symm

/-! ### Runs -/

/-- C99. A run in Scipy mode with a kernel that samples gridded data: the particles that are left are where the trajectories in the interpolated fields lead. -/
theorem C99_scipy {fs : Nat → Fld} (hf : ∀ i, Sound (fs i)) {val : Nat → (t z y x : ℚ) → Option ℚ} (hv : Interpolates fs val) (b : Body V)
    {user : RMap Unit V} {o : Opts} {S : ℚ} {N : ℕ} {ps : List (TP V)} (h : Regular o S N ps)
    (hok : Deletes user ∨ ∀ q ∈ ps, (trajectory (refScheme val b) o.dt (S + N * o.dt) q).isSome) (k n fuel : ℕ) (file : Output.PFile) (r : Run V)
    (hr : execute o (scipyExec (kernel (scipyScheme fs b)) user k n) fuel file ps = some r) :
    ∃ s, r = .done s ∧ s.ps.map core = ps.filterMap (trajectory (refScheme val b) o.dt (S + N * o.dt)) := by
  rw [← trajectory_scipy hf hv b] at hok ⊢
  exact WholeRun.C97_run ⟨k, n, Or.inl rfl⟩ h hok fuel file r hr

/-- C99. The same in JIT mode, where particles remember cells. -/
theorem C99_jit {fs : Nat → Fld} (hf : ∀ i, Sound (fs i)) (hg : Grids fs) {val : Nat → (t z y x : ℚ) → Option ℚ} (hv : Interpolates fs val) (b : Body V)
    {user : RMap Unit (V × (Nat → Hint))} {o : Opts} {S : ℚ} {N : ℕ} {ps : List (TP (V × (Nat → Hint)))} (h : Regular o S N ps)
    (hh : ∀ q ∈ ps, Hints fs q.2.vars.2)
    (hok : Deletes user ∨ ∀ q ∈ ps, (trajectory (refScheme val b) o.dt (S + N * o.dt) (strip q)).isSome) (k n fuel : ℕ) (file : Output.PFile)
    (r : Run (V × (Nat → Hint))) (hr : execute o (jitExec (kernel (jitScheme fs b)) user k n) fuel file ps = some r) :
    ∃ s, r = .done s ∧ (s.ps.map core).map bare = (ps.map strip).filterMap (trajectory (refScheme val b) o.dt (S + N * o.dt)) := by
  have hok' : Deletes user ∨ ∀ q ∈ ps, (trajectory (jitScheme fs b) o.dt (S + N * o.dt) q).isSome := by
    refine hok.imp_right fun H q hq => ?_
    have := H q hq
    rw [← trajectory_jit hf hg hv b _ _ q (hh q hq), Option.isSome_map] at this
    exact this
  obtain ⟨s, h1, h2⟩ := WholeRun.C97_run (f := jitScheme fs b) ⟨k, n, Or.inr rfl⟩ h hok' fuel file r hr
  refine ⟨s, h1, ?_⟩
  rw [h2]
  exact filterMap_bare _ _ _ _ _ fun q hq => trajectory_jit hf hg hv b _ _ q (hh q hq)

/-- C99. The interpolated values the two theorems speak of exist. -/
theorem C99_values {fs : Nat → Fld} (hf : ∀ i, Sound (fs i)) : ∃ val, Interpolates fs val := interpolates_exists hf

/-- C99. With recovery functions that delete, the two modes give the same particles, and the same records in the output file. -/
theorem C99_modes {fs : Nat → Fld} (hf : ∀ i, Sound (fs i)) (hg : Grids fs) (b : Body V) {user : RMap Unit V} {user' : RMap Unit (V × (Nat → Hint))}
    (hu : Deletes user) (hu' : Deletes user') {o : Opts} {S : ℚ} {N : ℕ} {ps : List (TP (V × (Nat → Hint)))} (h : Regular o S N ps)
    (hh : ∀ q ∈ ps, Hints fs q.2.vars.2) (k n fuel k' n' fuel' : ℕ) (file : Output.PFile) (r : Run V) (r' : Run (V × (Nat → Hint)))
    (hr : execute o (scipyExec (kernel (scipyScheme fs b)) user k n) fuel file (ps.map strip) = some r)
    (hr' : execute o (jitExec (kernel (jitScheme fs b)) user' k' n') fuel' file ps = some r') :
    ∃ s s', r = .done s ∧ r' = .done s' ∧ s.ps.map core = (s'.ps.map core).map bare ∧
      (o.hasFile = true → file.writeOndelete = false → file.lasttime ≠ some S → o.outputdt ≠ none → records s = (records s').map bare) := by
  obtain ⟨val, hv⟩ := interpolates_exists hf
  obtain ⟨s, e1, e2⟩ := C99_scipy hf hv b (regular_strip h) (Or.inl hu) k n fuel file r hr
  obtain ⟨s', e1', e2'⟩ := C99_jit hf hg hv b h hh (Or.inl hu') k' n' fuel' file r' hr'
  refine ⟨s, s', e1, e1', by rw [e2, e2'], fun c1 c2 c3 c4 => ?_⟩
  obtain ⟨i, hi⟩ := Option.ne_none_iff_exists'.mp c4
  obtain ⟨s2, a1, a2⟩ := WholeRun.C97_records (f := scipyScheme fs b) ⟨k, n, Or.inl rfl⟩ (regular_strip h) (Or.inl hu) fuel file r hr c1 c2 c3 i hi
  obtain ⟨s2', a1', a2'⟩ := WholeRun.C97_records (f := jitScheme fs b) ⟨k', n', Or.inr rfl⟩ h (Or.inl hu') fuel' file r' hr' c1 c2 c3 i hi
  rw [e1] at a1
  rw [e1'] at a1'
  injection a1 with a1
  injection a1' with a1'
  subst a1 a1'
  rw [a2, a2', List.map_flatMap]
  congr 1
  funext t
  rw [filterMap_bare _ (record (refScheme val b) o.dt t) bare strip ps fun q hq => record_jit hf hg hv b _ _ q (hh q hq)]
  unfold record
  rw [trajectory_scipy hf hv b]

/-- C99. With recovery functions that raise (the default), either both modes raise, or both return with the same particles. -/
theorem C99_modes_raise {fs : Nat → Fld} (hf : ∀ i, Sound (fs i)) (hg : Grids fs) (b : Body V) {user : RMap Unit V} {user' : RMap Unit (V × (Nat → Hint))}
    (hu : Raises user) (hu' : Raises user') {o : Opts} {S : ℚ} {N : ℕ} {ps : List (TP (V × (Nat → Hint)))} (h : Regular o S N ps)
    (hh : ∀ q ∈ ps, Hints fs q.2.vars.2) (k n fuel k' n' fuel' : ℕ) (file : Output.PFile) (r : Run V) (r' : Run (V × (Nat → Hint)))
    (hr : execute o (scipyExec (kernel (scipyScheme fs b)) user k n) fuel file (ps.map strip) = some r)
    (hr' : execute o (jitExec (kernel (jitScheme fs b)) user' k' n') fuel' file ps = some r') :
    (∃ s s', r = .raised s ∧ r' = .raised s') ∨
    (∃ s s', r = .done s ∧ r' = .done s' ∧ s.ps.map core = (s'.ps.map core).map bare ∧ s.ps.length = ps.length) := by
  obtain ⟨val, hv⟩ := interpolates_exists hf
  by_cases c : ∀ q ∈ ps, (trajectory (refScheme val b) o.dt (S + N * o.dt) (strip q)).isSome
  · right
    have c' : ∀ q ∈ ps.map strip, (trajectory (refScheme val b) o.dt (S + N * o.dt) q).isSome := by
      intro q hq
      obtain ⟨p, hp, rfl⟩ := List.mem_map.mp hq
      exact c p hp
    obtain ⟨s, e1, e2⟩ := C99_scipy hf hv b (regular_strip h) (Or.inr c') k n fuel file r hr
    obtain ⟨s', e1', e2'⟩ := C99_jit hf hg hv b h hh (Or.inr c) k' n' fuel' file r' hr'
    refine ⟨s, s', e1, e1', by rw [e2, e2'], ?_⟩
    have l := congrArg List.length e2
    rw [List.length_map, filterMap_length c', List.length_map] at l
    exact l
  · left
    push Not at c
    obtain ⟨q, hq, hn⟩ := c
    have hn' : trajectory (refScheme val b) o.dt (S + N * o.dt) (strip q) = none := by
      cases e : trajectory (refScheme val b) o.dt (S + N * o.dt) (strip q) with
      | none => rfl
      | some v => rw [e] at hn; exact absurd rfl hn
    obtain ⟨s, e1⟩ := WholeRun.C97_raises (f := scipyScheme fs b) ⟨k, n, Or.inl rfl⟩ (regular_strip h) hu
      ⟨strip q, List.mem_map_of_mem hq, by rw [trajectory_scipy hf hv b]; exact hn'⟩ fuel file r hr
    obtain ⟨s', e1'⟩ := WholeRun.C97_raises (f := jitScheme fs b) ⟨k', n', Or.inr rfl⟩ h hu'
      ⟨q, hq, by
        have := trajectory_jit hf hg hv b o.dt (S + N * o.dt) q (hh q hq)
        rw [hn', Option.map_eq_none_iff] at this
        exact this⟩ fuel' file r' hr'
    exact ⟨s, s', e1, e1'⟩

/-! ### Advection -/

/-- C99. The kernel is `AdvectionRK4` (of which C94, C95 and C97 speak) in the flow of the gridded data. -/
theorem C99_rk4 (fs : Nat → Fld) : kernel (scipyScheme fs rk4) = Advection.toKern (Advection.plain (Advection.rk4 (flow fs))) := by
  rw [WholeRun.rk4_kernel]
  congr 1
  funext t dt v
  unfold scipyScheme rk4 uv WholeRun.rk4Scheme Advection.rk4 flow
  simp only [scipy]
  repeat' (first | rfl | (split <;> simp_all))

/-- C99. On data with the same value at all points and times, with a domain that contains the start and the end of every path, advected particles end at their
start plus velocity times the time since then (those that start after the end of the run stay), in both modes and whatever the recovery functions. -/
theorem C99_uniform {fs : Nat → Fld} (hf : ∀ i, Sound (fs i)) (hg : Grids fs) {u v : ℚ} (hu : Constant (fs 0) u) (hv : Constant (fs 1) v)
    {user : RMap Unit (ℚ × ℚ × ℚ)} {user' : RMap Unit ((ℚ × ℚ × ℚ) × (Nat → Hint))} {o : Opts} {S : ℚ} {N : ℕ}
    {ps : List (TP ((ℚ × ℚ × ℚ) × (Nat → Hint)))} (h : Regular o S N ps) (hh : ∀ q ∈ ps, Hints fs q.2.vars.2)
    (hc : ∀ q ∈ ps, ¬ 0 < (q.2.time - (S + N * o.dt)) * sgn o.dt → ∀ i, i = 0 ∨ i = 1 →
      Covers (fs i) q.2.time q.2.vars.1.2.2 q.2.vars.1.2.1 q.2.vars.1.1 ∧
      Covers (fs i) (S + N * o.dt) q.2.vars.1.2.2 (q.2.vars.1.2.1 + v * (S + N * o.dt - q.2.time)) (q.2.vars.1.1 + u * (S + N * o.dt - q.2.time)))
    (k n fuel k' n' fuel' : ℕ) (file : Output.PFile) (r : Run (ℚ × ℚ × ℚ)) (r' : Run ((ℚ × ℚ × ℚ) × (Nat → Hint)))
    (hr : execute o (scipyExec (kernel (scipyScheme fs rk4)) user k n) fuel file (ps.map strip) = some r)
    (hr' : execute o (jitExec (kernel (jitScheme fs rk4)) user' k' n') fuel' file ps = some r') :
    ∃ s s', r = .done s ∧ r' = .done s' ∧ s.ps.map core = (s'.ps.map core).map bare ∧
      s.ps.map core = ps.map fun q =>
        if 0 < (q.2.time - (S + N * o.dt)) * sgn o.dt then core (strip q)
        else (q.1, S + N * o.dt, q.2.vars.1.1 + u * (S + N * o.dt - q.2.time), q.2.vars.1.2.1 + v * (S + N * o.dt - q.2.time), q.2.vars.1.2.2) := by
  obtain ⟨val, hval⟩ := interpolates_exists hf
  have hne := WholeRun.ne_zero_of h.step
  have key : ∀ q ∈ ps, trajectory (refScheme val rk4) o.dt (S + N * o.dt) (strip q) =
      some (if 0 < (q.2.time - (S + N * o.dt)) * sgn o.dt then core (strip q)
        else (q.1, S + N * o.dt, q.2.vars.1.1 + u * (S + N * o.dt - q.2.time), q.2.vars.1.2.1 + v * (S + N * o.dt - q.2.time), q.2.vars.1.2.2)) := by
    intro q hq
    by_cases c : 0 < (q.2.time - (S + N * o.dt)) * sgn o.dt
    · unfold trajectory
      rw [if_pos c, if_pos (show 0 < ((strip q).2.time - (S + N * o.dt)) * sgn o.dt from c)]
    rw [if_neg c]
    have c2 := hc q hq c
    obtain ⟨j, hj⟩ := h.starts q hq
    have c3 := c
    rw [hj, WholeRun.grid_lt hne, not_lt] at c3
    have e : S + N * o.dt - q.2.time = ((N - j : ℕ) : ℚ) * o.dt := by rw [hj, Nat.cast_sub c3]; ring
    have e' : S + N * o.dt = q.2.time + ((N - j : ℕ) : ℚ) * o.dt := by linarith
    unfold trajectory
    rw [if_neg (show ¬ 0 < ((strip q).2.time - (S + N * o.dt)) * sgn o.dt from c)]
    show Option.map _ (solution (refScheme val rk4) o.dt ⌊(S + N * o.dt - q.2.time) / o.dt⌋₊ q.2.time q.2.vars.1) = _
    rw [e, mul_div_assoc, div_self hne, mul_one, Nat.floor_natCast]
    have su := solution_uniform hf hval hu hv o.dt (N - j) q.2.time q.2.vars.1.1 q.2.vars.1.2.1 q.2.vars.1.2.2 (by
      intro i hi
      have := c2 i hi
      rw [e, e'] at this
      exact this)
    rw [show q.2.vars.1 = (q.2.vars.1.1, q.2.vars.1.2.1, q.2.vars.1.2.2) from rfl, su]
    rfl
  have ok1 : ∀ q ∈ ps, (trajectory (refScheme val rk4) o.dt (S + N * o.dt) (strip q)).isSome := fun q hq => by rw [key q hq]; rfl
  have ok2 : ∀ q ∈ ps.map strip, (trajectory (refScheme val rk4) o.dt (S + N * o.dt) q).isSome := by
    intro q hq
    obtain ⟨p, hp, rfl⟩ := List.mem_map.mp hq
    exact ok1 p hp
  obtain ⟨s, e1, e2⟩ := C99_scipy hf hval rk4 (regular_strip h) (Or.inr ok2) k n fuel file r hr
  obtain ⟨s', e1', e2'⟩ := C99_jit hf hg hval rk4 h hh (Or.inr ok1) k' n' fuel' file r' hr'
  refine ⟨s, s', e1, e1', by rw [e2, e2'], ?_⟩
  rw [e2, List.filterMap_map, ← List.filterMap_eq_map']
  exact List.filterMap_congr key

/-! ### Cases -/

/-- Two grids: `U` on the first, other fields on the second, which has two levels. -/
def exFs : Nat → Fld
  | 0 => ⟨⟨[0, 1, 3], [0, 2, 4], [0], false, false, false⟩, [0, 10], false, fun i => ⟨1, 3, 3, fun _ j k => i + j + k⟩, 0⟩
  | 1 => ⟨⟨[-1, 4], [0, 4], [0, 1], false, false, false⟩, [0, 5, 10], false, fun _ => ⟨2, 2, 2, fun l _ _ => l / 4⟩, 1⟩
  | _ => ⟨⟨[-1, 4], [0, 4], [0, 1], false, false, false⟩, [0, 5, 10], false, fun _ => ⟨2, 2, 2, fun _ _ _ => 0⟩, 1⟩

theorem exSound : ∀ i, Sound (exFs i) := by
  intro i
  rcases i with _ | _ | i
  · exact ⟨rfl, rfl, rfl, by simp [exFs, Increasing] <;> norm_num, by simp [exFs], by simp [exFs, Increasing] <;> norm_num, by simp [exFs], Or.inl (by simp [exFs]),
      by simp [exFs, Increasing], by simp [exFs], fun _ => ⟨rfl, rfl, rfl⟩⟩
  · exact ⟨rfl, rfl, rfl, by simp [exFs, Increasing] <;> norm_num, by simp [exFs], by simp [exFs, Increasing], by simp [exFs], Or.inr (by simp [exFs, Increasing]),
      by simp [exFs, Increasing] <;> norm_num, by simp [exFs], fun _ => ⟨rfl, rfl, rfl⟩⟩
  · exact ⟨rfl, rfl, rfl, by simp [exFs, Increasing] <;> norm_num, by simp [exFs], by simp [exFs, Increasing], by simp [exFs], Or.inr (by simp [exFs, Increasing]),
      by simp [exFs, Increasing] <;> norm_num, by simp [exFs], fun _ => ⟨rfl, rfl, rfl⟩⟩

theorem exGrids : Grids exFs := by
  intro i j
  rcases i with _ | _ | i <;> rcases j with _ | _ | j <;> simp [exFs]

/-- What a new particle remembers. -/
def newHints : Nat → Hint := fun _ => ⟨0, 0, 0, -1⟩

theorem exHints : Hints exFs newHints := by
  intro i
  rcases i with _ | _ | i <;> simp [exFs, newHints]

/-- Three particles; the second leaves the domain. -/
def exParts : List (TP ((ℚ × ℚ × ℚ) × (Nat → Hint))) :=
  [(0, ⟨0, 1 / 2, .success, ((0, 0, 0), newHints)⟩), (1, ⟨0, 1 / 2, .success, ((2, 3, 1), newHints)⟩), (2, ⟨1, 1 / 2, .success, ((0, 1, 1 / 2), newHints)⟩)]

def exOpts : Opts := ⟨1 / 2, .runtime 2, true, some 1, none, none, fun _ _ => .pinf⟩

theorem exRegular : Regular exOpts 0 4 exParts := by
  refine ⟨⟨_, List.mem_cons_self, rfl⟩, by norm_num [exOpts, abs_div], by norm_num [exOpts, abs_div], by norm_num [exOpts, abs_div], ?_, ?_, ?_, ?_, ?_, ?_⟩
  · intro i hi
    simp only [exOpts, Option.some.injEq] at hi
    exact ⟨2, by norm_num, by rw [← hi]; norm_num [exOpts, abs_div]⟩
  · intro i hi; cases hi
  · intro i hi; cases hi
  · intro i t; show (0 : ℚ) < 1 / 2; norm_num
  · intro i t q hq; cases hq
  · intro q hq
    simp only [exParts, List.mem_cons, List.not_mem_nil, or_false] at hq
    rcases hq with rfl | rfl | rfl
    · exact ⟨0, by norm_num [exOpts]⟩
    · exact ⟨0, by norm_num [exOpts]⟩
    · exact ⟨2, by norm_num [exOpts]⟩

/-- The hypotheses of C99 can be met: runs in the two modes end, with the same particles and records, of which one particle is gone at the end; by default they raise. -/
example : (∀ i, Sound (exFs i)) ∧ Grids exFs ∧ Regular exOpts 0 4 exParts ∧ (∀ q ∈ exParts, Hints exFs q.2.vars.2) ∧
    (match execute exOpts (scipyExec (kernel (scipyScheme exFs rk4)) WholeRun.exDelete 5 2) 5 WholeRun.exFile (exParts.map strip),
      execute exOpts (jitExec (kernel (jitScheme exFs rk4)) WholeRun.exDelete 5 2) 5 WholeRun.exFile exParts with
    | some (.done s), some (.done s') => decide (s.ps.map core = (s'.ps.map core).map bare ∧ records s = (records s').map bare ∧
        s.ps.map (fun q => (q.1, q.2.time)) = [(0, 2), (2, 2)] ∧
        (records s).map (fun c => (c.1, c.2.1)) = [(0, 0), (1, 0), (0, 1), (2, 1), (0, 2), (2, 2)] ∧ ∀ c ∈ s.ps.map core, 0 < c.2.2.1)
    | _, _ => false) = true ∧
    (match execute exOpts (scipyExec (kernel (scipyScheme exFs rk4)) (fun _ => none) 5 2) 5 WholeRun.exFile (exParts.map strip),
      execute exOpts (jitExec (kernel (jitScheme exFs rk4)) (fun _ => none) 5 2) 5 WholeRun.exFile exParts with
    | some (.raised _), some (.raised _) => true
    | _, _ => false) = true := by
  refine ⟨exSound, exGrids, exRegular, ?_, by decide +kernel, by decide +kernel⟩
  intro q hq
  simp only [exParts, List.mem_cons, List.not_mem_nil, or_false] at hq
  rcases hq with rfl | rfl | rfl <;> exact exHints

/-- Fields with one value each. -/
def exUni : Nat → Fld := fun i =>
  ⟨⟨[0, 1, 3], [0, 2, 4], [0], false, false, false⟩, [0], true, fun _ => ⟨1, 3, 3, fun _ _ _ => if i = 0 then 1 / 2 else -1 / 4⟩, 0⟩

def exPair : List (TP ((ℚ × ℚ × ℚ) × (Nat → Hint))) :=
  [(0, ⟨0, 1 / 2, .success, ((0, 1, 0), newHints)⟩), (1, ⟨1, 1 / 2, .success, ((2, 3, 1), newHints)⟩)]

/-- The hypotheses of `C99_uniform` can be met, and the runs end. -/
example : (∀ i, Sound (exUni i)) ∧ Grids exUni ∧ Constant (exUni 0) (1 / 2) ∧ Constant (exUni 1) (-1 / 4) ∧ Regular exOpts 0 4 exPair ∧
    (∀ q ∈ exPair, Hints exUni q.2.vars.2) ∧
    (∀ q ∈ exPair, ∀ i, i = 0 ∨ i = 1 → Covers (exUni i) q.2.time q.2.vars.1.2.2 q.2.vars.1.2.1 q.2.vars.1.1 ∧
      Covers (exUni i) 2 q.2.vars.1.2.2 (q.2.vars.1.2.1 + -1 / 4 * (2 - q.2.time)) (q.2.vars.1.1 + 1 / 2 * (2 - q.2.time))) ∧
    (match execute exOpts (scipyExec (kernel (scipyScheme exUni rk4)) (fun _ => none) 5 2) 5 WholeRun.exFile (exPair.map strip),
      execute exOpts (jitExec (kernel (jitScheme exUni rk4)) (fun _ => none) 5 2) 5 WholeRun.exFile exPair with
    | some (.done s), some (.done s') => decide (s.ps.map core = (s'.ps.map core).map bare ∧
        s.ps.map core = [(0, 2, 1, 1 / 2, 0), (1, 2, 5 / 2, 11 / 4, 1)])
    | _, _ => false) = true := by
  have hcov : ∀ i (t z y x : ℚ), 0 ≤ x → x ≤ 3 → 0 ≤ y → y ≤ 4 → Covers (exUni i) t z y x := fun i t z y x a b c d =>
    ⟨⟨0, 3, by simp [exUni], by simp [exUni], a, b⟩, ⟨0, 4, by simp [exUni], by simp [exUni], c, d⟩, fun h => by simp [exUni] at h, Or.inl rfl⟩
  refine ⟨fun i => ?_, ?_, ?_, ?_, ?_, ?_, ?_, by decide +kernel⟩
  · exact ⟨rfl, rfl, rfl, by simp [exUni, Increasing] <;> norm_num, by simp [exUni], by simp [exUni, Increasing] <;> norm_num, by simp [exUni], Or.inl (by simp [exUni]),
      by simp [exUni, Increasing], by simp [exUni], fun _ => ⟨rfl, rfl, rfl⟩⟩
  · intro i j _; exact ⟨rfl, rfl⟩
  · intro i k j l; simp [exUni]
  · intro i k j l; simp [exUni]
  · refine ⟨by decide +kernel, by norm_num [exOpts, abs_div], by norm_num [exOpts, abs_div], by norm_num [exOpts, abs_div], ?_, ?_, ?_, ?_, ?_, ?_⟩
    · exact exRegular.output
    · exact exRegular.movie
    · exact exRegular.callback
    · exact exRegular.ahead
    · exact exRegular.input
    · intro q hq
      simp only [exPair, List.mem_cons, List.not_mem_nil, or_false] at hq
      rcases hq with rfl | rfl
      · exact ⟨0, by norm_num [exOpts]⟩
      · exact ⟨2, by norm_num [exOpts]⟩
  · intro q hq i
    simp only [exPair, List.mem_cons, List.not_mem_nil, or_false] at hq
    rcases hq with rfl | rfl <;> simp [exUni, newHints]
  · intro q hq i _
    simp only [exPair, List.mem_cons, List.not_mem_nil, or_false] at hq
    rcases hq with rfl | rfl <;> exact ⟨hcov _ _ _ _ _ (by norm_num) (by norm_num) (by norm_num) (by norm_num),
      hcov _ _ _ _ _ (by norm_num) (by norm_num) (by norm_num) (by norm_num)⟩

/-- Samples: at the centre of a cell, at a corner, outside, and after the last time, with and without extrapolation. -/
example : eval (exFs 0) 5 0 1 (1 / 2) = .ok (3 / 2) ∧ eval (exFs 0) 10 0 4 3 = .ok 5 ∧ eval (exFs 0) 5 0 1 (-1 / 2) = .error .outOfBound ∧
    eval (exFs 0) 11 0 1 1 = .error .timeExtrapolation ∧ eval (exUni 1) 11 0 1 1 = .ok (-1 / 4) ∧
    (match cEval (exFs 0) 5 0 1 2 (newHints 0) with | .ok (w, h) => decide (w = 5 / 2 ∧ h.xi = 1 ∧ h.yi = 0 ∧ h.ti = 0) | _ => false) = true ∧
    Covers (exFs 0) 5 0 1 (1 / 2) ∧ ¬ Covers (exFs 0) 11 0 1 1 := by
  refine ⟨by decide +kernel, by decide +kernel, by decide +kernel, by decide +kernel, by decide +kernel, by decide +kernel, ?_, ?_⟩
  · exact ⟨⟨0, 3, by simp [exFs], by simp [exFs], by norm_num, by norm_num⟩, ⟨0, 4, by simp [exFs], by simp [exFs], by norm_num, by norm_num⟩,
      fun h => by simp [exFs] at h, Or.inr ⟨0, 10, by simp [exFs], by simp [exFs], by norm_num, by norm_num⟩⟩
  · rintro ⟨-, -, -, h | ⟨a, b, -, hb, -, h⟩⟩
    · cases h
    · simp [exFs] at hb
      rcases hb with rfl | rfl <;> norm_num at h

end Parcels.GridRun
