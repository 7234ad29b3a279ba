import Verif.Proofs.DeferRun6
import Verif.Props.GridRun

/-!
C100: deferred loading does not change the result of a run.
-/

namespace Parcels.DeferRun

open Search TimeChunk
open GridRun (Fld Body Hint Sound refScheme Interpolates scipyScheme jitScheme strip bare rk4 ee rk4_3D)
open WholeRun (Opts Run Exec St scipyExec jitExec kernel trajectory record records outputTimes core Regular Deletes Raises firstRecords)
open Recovery (TP RMap)

variable {V : Type}

/-! ### Runs -/

/-- C100. A run in Scipy mode with deferred loading follows the whole series of the data, of which only two snapshots are in memory at any time. -/
theorem C100_scipy_follows {fs : Nat → Fld} (hf : ∀ i, Sound (fs i)) {val : Nat → (t z y x : ℚ) → Option ℚ} (hv : Interpolates fs val) {b : Body V}
    (hb : DuringStep b) {user : RMap Unit V} {o : Opts} {S : ℚ} {N : ℕ} {ps : List (TP V)} (h : Regular o S N ps) {slot : Nat → Option Nat} {gs : Grids}
    (hd : Deferred fs slot gs) (ht : Timed S o.dt N gs)
    (hok : Deletes user ∨ ∀ q ∈ ps, (trajectory (refScheme val b) o.dt (S + N * o.dt) q).isSome) (k n fuel : ℕ) (file : Output.PFile) (r : Run V × Grids)
    (hr : execute o (scipyExecD fs slot b user k n) fuel file gs ps = some r) :
    ∃ s, r.1 = .done s ∧ s.ps.map core = ps.filterMap (trajectory (refScheme val b) o.dt (S + N * o.dt)) := by
  obtain ⟨gs1, nx, hF⟩ := good_first (WholeRun.ne_zero_of h.step) (steps_pos h) hd ht
  obtain ⟨s, h1, h2, -⟩ := execute_good (π := id) (by rw [map_id_list]; exact h) (serves_scipy hf hv hb user h.step N k n) hF (fun _ _ => trivial)
    (by rw [map_id_list]; exact hok) fuel file r hr
  rw [map_id_list, map_id_list] at h2
  exact ⟨s, h1, h2⟩

/-- C100. The same in JIT mode, where particles remember cells and times. -/
theorem C100_jit_follows {fs : Nat → Fld} (hf : ∀ i, Sound (fs i)) (hg : GridRun.Grids fs) {val : Nat → (t z y x : ℚ) → Option ℚ} (hv : Interpolates fs val)
    {b : Body V} (hb : DuringStep b) {user : RMap Unit (V × (Nat → Hint))} {o : Opts} {S : ℚ} {N : ℕ} {ps : List (TP (V × (Nat → Hint)))}
    (h : Regular o S N ps) {slot : Nat → Option Nat} (hh : ∀ q ∈ ps, Hints fs slot q.2.vars.2) {gs : Grids} (hd : Deferred fs slot gs) (ht : Timed S o.dt N gs)
    (hok : Deletes user ∨ ∀ q ∈ ps, (trajectory (refScheme val b) o.dt (S + N * o.dt) (strip q)).isSome) (k n fuel : ℕ) (file : Output.PFile)
    (r : Run (V × (Nat → Hint)) × Grids) (hr : execute o (jitExecD fs slot b user k n) fuel file gs ps = some r) :
    ∃ s, r.1 = .done s ∧ (s.ps.map core).map bare = (ps.map strip).filterMap (trajectory (refScheme val b) o.dt (S + N * o.dt)) := by
  obtain ⟨gs1, nx, hF⟩ := good_first (WholeRun.ne_zero_of h.step) (steps_pos h) hd ht
  obtain ⟨s, h1, h2, -⟩ := execute_good (π := Prod.fst) (GridRun.regular_strip h) (serves_jit hf hg hv hb user h.step N k n) hF hh
    (hok.imp_right fun H q hq => by obtain ⟨p, hp, rfl⟩ := List.mem_map.mp hq; exact H p hp) fuel file r hr
  refine ⟨s, h1, ?_⟩
  rw [show (s.ps.map core).map bare = (s.ps.map (mapP Prod.fst)).map core by rw [List.map_map, List.map_map]; rfl]
  exact h2

/-- C100, Scipy mode. With deferred loading and with all data loaded at once, either both runs raise, or both return with the same particles and the same records
in the output file. Missing: `C100_seconds_fails`, `C100_off_grid_fails`, `C100_end_fails`, `C100_backward_fails`; periodic fields. -/
theorem C100_scipy_partial {fs : Nat → Fld} (hf : ∀ i, Sound (fs i)) {b : Body V} (hb : DuringStep b) {user : RMap Unit V} (hu : Deletes user ∨ Raises user)
    {o : Opts} {S : ℚ} {N : ℕ} {ps : List (TP V)} (h : Regular o S N ps) {slot : Nat → Option Nat} {gs : Grids} (hd : Deferred fs slot gs)
    (ht : Timed S o.dt N gs) (k n fuel k' n' fuel' : ℕ) (file : Output.PFile) (r : Run V × Grids) (r' : Run V)
    (hr : execute o (scipyExecD fs slot b user k n) fuel file gs ps = some r)
    (hr' : WholeRun.execute o (scipyExec (kernel (scipyScheme fs b)) user k' n') fuel' file ps = some r') :
    (∃ s s', r.1 = .raised s ∧ r' = .raised s') ∨
    (∃ s s', r.1 = .done s ∧ r' = .done s' ∧ s.ps.map core = s'.ps.map core ∧
      (o.hasFile = true → file.writeOndelete = false → o.outputdt ≠ none → records s = records s')) := by
  obtain ⟨val, hv⟩ := GridRun.interpolates_exists hf
  obtain ⟨gs1, nx, hF⟩ := good_first (WholeRun.ne_zero_of h.step) (steps_pos h) hd ht
  have hS := serves_scipy hf hv hb user h.step N k n (slot := slot) (S := S)
  have hreg : Regular o S N (ps.map (mapP id)) := by rw [map_id_list]; exact h
  by_cases c : Deletes user ∨ ∀ q ∈ ps, (trajectory (refScheme val b) o.dt (S + N * o.dt) q).isSome
  · right
    obtain ⟨s, e1, e2, e3⟩ := execute_good hreg hS hF (fun _ _ => trivial) (by rw [map_id_list]; exact c) fuel file r hr
    have c' := c
    rw [← GridRun.trajectory_scipy hf hv b] at c'
    obtain ⟨s', a1, a2, -, a3⟩ := WholeRun.execute_good h (WholeRun.mode_effect (f := scipyScheme fs b) ⟨k', n', Or.inl rfl⟩ h.step) c' fuel' file r' hr'
    rw [map_id_list, map_id_list] at e2
    refine ⟨s, s', e1, a1, by rw [e2, a2, GridRun.trajectory_scipy hf hv b], fun x1 x2 x3 => ?_⟩
    obtain ⟨i, hi⟩ := Option.ne_none_iff_exists'.mp x3
    have y := e3 x1 x2 i hi
    obtain ⟨-, -, y'⟩ := a3 x1 x2 i hi
    rw [mapS_id, map_id_list] at y
    rw [y, y']
    have er : record (scipyScheme fs b) = record (refScheme val b) := by
      funext dt t q; unfold record; rw [GridRun.trajectory_scipy hf hv b]
    unfold firstRecords
    rw [er]
  · left
    push Not at c
    obtain ⟨c1, q, hq, hn⟩ := c
    have hn' : trajectory (refScheme val b) o.dt (S + N * o.dt) q = none := by simpa using hn
    have hR : Raises user := hu.resolve_left c1
    obtain ⟨s, e1⟩ := execute_bad hreg hS hF (fun _ _ => trivial) hR ⟨q, by rw [map_id_list]; exact hq, hn'⟩ fuel file r hr
    obtain ⟨s', e2⟩ := WholeRun.C97_raises (f := scipyScheme fs b) ⟨k', n', Or.inl rfl⟩ h hR
      ⟨q, hq, by rw [GridRun.trajectory_scipy hf hv b]; exact hn'⟩ fuel' file r' hr'
    exact ⟨s, s', e1, e2⟩

/-- C100, JIT mode. The same, without what the particles remember of cells and times. -/
theorem C100_jit_partial {fs : Nat → Fld} (hf : ∀ i, Sound (fs i)) (hg : GridRun.Grids fs) {b : Body V} (hb : DuringStep b)
    {user : RMap Unit (V × (Nat → Hint))} (hu : Deletes user ∨ Raises user) {o : Opts} {S : ℚ} {N : ℕ} {ps : List (TP (V × (Nat → Hint)))}
    (h : Regular o S N ps) {slot : Nat → Option Nat} (hh : ∀ q ∈ ps, Hints fs slot q.2.vars.2) {gs : Grids} (hd : Deferred fs slot gs) (ht : Timed S o.dt N gs)
    (k n fuel k' n' fuel' : ℕ) (file : Output.PFile) (r : Run (V × (Nat → Hint)) × Grids) (r' : Run (V × (Nat → Hint)))
    (hr : execute o (jitExecD fs slot b user k n) fuel file gs ps = some r)
    (hr' : WholeRun.execute o (jitExec (kernel (jitScheme fs b)) user k' n') fuel' file ps = some r') :
    (∃ s s', r.1 = .raised s ∧ r' = .raised s') ∨
    (∃ s s', r.1 = .done s ∧ r' = .done s' ∧ (s.ps.map core).map bare = (s'.ps.map core).map bare ∧
      (o.hasFile = true → file.writeOndelete = false → o.outputdt ≠ none → (records s).map bare = (records s').map bare)) := by
  obtain ⟨val, hv⟩ := GridRun.interpolates_exists hf
  obtain ⟨gs1, nx, hF⟩ := good_first (WholeRun.ne_zero_of h.step) (steps_pos h) hd ht
  have hS := serves_jit hf hg hv hb user h.step N k n (slot := slot) (S := S)
  have hreg := GridRun.regular_strip h
  have hh' : ∀ q ∈ ps, GridRun.Hints fs q.2.vars.2 := fun q hq => hints_weaken hd (hh q hq)
  have ht' : ∀ t, ∀ q ∈ ps, (trajectory (jitScheme fs b) o.dt t q).map bare = trajectory (refScheme val b) o.dt t (strip q) := fun t q hq =>
    GridRun.trajectory_jit hf hg hv b _ _ q (hh' q hq)
  by_cases c : Deletes user ∨ ∀ q ∈ ps.map strip, (trajectory (refScheme val b) o.dt (S + N * o.dt) q).isSome
  · right
    obtain ⟨s, e1, e2, e3⟩ := execute_good hreg hS hF hh c fuel file r hr
    have c' : Deletes user ∨ ∀ q ∈ ps, (trajectory (jitScheme fs b) o.dt (S + N * o.dt) q).isSome := by
      refine c.imp_right fun H q hq => ?_
      have := H _ (List.mem_map_of_mem hq)
      rw [← ht' _ q hq, Option.isSome_map] at this
      exact this
    obtain ⟨s', a1, a2, -, a3⟩ := WholeRun.execute_good h (WholeRun.mode_effect (f := jitScheme fs b) ⟨k', n', Or.inr rfl⟩ h.step) c' fuel' file r' hr'
    refine ⟨s, s', e1, a1, ?_, fun x1 x2 x3 => ?_⟩
    · rw [show (s.ps.map core).map bare = (s.ps.map (mapP Prod.fst)).map core by rw [List.map_map, List.map_map]; rfl, e2, a2]
      exact (GridRun.filterMap_bare _ _ _ _ _ (ht' _)).symm
    · obtain ⟨i, hi⟩ := Option.ne_none_iff_exists'.mp x3
      have y := e3 x1 x2 i hi
      obtain ⟨-, -, y'⟩ := a3 x1 x2 i hi
      have er : ∀ t, (ps.map (mapP Prod.fst)).filterMap (record (refScheme val b) o.dt t) = (ps.filterMap (record (jitScheme fs b) o.dt t)).map bare := fun t =>
        (GridRun.filterMap_bare _ _ bare strip ps fun q hq => GridRun.record_jit hf hg hv b _ _ q (hh' q hq)).symm
      rw [← records_bare, y, y', List.map_append, List.map_flatMap]
      unfold firstRecords
      congr 1
      · split_ifs
        · rfl
        · exact er S
      · congr 1; funext t; exact er t
  · left
    push Not at c
    obtain ⟨c1, q, hq, hn⟩ := c
    have hn' : trajectory (refScheme val b) o.dt (S + N * o.dt) q = none := by simpa using hn
    have hR : Raises user := hu.resolve_left c1
    obtain ⟨s, e1⟩ := execute_bad hreg hS hF hh hR ⟨q, hq, hn'⟩ fuel file r hr
    obtain ⟨p, hp, rfl⟩ := List.mem_map.mp hq
    obtain ⟨s', e2⟩ := WholeRun.C97_raises (f := jitScheme fs b) ⟨k', n', Or.inr rfl⟩ h hR
      ⟨p, hp, by rw [← ht' _ p hp, Option.map_eq_none_iff] at hn'; exact hn'⟩ fuel' file r' hr'
    exact ⟨s, s', e1, e2⟩

/-- C100. The runs end: `N + 1` turns of the loops are enough. -/
theorem C100_ends {fs : Nat → Fld} (hf : ∀ i, Sound (fs i)) (hg : GridRun.Grids fs) {b : Body V} (hb : DuringStep b)
    {user : RMap Unit V} (hu : Deletes user ∨ Raises user) {user' : RMap Unit (V × (Nat → Hint))} (hu' : Deletes user' ∨ Raises user')
    {o : Opts} {S : ℚ} {N : ℕ} {ps : List (TP (V × (Nat → Hint)))} (h : Regular o S N ps) {slot : Nat → Option Nat} (hh : ∀ q ∈ ps, Hints fs slot q.2.vars.2)
    {gs : Grids} (hd : Deferred fs slot gs) (ht : Timed S o.dt N gs) (file : Output.PFile) :
    (execute o (scipyExecD fs slot b user (N + 1) 2) (N + 1) file gs (ps.map strip)).isSome ∧
    (execute o (jitExecD fs slot b user' (N + 1) 2) (N + 1) file gs ps).isSome := by
  obtain ⟨val, hv⟩ := GridRun.interpolates_exists hf
  obtain ⟨gs1, nx, hF⟩ := good_first (WholeRun.ne_zero_of h.step) (steps_pos h) hd ht
  refine ⟨?_, ?_⟩
  · exact execute_total (by rw [map_id_list]; exact GridRun.regular_strip h) (serves_scipy hf hv hb user h.step N (N + 1) 2) hF (fun _ _ => trivial)
      (fun gs n ps hn hps => WholeRun.scipy_total _ user h.step hu n ps hn hps) hu file
  · exact execute_total (GridRun.regular_strip h) (serves_jit hf hg hv hb user' h.step N (N + 1) 2) hF hh
      (fun gs n ps hn hps => WholeRun.jit_total _ user' h.step hu' n ps hn hps) hu' file

/-- C100. The advection kernels sample during their step only. -/
theorem C100_kernels : DuringStep rk4 ∧ DuringStep ee ∧ DuringStep rk4_3D := by
  have z : ∀ t dt : ℚ, ∃ w : ℚ, 0 ≤ w ∧ w ≤ 1 ∧ t = t + w * dt := fun t dt => ⟨0, le_rfl, by norm_num, by ring⟩
  have hf : ∀ t dt : ℚ, ∃ w : ℚ, 0 ≤ w ∧ w ≤ 1 ∧ t + 1 / 2 * dt = t + w * dt := fun t dt => ⟨1 / 2, by norm_num, by norm_num, rfl⟩
  have o : ∀ t dt : ℚ, ∃ w : ℚ, 0 ≤ w ∧ w ≤ 1 ∧ t + dt = t + w * dt := fun t dt => ⟨1, by norm_num, le_rfl, by ring⟩
  refine ⟨fun t dt v => ?_, fun t dt v => ?_, fun t dt v => ?_⟩
  · exact ⟨z t dt, fun _ => ⟨z t dt, fun _ => ⟨hf t dt, fun _ => ⟨hf t dt, fun _ => ⟨hf t dt, fun _ => ⟨hf t dt, fun _ => ⟨o t dt, fun _ => ⟨o t dt, fun _ => trivial⟩⟩⟩⟩⟩⟩⟩⟩
  · exact ⟨z t dt, fun _ => ⟨z t dt, fun _ => trivial⟩⟩
  · exact ⟨z t dt, fun _ => ⟨z t dt, fun _ => ⟨z t dt, fun _ => ⟨hf t dt, fun _ => ⟨hf t dt, fun _ => ⟨hf t dt, fun _ => ⟨hf t dt, fun _ => ⟨hf t dt, fun _ => ⟨hf t dt, fun _ =>
      ⟨o t dt, fun _ => ⟨o t dt, fun _ => ⟨o t dt, fun _ => trivial⟩⟩⟩⟩⟩⟩⟩⟩⟩⟩⟩⟩

/-! ### Cases -/

def exFull : List ℚ := [0, 1, 2, 4]

/-- `U` on a grid that is loaded at once, `V` on one with deferred loading. -/
def exFs : Nat → Fld
  | 0 => ⟨⟨[0, 1, 3], [0, 2, 4], [0], false, false, false⟩, [0, 10], false, fun i => ⟨1, 3, 3, fun _ j k => (1 + i + j + k) / 8⟩, 0⟩
  | _ => ⟨⟨[-1, 4], [0, 4], [0, 1], false, false, false⟩, exFull, false, fun i => ⟨2, 2, 2, fun l _ k => (i * i + l + k) / 16⟩, 1⟩

def exSlot : Nat → Option Nat := fun i => if i = 1 then some 0 else none

/-- Nothing is loaded yet. -/
def exGrids : Grids := [(⟨false, false⟩, DG.fresh exFull)]

/-- Three particles; the second leaves the domain. -/
def exParts : List (TP ((ℚ × ℚ × ℚ) × (Nat → Hint))) :=
  [(0, ⟨0, 1 / 2, .success, ((0, 0, 0), GridRun.newHints)⟩), (1, ⟨0, 1 / 2, .success, ((2, 3, 1), GridRun.newHints)⟩),
   (2, ⟨1, 1 / 2, .success, ((0, 1, 1 / 2), GridRun.newHints)⟩)]

def exOpts : Opts := ⟨1 / 2, .runtime 3, true, some (3 / 2), none, none, fun _ _ => .pinf⟩

theorem exInc : Increasing exFull := by simp [exFull, Increasing] <;> norm_num

/-- The run with deferred loading in the two modes, and with all data loaded at once. -/
def exScipy : Option (Run (ℚ × ℚ × ℚ) × Grids) :=
  execute exOpts (scipyExecD exFs exSlot ee WholeRun.exDelete 7 2) 7 WholeRun.exFile exGrids (exParts.map strip)
def exJit : Option (Run ((ℚ × ℚ × ℚ) × (Nat → Hint)) × Grids) :=
  execute exOpts (jitExecD exFs exSlot ee WholeRun.exDelete 7 2) 7 WholeRun.exFile exGrids exParts
def exLoaded : Option (Run (ℚ × ℚ × ℚ)) :=
  WholeRun.execute exOpts (scipyExec (kernel (scipyScheme exFs ee)) WholeRun.exDelete 7 2) 7 WholeRun.exFile (exParts.map strip)

def exCheck : Bool :=
  match exScipy, exJit, exLoaded with
  | some (.done s, gs), some (.done s', _), some (.done t) =>
    (s.ps.map core == t.ps.map core) && ((s'.ps.map core).map bare == t.ps.map core) && (records s == records t) && ((records s').map bare == records t) &&
    (s.ps.map (fun q => (q.1, q.2.time)) == [(0, 3), (2, 3)]) && (s.sched.stops == [1, 3 / 2, 2, 3]) && (t.sched.stops == [3 / 2, 3]) &&
    ((gs.map fun g => g.2.loaded) == [[2, 4]]) &&
    (t.ps.map core == [(0, 3, 68094924697 / 134217728000, 30764238187 / 67108864000, 0), (2, 3, 24906053 / 52428800, 195294261 / 131072000, 1 / 2)])
  | _, _, _ => false

/-- The hypotheses of C100 can be met. The runs have other stops: with deferred loading also those at the snapshots. -/
example : (∀ i, Sound (exFs i)) ∧ GridRun.Grids exFs ∧ Regular exOpts 0 6 exParts ∧ (∀ q ∈ exParts, Hints exFs exSlot q.2.vars.2) ∧
    Deferred exFs exSlot exGrids ∧ Timed 0 exOpts.dt 6 exGrids ∧
    exCheck = true := by
  have hs : ∀ i, Sound (exFs i) := by
    intro i
    rcases i with _ | i
    · exact ⟨rfl, rfl, rfl, by simp [exFs, Increasing] <;> norm_num, by simp [exFs], by simp [exFs, Increasing] <;> norm_num, by simp [exFs], Or.inl (by simp [exFs]),
        by simp [exFs, Increasing], by simp [exFs], fun _ => ⟨rfl, rfl, rfl⟩⟩
    · exact ⟨rfl, rfl, rfl, by simp [exFs, Increasing] <;> norm_num, by simp [exFs], by simp [exFs, Increasing], by simp [exFs], Or.inr (by simp [exFs, Increasing]),
        exInc, by simp [exFs, exFull], fun _ => ⟨rfl, rfl, rfl⟩⟩
  refine ⟨hs, ?_, ?_, ?_, ?_, ?_, by decide +kernel⟩
  · intro i j
    rcases i with _ | i <;> rcases j with _ | j <;> simp [exFs]
  · refine ⟨by decide +kernel, by norm_num [exOpts, abs_div], by norm_num [exOpts, abs_div], by norm_num [exOpts, abs_div], ?_, ?_, ?_, ?_, ?_, ?_⟩
    · intro i hi
      simp only [exOpts, Option.some.injEq] at hi
      exact ⟨3, by norm_num, by rw [← hi]; norm_num [exOpts, abs_div]⟩
    · intro i hi; cases hi
    · intro i hi; cases hi
    · intro i t; show (0 : ℚ) < 1 / 2; norm_num
    · intro i t q hq; cases hq
    · intro q hq
      simp only [exParts, List.mem_cons, List.not_mem_nil, or_false] at hq
      rcases hq with rfl | rfl | rfl
      · exact ⟨0, by norm_num [exOpts]⟩
      · exact ⟨0, by norm_num [exOpts]⟩
      · exact ⟨2, by norm_num [exOpts]⟩
  · intro q hq i
    simp only [exParts, List.mem_cons, List.not_mem_nil, or_false] at hq
    rcases hq with rfl | rfl | rfl <;> rcases i with _ | i <;> simp [exFs, GridRun.newHints, exSlot]
  · refine ⟨?_, ?_, ?_, ?_, ?_, ?_⟩
    · intro i k hk
      rcases i with _ | i
      · simp [exFs, exSlot] at hk
      · simp [exFs, exSlot] at hk
        subst hk
        exact ⟨_, rfl, rfl⟩
    · intro i k x hk hx
      rcases i with _ | i
      · simp [exFs, exSlot] at hk
      · simp [exFs, exSlot] at hk
        subst hk
        rw [← Option.some.inj hx]
        rfl
    all_goals
      intro x hx
      rw [exGrids, List.mem_singleton] at hx
      subst hx
    · rfl
    · exact exInc
    · simp [DG.fresh, exFull]
    · exact .fresh
  · refine ⟨?_, Or.inl ⟨2, by norm_num [exOpts, abs_div]⟩, ?_, fun c => by norm_num [exOpts] at c⟩
    · intro x hx t ht
      rw [exGrids, List.mem_singleton] at hx
      subst hx
      simp only [DG.fresh, exFull, List.mem_cons, List.not_mem_nil, or_false] at ht
      rcases ht with rfl | rfl | rfl | rfl
      · exact ⟨0, by norm_num [exOpts]⟩
      · exact ⟨2, by norm_num [exOpts]⟩
      · exact ⟨4, by norm_num [exOpts]⟩
      · exact ⟨8, by norm_num [exOpts]⟩
    · intro x hx
      rw [exGrids, List.mem_singleton] at hx
      subst hx
      exact Or.inr ⟨⟨0, 4, by simp [DG.fresh, exFull], by simp [DG.fresh, exFull], by norm_num, by norm_num⟩,
        ⟨0, 4, by simp [DG.fresh, exFull], by simp [DG.fresh, exFull], by norm_num [exOpts], by norm_num [exOpts]⟩⟩

/-- A flow along the first axis that is the same everywhere: `n` at snapshot `n`. -/
def exLine (full : List ℚ) (extrap : Bool) : Nat → Fld := fun i =>
  ⟨⟨[0, 100], [0, 100], [0], false, false, false⟩, full, extrap, fun n => ⟨1, 2, 2, fun _ _ _ => if i = 0 then n else 0⟩, 0⟩

/-- One particle that starts at time `S` at 50, `r` seconds of Euler steps of length `dt`; recovery functions that delete. With deferred loading. -/
def exDefer (full : List ℚ) (extrap : Bool) (S dt r : ℚ) : Option (Run (ℚ × ℚ × ℚ)) :=
  (execute ⟨dt, .runtime r, false, none, none, none, fun _ _ => if 0 < dt then .pinf else .ninf⟩ (scipyExecD (exLine full extrap) (fun _ => some 0) ee WholeRun.exDelete 9 2) 9
    WholeRun.exFile [(⟨false, extrap⟩, DG.fresh full)] [(0, ⟨S, dt, .success, (50, 50, 0)⟩)]).map (·.1)

/-- The same with all data loaded at once. -/
def exAtOnce (full : List ℚ) (extrap : Bool) (S dt r : ℚ) : Option (Run (ℚ × ℚ × ℚ)) :=
  WholeRun.execute ⟨dt, .runtime r, false, none, none, none, fun _ _ => if 0 < dt then .pinf else .ninf⟩ (scipyExec (kernel (scipyScheme (exLine full extrap) ee)) WholeRun.exDelete 9 2) 9
    WholeRun.exFile [(0, ⟨S, dt, .success, (50, 50, 0)⟩)]

/-- How a run ended, with time and longitude of the particles, and the stops. -/
inductive Outcome where
  | done (ps : List (ℚ × ℚ)) (stops : List ℚ)
  | failed (ps : List (ℚ × ℚ)) (stops : List ℚ)
deriving DecidableEq

def outcome : Option (Run (ℚ × ℚ × ℚ)) → Option Outcome
  | some (.done s) => some (.done (s.ps.map fun q => (q.2.time, q.2.vars.1)) s.sched.stops)
  | some (.crash s) => some (.failed (s.ps.map fun q => (q.2.time, q.2.vars.1)) s.sched.stops)
  | _ => none

/-- C100 is false if the snapshots are not whole seconds after the start, although they are whole numbers of steps after it: the first call of `computeTimeChunk`
has the time step 1, not `dt`, and its answer is rounded to whole seconds. Here `dt` is 1.5 and there is a snapshot every step: the run stops at time 1, and the first
step is split. -/
theorem C100_seconds_fails :
    outcome (exDefer [0, 3 / 2, 3] false 0 (3 / 2) 3) = some (.done [(3, 157 / 3)] [1, 3 / 2, 3]) ∧
    outcome (exAtOnce [0, 3 / 2, 3] false 0 (3 / 2) 3) = some (.done [(3, 103 / 2)] [3]) := by decide +kernel

/-- C100 is false if the snapshots are not whole numbers of steps after the start: steps are split at (or before) the snapshots. -/
theorem C100_off_grid_fails :
    outcome (exDefer [0, 3 / 4, 3 / 2] false 0 (1 / 2) (3 / 2)) = some (.done [(3 / 2, 307 / 6)] [3 / 4, 5 / 4, 3 / 2]) ∧
    outcome (exAtOnce [0, 3 / 4, 3 / 2] false 0 (1 / 2) (3 / 2)) = some (.done [(3 / 2, 51)] [3 / 2]) := by decide +kernel

/-- C100 is false for runs that go on after the last snapshot without extrapolation: loaded at once, the recovery functions treat the particles (here they are
deleted); with deferred loading `execute` fails at the time of the last snapshot, and no recovery function is called. -/
theorem C100_end_fails :
    outcome (exDefer [0, 1, 2] false 0 1 4) = some (.failed [(2, 51)] [1]) ∧
    outcome (exAtOnce [0, 1, 2] false 0 1 4) = some (.done [] [4]) := by decide +kernel

/-- C100 is false for backward runs that start between two snapshots that are not loaded yet: the pair before is loaded (`C39_backward_start_between`). The
particles are in a wrong place if extrapolation is allowed; else they are treated as if there were no data. -/
theorem C100_backward_fails :
    outcome (exDefer [0, 1, 2, 3] true (5 / 2) (-1 / 2) 1) = some (.done [(3 / 2, 48)] [3 / 2]) ∧
    outcome (exDefer [0, 1, 2, 3] false (5 / 2) (-1 / 2) 1) = some (.done [] [3 / 2]) ∧
    outcome (exAtOnce [0, 1, 2, 3] false (5 / 2) (-1 / 2) 1) = some (.done [(3 / 2, 191 / 4)] [3 / 2]) := by decide +kernel

/-- A backward run from a snapshot is right. -/
example : outcome (exDefer [0, 1, 2, 3] false 2 (-1 / 2) 2) = some (.done [(0, 95 / 2)] [1, 0]) ∧
    outcome (exAtOnce [0, 1, 2, 3] false 2 (-1 / 2) 2) = some (.done [(0, 95 / 2)] [0]) := by decide +kernel

end Parcels.DeferRun
