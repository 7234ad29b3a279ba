import Verif.Proofs.NestRun2
import Verif.Props.GridRun
import Verif.Props.DriftRun

/-!
C112: a whole run with nested fields uses, at each sample, the first field of the list that covers the position.
-/

namespace Parcels.NestRun

open Search Interp TimeInterp FieldLists
open KernelLoop (Exc)
open WholeRun (Scheme Opts Run Exec St execute scipyExec jitExec kernel solution trajectory record records outputTimes core Regular Deletes Raises)
open Recovery (TP RMap)
open GridRun (Fld Hint Sound FieldValue HintOk Hints Grids Covers exc bare strip filterMap_bare regular_strip)
open PathRun (Path Step Fails Account Starts)
open RepairRun (Recovers)

variable {V : Type}

/-! ### Samples -/

/-- C112. A sample of a nested field gives exactly the values of the member before which all members are out of bounds; in both modes. -/
theorem C112_value {fs : Nat → Fld} (hf : ∀ i, Sound (fs i)) (hg : Grids fs) (ms : List (List Nat)) (t z y x : ℚ) (ws : List ℚ) (hs : Nat → Hint) (hh : Hints fs hs) :
    (nestedS fs ms t z y x = .ok ws ↔ NestValue fs ms t z y x ws) ∧ ((cNest fs t z y x ms hs).1 = .ok ws ↔ NestValue fs ms t z y x ws) := by
  rw [(cNest_eq hf hg t z y x ms hs hh).1]
  exact ⟨nested_iff hf t z y x ms ws, nested_iff hf t z y x ms ws⟩

/-- C112. The two modes also fail with the same error, whatever cells the particle remembers; and what it remembers afterwards are again cells of the grids. -/
theorem C112_same {fs : Nat → Fld} (hf : ∀ i, Sound (fs i)) (hg : Grids fs) (ms : List (List Nat)) (t z y x : ℚ) (hs : Nat → Hint) (hh : Hints fs hs) :
    (cNest fs t z y x ms hs).1 = nestedS fs ms t z y x ∧ Hints fs (cNest fs t z y x ms hs).2 := cNest_eq hf hg t z y x ms hs hh

theorem covers_iff {f : Fld} (hf : Sound f) (t z y x : ℚ) : Covers f t z y x ↔ ∃ w, FieldValue f t z y x w :=
  ⟨fun h => GridRun.covers_value hf h, fun ⟨_, h⟩ => GridRun.value_covers hf h⟩

theorem misses_covers {fs : Nat → Fld} (hf : ∀ i, Sound (fs i)) {m : List Nat} {t z y x : ℚ} (h : Misses fs m t z y x) : ¬ ∀ i ∈ m, Covers (fs i) t z y x := by
  intro hc
  have h1 := (member_misses hf t z y x m).mpr h
  obtain ⟨a, i, b, rfl, -, -, h3⟩ := h
  obtain ⟨c1, c2, c3, -⟩ := hc i (by simp)
  rcases h3 with h3 | h3 | ⟨h3, h4⟩
  · exact h3 c1
  · exact h3 c2
  · obtain ⟨p, q, hp, hq, hpz, hzq⟩ := c3 h3
    exact absurd (h4 q hq) (not_lt.mpr hzq)

/-- C112. What a sample gives, in either mode, are the values of the first member that covers the position and time. -/
theorem C112_first {fs : Nat → Fld} (hf : ∀ i, Sound (fs i)) (hg : Grids fs) (ms : List (List Nat)) (t z y x : ℚ) (ws : List ℚ) (hs : Nat → Hint) (hh : Hints fs hs)
    (h : nestedS fs ms t z y x = .ok ws ∨ (cNest fs t z y x ms hs).1 = .ok ws) : FirstValue fs ms t z y x ws := by
  rw [(cNest_eq hf hg t z y x ms hs hh).1, or_self, nested_iff hf] at h
  obtain ⟨pre, m, post, e, h1, h2⟩ := h
  exact ⟨pre, m, post, e, fun m' hm' => misses_covers hf (h1 m' hm'), h2⟩

/-- C112 (one direction of the full claim, with an additional hypothesis): if a member covers the position and time, the first one that does is sampled, provided that no field of the list has data that
have ended (or not begun), or starts below the position. -/
theorem C112_found_partial {fs : Nat → Fld} (hf : ∀ i, Sound (fs i)) (hg : Grids fs) (ms : List (List Nat)) (t z y x : ℚ) (ws : List ℚ) (hs : Nat → Hint) (hh : Hints fs hs)
    (hok : ∀ m ∈ ms, ∀ i ∈ m, TimeOk (fs i) t ∧ ¬ Above (fs i) z) (h : FirstValue fs ms t z y x ws) :
    nestedS fs ms t z y x = .ok ws ∧ (cNest fs t z y x ms hs).1 = .ok ws := by
  rw [(cNest_eq hf hg t z y x ms hs hh).1, and_self, nested_iff hf]
  obtain ⟨pre, m, post, rfl, h1, h2⟩ := h
  refine ⟨pre, m, post, rfl, fun m' hm' => ?_, h2⟩
  have hok' := hok m' (by simp [hm'])
  have hn := h1 m' hm'
  clear hok h1 hm'
  induction m' with
  | nil => exact absurd (fun i hi => by simp at hi) hn
  | cons i is ih =>
    by_cases c : Covers (fs i) t z y x
    · obtain ⟨a, j, b, e, e1, e2⟩ := ih (fun j hj => hok' j (List.mem_cons_of_mem _ hj)) (fun H => hn fun j hj => by
        rcases List.mem_cons.mp hj with rfl | hj
        · exact c
        · exact H j hj)
      refine ⟨i :: a, j, b, by rw [e]; rfl, fun k hk => ?_, e2⟩
      rcases List.mem_cons.mp hk with rfl | hk
      · exact (covers_iff (hf _) t z y x).mp c
      · exact e1 k hk
    · obtain ⟨o1, o2⟩ := hok' i List.mem_cons_self
      refine ⟨[], i, is, rfl, fun k hk => by simp at hk, o1, ?_⟩
      by_contra hout
      unfold Outside at hout
      push Not at hout
      obtain ⟨p1, p2, p3⟩ := hout
      refine c ⟨p1, p2, fun hl => ?_, o1⟩
      obtain ⟨d, hd, hd2⟩ := p3 hl
      by_contra hr
      refine o2 ⟨hl, fun a ha => ?_⟩
      by_contra hz
      exact hr ⟨a, d, ha, hd, not_lt.mp hz, hd2⟩

/-- C112. There are such values (as a function) for every list of nested fields. -/
theorem C112_values {fs : Nat → Fld} (hf : ∀ i, Sound (fs i)) (ns : Nat → List (List Nat)) : ∃ val, Nests fs ns val := nests_exists hf ns

/-! ### Runs -/

/-- C112. A run in Scipy mode with a kernel that samples nested fields: the particles that are left are where the trajectories in the values of the nested fields lead. -/
theorem C112_scipy {fs : Nat → Fld} {ns : Nat → List (List Nat)} (hf : ∀ i, Sound (fs i)) {val : Nat → (t z y x : ℚ) → Option (List ℚ)} (hv : Nests fs ns val) (b : Body V)
    {user : RMap Unit V} {o : Opts} {S : ℚ} {N : ℕ} {ps : List (TP V)} (h : Regular o S N ps)
    (hok : Deletes user ∨ ∀ q ∈ ps, (trajectory (refScheme val b) o.dt (S + N * o.dt) q).isSome) (k n fuel : ℕ) (file : Output.PFile) (r : Run V)
    (hr : execute o (scipyExec (kernel (scipyScheme fs ns b)) user k n) fuel file ps = some r) :
    ∃ s, r = .done s ∧ s.ps.map core = ps.filterMap (trajectory (refScheme val b) o.dt (S + N * o.dt)) := by
  rw [← trajectory_scipy hf hv b] at hok ⊢
  exact WholeRun.C97_run ⟨k, n, Or.inl rfl⟩ h hok fuel file r hr

/-- C112. The same in JIT mode, where particles remember cells. -/
theorem C112_jit {fs : Nat → Fld} {ns : Nat → List (List Nat)} (hf : ∀ i, Sound (fs i)) (hg : Grids fs) {val : Nat → (t z y x : ℚ) → Option (List ℚ)} (hv : Nests fs ns val) (b : Body V)
    {user : RMap Unit (V × (Nat → Hint))} {o : Opts} {S : ℚ} {N : ℕ} {ps : List (TP (V × (Nat → Hint)))} (h : Regular o S N ps)
    (hh : ∀ q ∈ ps, Hints fs q.2.vars.2)
    (hok : Deletes user ∨ ∀ q ∈ ps, (trajectory (refScheme val b) o.dt (S + N * o.dt) (strip q)).isSome) (k n fuel : ℕ) (file : Output.PFile)
    (r : Run (V × (Nat → Hint))) (hr : execute o (jitExec (kernel (jitScheme fs ns b)) user k n) fuel file ps = some r) :
    ∃ s, r = .done s ∧ (s.ps.map core).map bare = (ps.map strip).filterMap (trajectory (refScheme val b) o.dt (S + N * o.dt)) := by
  have hok' : Deletes user ∨ ∀ q ∈ ps, (trajectory (jitScheme fs ns b) o.dt (S + N * o.dt) q).isSome := by
    refine hok.imp_right fun H q hq => ?_
    have := H q hq
    rw [← trajectory_jit hf hg hv b _ _ q (hh q hq), Option.isSome_map] at this
    exact this
  obtain ⟨s, h1, h2⟩ := WholeRun.C97_run (f := jitScheme fs ns b) ⟨k, n, Or.inr rfl⟩ h hok' fuel file r hr
  refine ⟨s, h1, ?_⟩
  rw [h2]
  exact filterMap_bare _ _ _ _ _ fun q hq => trajectory_jit hf hg hv b _ _ q (hh q hq)

/-- C112. Wherever the outputs, the starts of the particles and the end of the run are: each particle that is left has come to its place by steps of the kernel with these values, each that is gone had reached
a place where a step with these values fails, and each record is a point of such a path. In Scipy mode. -/
theorem C112_scipy_path {fs : Nat → Fld} {ns : Nat → List (List Nat)} (hf : ∀ i, Sound (fs i)) {val : Nat → (t z y x : ℚ) → Option (List ℚ)} (hv : Nests fs ns val) (b : Body V)
    {user : RMap Unit V} {raises : Bool} (hu : Recovers user (fun _ _ _ => none) raises) {o : Opts} {S : ℚ} {ps : List (TP V)} (h : Starts o S ps)
    (k n fuel : ℕ) (file : Output.PFile) (s : St V) (hr : execute o (scipyExec (kernel (scipyScheme fs ns b)) user k n) fuel file ps = some (.done s)) :
    Account (fun q r => r.1 = q.1 ∧ Path (refScheme val b) (fun _ _ _ => none) o.dt q.2.time q.2.vars r.2.time r.2.vars)
      (fun q => raises = false ∧ Fails (refScheme val b) (fun _ _ _ => none) o.dt q) ps s.ps ∧
    ∀ c ∈ records s, ∃ q ∈ ps, c.1 = q.1 ∧ Path (refScheme val b) (fun _ _ _ => none) o.dt q.2.time q.2.vars c.2.1 c.2.2 := by
  have hm : WholeRun.IsMode (kernel (scipyScheme fs ns b)) user (scipyExec (kernel (scipyScheme fs ns b)) user k n) := ⟨k, n, Or.inl rfl⟩
  refine ⟨(PathRun.C109_run hu hm h fuel file s hr).imp (fun q _ r _ hp => ⟨hp.1, path_scipy hf hv b hp.2⟩) fun q _ hg => ⟨hg.1, fails_scipy hf hv b hg.2⟩, fun c hc => ?_⟩
  obtain ⟨q, hq, e, hp⟩ := PathRun.C109_records hu hm h fuel file s hr c hc
  exact ⟨q, hq, e, path_scipy hf hv b hp⟩

/-- C112. The same in JIT mode. -/
theorem C112_jit_path {fs : Nat → Fld} {ns : Nat → List (List Nat)} (hf : ∀ i, Sound (fs i)) (hg : Grids fs) {val : Nat → (t z y x : ℚ) → Option (List ℚ)} (hv : Nests fs ns val)
    (b : Body V) {user : RMap Unit (V × (Nat → Hint))} {raises : Bool} (hu : Recovers user (fun _ _ _ => none) raises) {o : Opts} {S : ℚ} {ps : List (TP (V × (Nat → Hint)))} (h : Starts o S ps)
    (hh : ∀ q ∈ ps, Hints fs q.2.vars.2)
    (k n fuel : ℕ) (file : Output.PFile) (s : St (V × (Nat → Hint))) (hr : execute o (jitExec (kernel (jitScheme fs ns b)) user k n) fuel file ps = some (.done s)) :
    Account (fun q r => r.1 = q.1 ∧ Path (refScheme val b) (fun _ _ _ => none) o.dt q.2.time q.2.vars.1 r.2.time r.2.vars.1)
      (fun q => raises = false ∧ Fails (refScheme val b) (fun _ _ _ => none) o.dt (strip q)) ps s.ps ∧
    ∀ c ∈ records s, ∃ q ∈ ps, c.1 = q.1 ∧ Path (refScheme val b) (fun _ _ _ => none) o.dt q.2.time q.2.vars.1 c.2.1 c.2.2.1 := by
  have hm : WholeRun.IsMode (kernel (jitScheme fs ns b)) user (jitExec (kernel (jitScheme fs ns b)) user k n) := ⟨k, n, Or.inr rfl⟩
  refine ⟨(PathRun.C109_run hu hm h fuel file s hr).imp (fun q hq r _ hp => ⟨hp.1, (path_jit hf hg hv b (hh q hq) hp.2).1⟩)
    fun q hq hg' => ⟨hg'.1, fails_jit hf hg hv b (hh q hq) hg'.2⟩, fun c hc => ?_⟩
  obtain ⟨q, hq, e, hp⟩ := PathRun.C109_records hu hm h fuel file s hr c hc
  exact ⟨q, hq, e, (path_jit hf hg hv b (hh q hq) hp).1⟩

/-- C112. With recovery functions that delete, the two modes give the same particles, and the same records in the output file. -/
theorem C112_modes {fs : Nat → Fld} {ns : Nat → List (List Nat)} (hf : ∀ i, Sound (fs i)) (hg : Grids fs) (b : Body V) {user : RMap Unit V} {user' : RMap Unit (V × (Nat → Hint))}
    (hu : Deletes user) (hu' : Deletes user') {o : Opts} {S : ℚ} {N : ℕ} {ps : List (TP (V × (Nat → Hint)))} (h : Regular o S N ps)
    (hh : ∀ q ∈ ps, Hints fs q.2.vars.2) (k n fuel k' n' fuel' : ℕ) (file : Output.PFile) (r : Run V) (r' : Run (V × (Nat → Hint)))
    (hr : execute o (scipyExec (kernel (scipyScheme fs ns b)) user k n) fuel file (ps.map strip) = some r)
    (hr' : execute o (jitExec (kernel (jitScheme fs ns b)) user' k' n') fuel' file ps = some r') :
    ∃ s s', r = .done s ∧ r' = .done s' ∧ s.ps.map core = (s'.ps.map core).map bare ∧
      (o.hasFile = true → file.writeOndelete = false → file.lasttime ≠ some S → o.outputdt ≠ none → records s = (records s').map bare) := by
  obtain ⟨val, hv⟩ := nests_exists hf ns
  obtain ⟨s, e1, e2⟩ := C112_scipy hf hv b (regular_strip h) (Or.inl hu) k n fuel file r hr
  obtain ⟨s', e1', e2'⟩ := C112_jit hf hg hv b h hh (Or.inl hu') k' n' fuel' file r' hr'
  refine ⟨s, s', e1, e1', by rw [e2, e2'], fun c1 c2 c3 c4 => ?_⟩
  obtain ⟨i, hi⟩ := Option.ne_none_iff_exists'.mp c4
  obtain ⟨s2, a1, a2⟩ := WholeRun.C97_records (f := scipyScheme fs ns b) ⟨k, n, Or.inl rfl⟩ (regular_strip h) (Or.inl hu) fuel file r hr c1 c2 c3 i hi
  obtain ⟨s2', a1', a2'⟩ := WholeRun.C97_records (f := jitScheme fs ns b) ⟨k', n', Or.inr rfl⟩ h (Or.inl hu') fuel' file r' hr' c1 c2 c3 i hi
  rw [e1] at a1
  rw [e1'] at a1'
  injection a1 with a1
  injection a1' with a1'
  subst a1 a1'
  rw [a2, a2', List.map_flatMap]
  congr 1
  funext t
  rw [filterMap_bare _ (record (refScheme val b) o.dt t) bare strip ps fun q hq => record_jit hf hg hv b _ _ q (hh q hq)]
  unfold record
  rw [trajectory_scipy hf hv b]

/-- C112. With recovery functions that raise (the default), either both modes raise, or both return with the same particles. -/
theorem C112_modes_raise {fs : Nat → Fld} {ns : Nat → List (List Nat)} (hf : ∀ i, Sound (fs i)) (hg : Grids fs) (b : Body V) {user : RMap Unit V} {user' : RMap Unit (V × (Nat → Hint))}
    (hu : Raises user) (hu' : Raises user') {o : Opts} {S : ℚ} {N : ℕ} {ps : List (TP (V × (Nat → Hint)))} (h : Regular o S N ps)
    (hh : ∀ q ∈ ps, Hints fs q.2.vars.2) (k n fuel k' n' fuel' : ℕ) (file : Output.PFile) (r : Run V) (r' : Run (V × (Nat → Hint)))
    (hr : execute o (scipyExec (kernel (scipyScheme fs ns b)) user k n) fuel file (ps.map strip) = some r)
    (hr' : execute o (jitExec (kernel (jitScheme fs ns b)) user' k' n') fuel' file ps = some r') :
    (∃ s s', r = .raised s ∧ r' = .raised s') ∨
    (∃ s s', r = .done s ∧ r' = .done s' ∧ s.ps.map core = (s'.ps.map core).map bare ∧ s.ps.length = ps.length) := by
  obtain ⟨val, hv⟩ := nests_exists hf ns
  by_cases c : ∀ q ∈ ps, (trajectory (refScheme val b) o.dt (S + N * o.dt) (strip q)).isSome
  · right
    have c' : ∀ q ∈ ps.map strip, (trajectory (refScheme val b) o.dt (S + N * o.dt) q).isSome := by
      intro q hq
      obtain ⟨p, hp, rfl⟩ := List.mem_map.mp hq
      exact c p hp
    obtain ⟨s, e1, e2⟩ := C112_scipy hf hv b (regular_strip h) (Or.inr c') k n fuel file r hr
    obtain ⟨s', e1', e2'⟩ := C112_jit hf hg hv b h hh (Or.inr c) k' n' fuel' file r' hr'
    refine ⟨s, s', e1, e1', by rw [e2, e2'], ?_⟩
    have l := congrArg List.length e2
    rw [List.length_map, GridRun.filterMap_length c', List.length_map] at l
    exact l
  · left
    push Not at c
    obtain ⟨q, hq, hn⟩ := c
    have hn' : trajectory (refScheme val b) o.dt (S + N * o.dt) (strip q) = none := by
      cases e : trajectory (refScheme val b) o.dt (S + N * o.dt) (strip q) with
      | none => rfl
      | some v => rw [e] at hn; exact absurd rfl hn
    obtain ⟨s, e1⟩ := WholeRun.C97_raises (f := scipyScheme fs ns b) ⟨k, n, Or.inl rfl⟩ (regular_strip h) hu
      ⟨strip q, List.mem_map_of_mem hq, by rw [trajectory_scipy hf hv b]; exact hn'⟩ fuel file r hr
    obtain ⟨s', e1'⟩ := WholeRun.C97_raises (f := jitScheme fs ns b) ⟨k', n', Or.inr rfl⟩ h hu'
      ⟨q, hq, by
        have := trajectory_jit hf hg hv b o.dt (S + N * o.dt) q (hh q hq)
        rw [hn', Option.map_eq_none_iff] at this
        exact this⟩ fuel' file r' hr'
    exact ⟨s, s', e1, e1'⟩

/-! ### Advection -/

theorem scipy_uv (fs : Nat → Fld) (ns : Nat → List (List Nat)) (t z y x : ℚ) (k : ℚ → ℚ → Prog V) :
    scipy fs ns (uv t z y x k) = match flow fs ns t z y x with
      | .error e => .error e
      | .ok p => scipy fs ns (k p.1 p.2) := by
  unfold uv flow
  rw [scipy]
  cases nestedS fs (ns 0) t z y x with
  | error e => rfl
  | ok ws =>
    rcases ws with _ | ⟨u, _ | ⟨v, _ | ⟨w, ws⟩⟩⟩ <;> rfl

/-- C112. The kernel is `AdvectionRK4` (of which C94, C95 and C97 speak) in the flow of the nested velocities. -/
theorem C112_rk4 (fs : Nat → Fld) (ns : Nat → List (List Nat)) : kernel (scipyScheme fs ns rk4) = Advection.toKern (Advection.plain (Advection.rk4 (flow fs ns))) := by
  rw [WholeRun.rk4_kernel]
  congr 1
  funext t dt v
  unfold scipyScheme rk4 WholeRun.rk4Scheme Advection.rk4
  rw [scipy_uv]
  cases flow fs ns t v.2.2 v.2.1 v.1 with
  | error e => rfl
  | ok p1 =>
    dsimp only
    rw [scipy_uv]
    cases flow fs ns (t + 1 / 2 * dt) v.2.2 (v.2.1 + p1.2 * (1 / 2) * dt) (v.1 + p1.1 * (1 / 2) * dt) with
    | error e => rfl
    | ok p2 =>
      dsimp only
      rw [scipy_uv]
      cases flow fs ns (t + 1 / 2 * dt) v.2.2 (v.2.1 + p2.2 * (1 / 2) * dt) (v.1 + p2.1 * (1 / 2) * dt) with
      | error e => rfl
      | ok p3 =>
        dsimp only
        rw [scipy_uv]
        cases flow fs ns (t + dt) v.2.2 (v.2.1 + p3.2 * dt) (v.1 + p3.1 * dt) with
        | error e => rfl
        | ok p4 => rfl

/-! ### Cases -/

/-- Velocities on a small grid inside a larger one; the fields with number 4 and more are on a third grid, with two levels that start at 1. -/
def exFs : Nat → Fld
  | 0 => ⟨⟨[0, 1], [0, 2], [0], false, false, false⟩, [0, 10], false, fun _ => ⟨1, 2, 2, fun _ _ _ => 1 / 2⟩, 0⟩
  | 1 => ⟨⟨[0, 1], [0, 2], [0], false, false, false⟩, [0, 10], false, fun _ => ⟨1, 2, 2, fun _ _ k => k⟩, 0⟩
  | 2 => ⟨⟨[-1, 2, 4], [-1, 4], [0], false, false, false⟩, [0, 50, 100], false, fun i => ⟨1, 2, 3, fun _ _ _ => 1 + i⟩, 1⟩
  | 3 => ⟨⟨[-1, 2, 4], [-1, 4], [0], false, false, false⟩, [0, 50, 100], false, fun _ => ⟨1, 2, 3, fun _ _ _ => -1 / 8⟩, 1⟩
  | _ => ⟨⟨[0, 1], [0, 2], [1, 2], false, false, false⟩, [0, 10], false, fun _ => ⟨2, 2, 2, fun _ _ _ => 7⟩, 2⟩

theorem exSound : ∀ i, Sound (exFs i) := by
  intro i
  rcases i with _ | _ | _ | _ | i
  all_goals
    refine ⟨rfl, rfl, rfl, by simp [exFs, Increasing] <;> norm_num, by simp [exFs], by simp [exFs, Increasing] <;> norm_num, by simp [exFs], ?_,
      by simp [exFs, Increasing] <;> norm_num, by simp [exFs], fun _ => ⟨rfl, rfl, rfl⟩⟩
    first | (left; simp [exFs]; done) | (right; simp [exFs, Increasing])

theorem exGrids : Grids exFs := by
  intro i j
  rcases i with _ | _ | _ | _ | i <;> rcases j with _ | _ | _ | _ | j <;> simp [exFs]

theorem exHints : Hints exFs GridRun.newHints := by
  intro i
  rcases i with _ | _ | _ | _ | i <;> simp [exFs, GridRun.newHints]

def exNs : Nat → List (List Nat) := fun _ => [[0, 1], [2, 3]]

/-- Three particles: the first goes from the small grid to the large one, the second is outside the small grid, the third leaves the data. -/
def exParts : List (TP ((ℚ × ℚ × ℚ) × (Nat → Hint))) :=
  [(0, ⟨0, 1 / 2, .success, ((1 / 2, 0, 0), GridRun.newHints)⟩), (1, ⟨0, 1 / 2, .success, ((-1, 3, 0), GridRun.newHints)⟩), (2, ⟨0, 1 / 2, .success, ((3, 3, 1 / 2), GridRun.newHints)⟩)]

theorem exRegular : Regular GridRun.exOpts 0 4 exParts := by
  refine ⟨⟨_, List.mem_cons_self, rfl⟩, GridRun.exRegular.step, GridRun.exRegular.length, GridRun.exRegular.end_, GridRun.exRegular.output, GridRun.exRegular.movie, GridRun.exRegular.callback, GridRun.exRegular.ahead,
    GridRun.exRegular.input, ?_⟩
  intro q hq
  simp only [exParts, List.mem_cons, List.not_mem_nil, or_false] at hq
  rcases hq with rfl | rfl | rfl <;> exact ⟨0, by norm_num [GridRun.exOpts]⟩

/-- The hypotheses of C112 can be met: the runs in the two modes end, with the same particles and records. -/
example : (∀ i, Sound (exFs i)) ∧ Grids exFs ∧ Regular GridRun.exOpts 0 4 exParts ∧ Starts GridRun.exOpts 0 exParts ∧ (∀ q ∈ exParts, Hints exFs q.2.vars.2) ∧
    Recovers (DriftRun.exUser (V := ℚ × ℚ × ℚ)) (fun _ _ _ => none) false ∧
    (match execute GridRun.exOpts (scipyExec (kernel (scipyScheme exFs exNs rk4)) WholeRun.exDelete 5 2) 5 WholeRun.exFile (exParts.map strip),
      execute GridRun.exOpts (jitExec (kernel (jitScheme exFs exNs rk4)) WholeRun.exDelete 5 2) 5 WholeRun.exFile exParts with
    | some (.done s), some (.done s') => decide (s.ps.map core = (s'.ps.map core).map bare ∧ records s = (records s').map bare ∧
        s.ps.map (fun q => (q.1, q.2.time)) = [(0, 2), (1, 2)] ∧ 5 ≤ (records s).length)
    | _, _ => false) = true ∧
    (match execute GridRun.exOpts (scipyExec (kernel (scipyScheme exFs exNs rk4)) (fun _ => none) 5 2) 5 WholeRun.exFile (exParts.map strip),
      execute GridRun.exOpts (jitExec (kernel (jitScheme exFs exNs rk4)) (fun _ => none) 5 2) 5 WholeRun.exFile exParts with
    | some (.raised _), some (.raised _) => true
    | _, _ => false) = true := by
  refine ⟨exSound, exGrids, exRegular, ⟨⟨_, List.mem_cons_self, rfl⟩, by decide +kernel, by norm_num [GridRun.exOpts], by decide +kernel⟩, ?_, DriftRun.exRecovers, by decide +kernel, by decide +kernel⟩
  intro q hq
  simp only [exParts, List.mem_cons, List.not_mem_nil, or_false] at hq
  rcases hq with rfl | rfl | rfl <;> exact exHints

/-- Samples: inside the small grid, outside it, and outside both; the second also in JIT mode. -/
example : nestedS exFs (exNs 0) 5 0 1 (1 / 2) = .ok [1 / 2, 1 / 2] ∧ nestedS exFs (exNs 0) 5 0 3 (1 / 2) = .ok [11 / 10, -1 / 8] ∧ nestedS exFs (exNs 0) 5 0 5 (1 / 2) = .error oob ∧
    (match cNest exFs 5 0 3 3 (exNs 0) GridRun.newHints with | (.ok ws, hs) => decide (ws = [11 / 10, -1 / 8] ∧ (hs 1).xi = 1 ∧ (hs 0).ti = 0) | _ => false) = true ∧
    (∀ m ∈ exNs 0, ∀ i ∈ m, TimeOk (exFs i) 5 ∧ ¬ Above (exFs i) 0) := by
  refine ⟨by decide +kernel, by decide +kernel, by decide +kernel, by decide +kernel, ?_⟩
  intro m hm i hi
  simp only [exNs, List.mem_cons, List.not_mem_nil, or_false] at hm
  rcases hm with rfl | rfl <;> simp only [List.mem_cons, List.not_mem_nil, or_false] at hi <;> rcases hi with rfl | rfl
  · exact ⟨Or.inr ⟨0, 10, by simp [exFs], by simp [exFs], by norm_num, by norm_num⟩, fun h => absurd h.1 (by simp [exFs])⟩
  · exact ⟨Or.inr ⟨0, 10, by simp [exFs], by simp [exFs], by norm_num, by norm_num⟩, fun h => absurd h.1 (by simp [exFs])⟩
  · exact ⟨Or.inr ⟨0, 50, by simp [exFs], by simp [exFs], by norm_num, by norm_num⟩, fun h => absurd h.1 (by simp [exFs])⟩
  · exact ⟨Or.inr ⟨0, 50, by simp [exFs], by simp [exFs], by norm_num, by norm_num⟩, fun h => absurd h.1 (by simp [exFs])⟩

/-- C112. Not so if the position is above the first level of an earlier member: then the sample fails, with the error for particles that go through the surface, although a later member covers the position. In
both modes; the run raises. -/
theorem C112_surface_fails :
    FirstValue exFs [[4], [2]] 5 0 1 (1 / 2) [11 / 10] ∧ nestedS exFs [[4], [2]] 5 0 1 (1 / 2) = .error (.space .throughSurface) ∧
    (cNest exFs 5 0 1 (1 / 2) [[4], [2]] GridRun.newHints).1 = .error (.space .throughSurface) ∧
    (match execute GridRun.exOpts (scipyExec (kernel (scipyScheme exFs (fun _ => [[4, 4], [2, 3]]) rk4)) (fun _ => none) 5 2) 5 WholeRun.exFile (exParts.map strip),
      execute GridRun.exOpts (jitExec (kernel (jitScheme exFs (fun _ => [[4, 4], [2, 3]]) rk4)) (fun _ => none) 5 2) 5 WholeRun.exFile exParts with
    | some (.raised _), some (.raised _) => true
    | _, _ => false) = true := by
  refine ⟨⟨[[4]], [2], [], rfl, ?_, ?_⟩, by decide +kernel, by decide +kernel, by decide +kernel⟩
  · intro m hm H
    simp only [List.mem_cons, List.not_mem_nil, or_false] at hm
    subst hm
    obtain ⟨-, -, h3, -⟩ := H 4 (by simp)
    obtain ⟨a, b, ha, -, h, -⟩ := h3 (by simp [exFs])
    simp [exFs] at ha
    rcases ha with rfl | rfl <;> norm_num at h
  · refine List.Forall₂.cons ?_ .nil
    refine (GridRun.eval_iff (exSound 2) _ _ _ _ _).mp ?_
    decide +kernel

/-- C112. Nor if the data of an earlier member have ended, even for positions outside its grid: then the sample fails with the error for extrapolation in time. -/
theorem C112_time_fails :
    FirstValue exFs (exNs 0) 20 0 3 3 [7 / 5, -1 / 8] ∧ nestedS exFs (exNs 0) 20 0 3 3 = .error .time ∧ (cNest exFs 20 0 3 3 (exNs 0) GridRun.newHints).1 = .error .time ∧
    Outside (exFs 0) 0 3 3 := by
  refine ⟨⟨[[0, 1]], [2, 3], [], rfl, ?_, ?_⟩, by decide +kernel, by decide +kernel, ?_⟩
  · intro m hm H
    simp only [List.mem_cons, List.not_mem_nil, or_false] at hm
    subst hm
    obtain ⟨⟨a, b, -, hb, -, h⟩, -⟩ := H 0 (by simp)
    simp [exFs] at hb
    rcases hb with rfl | rfl <;> norm_num at h
  · refine List.Forall₂.cons ?_ (List.Forall₂.cons ?_ .nil)
    · refine (GridRun.eval_iff (exSound 2) _ _ _ _ _).mp ?_
      decide +kernel
    · refine (GridRun.eval_iff (exSound 3) _ _ _ _ _).mp ?_
      decide +kernel
  · left
    rintro ⟨a, b, -, hb, -, h⟩
    simp [exFs] at hb
    rcases hb with rfl | rfl <;> norm_num at h

end Parcels.NestRun
