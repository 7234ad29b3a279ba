import Verif.Proofs.PeriodRun
import Verif.Props.GridRun

/-!
C113: runs with fields that are periodic in time repeat with the period.
-/

namespace Parcels.PeriodRun

open Search Interp TimeInterp
open KernelLoop (Exc)
open WholeRun (Scheme Opts Run Exec St execute scipyExec jitExec kernel solution trajectory record records outputTimes core Regular Deletes Raises)
open Recovery (TP RMap)
open GridRun (Fld Hint Sound FieldValue SpaceValue HintOk Hints Grids Covers Body Prog refScheme bare strip filterMap_bare regular_strip filterMap_length)

variable {V : Type}

/-! ### Samples -/

/-- C113. A sample is the periodic value, and succeeds where there is one; in both modes, whatever cells of the grid the particle remembers. -/
theorem C113_sample {per : Bool} {f : Fld} (hf : Sound f) (hp : per = true → Closed f) (t z y x w : ℚ) (h : Hint)
    (hx : h.xi + 1 < f.grid.lon.length) (hy : h.yi + 1 < f.grid.lat.length) (hz : h.zi ≤ f.grid.depth.length - 1) (ht : h.ti < f.time.length) :
    (eval per f t z y x = .ok w ↔ Value per f t z y x w) ∧ ((∃ h', cEval per f t z y x h = .ok (w, h')) ↔ Value per f t z y x w) := by
  have hh : HintOk f h := ⟨hx, hy, hz, ht⟩
  obtain ⟨c1, c2⟩ := cEval_cases hf hp hh t z y x
  refine ⟨eval_iff hf hp t z y x w, fun ⟨h', e⟩ => ?_, fun e => ⟨_, c1 w e⟩⟩
  by_cases hv : ∃ w, Value per f t z y x w
  · obtain ⟨w', hw'⟩ := hv
    rw [c1 w' hw'] at e
    rw [← (Prod.mk.inj (Except.ok.inj e)).1]
    exact hw'
  · obtain ⟨e', h'⟩ := c2 (fun w hw => hv ⟨w, hw⟩)
    rw [h'] at e
    cases e

/-- C113. A periodic field has exactly one value at each position on its grid, at all times, and it is the same a whole number of periods earlier or later. -/
theorem C113_always {f : Fld} (hf : Sound f) (hp : Closed f) (z y x : ℚ) (hx : InRange f.grid.lon x) (hy : InRange f.grid.lat y) (hz : 2 ≤ f.grid.depth.length → InRange f.grid.depth z) :
    ∃ val : ℚ → ℚ, (∀ t w, Value true f t z y x w ↔ w = val t) ∧ ∀ t, ∀ m : ℤ, val (t + m * span f) = val t := by
  have ex : ∀ t, ∃ w, Value true f t z y x w := by
    intro t
    rcases GridRun.space_cases hf z y x with ⟨⟨val, hval⟩, -⟩ | ⟨⟨e, he⟩, -⟩
    · obtain ⟨k, i, r, hl⟩ := period_total hf.timeInc hp.two t
      rw [← span_eq] at hl
      exact ⟨_, fun i => val (f.data i), fun i _ => hval _, k, i, r, hl, rfl⟩
    · exfalso
      obtain ⟨w, hw⟩ := GridRun.covers_value (f := { f with extrap := true }) ⟨hf.flat, hf.noHalo, hf.mom5, hf.lonInc, hf.lonLen, hf.latInc, hf.latLen, hf.depth, hf.timeInc, hf.timeLen, hf.fits⟩
        (t := t) (z := z) (y := y) (x := x) ⟨hx, hy, hz, Or.inl rfl⟩
      obtain ⟨v, hv, -⟩ := hw
      have := GridRun.space_scipy hf _ (hv 0 hf.timeLen)
      unfold sample at this
      rw [he] at this
      cases this
  have un : ∀ t w w', Value true f t z y x w → Value true f t z y x w' → w = w' := by
    intro t w w' h h'
    rw [← eval_iff hf (fun _ => hp)] at h h'
    rw [h] at h'
    exact Except.ok.inj h'
  choose val hval using ex
  refine ⟨val, fun t w => ⟨fun h => un t w _ h (hval t), fun h => by rw [h]; exact hval t⟩, fun t m => ?_⟩
  have := hval (t + m * span f)
  rw [value_later (Or.inl ⟨rfl, m, rfl⟩) hf] at this
  exact un t _ _ this (hval t)

/-! ### Runs -/

theorem traj_scipy {per : Nat → Bool} {fs : Nat → Fld} (hf : ∀ i, Sound (fs i)) (hp : ∀ i, per i = true → Closed (fs i)) {val : Nat → (t z y x : ℚ) → Option ℚ} (hv : Gives per fs val) (b : Body V) :
    trajectory (scipyScheme per fs b) = trajectory (refScheme val b) := trajectory_scipy (scipy_ok hf hp hv) b

theorem traj_jit {per : Nat → Bool} {fs : Nat → Fld} (hf : ∀ i, Sound (fs i)) (hp : ∀ i, per i = true → Closed (fs i)) (hg : Grids fs) {val : Nat → (t z y x : ℚ) → Option ℚ} (hv : Gives per fs val)
    (b : Body V) (dt t : ℚ) (q : TP (V × (Nat → Hint))) (hq : Hints fs q.2.vars.2) :
    (trajectory (jitScheme per fs b) dt t q).map bare = trajectory (refScheme val b) dt t (strip q) := trajectory_jit (jit_ok hf hg hp hv) b dt t q hq

theorem rec_jit {per : Nat → Bool} {fs : Nat → Fld} (hf : ∀ i, Sound (fs i)) (hp : ∀ i, per i = true → Closed (fs i)) (hg : Grids fs) {val : Nat → (t z y x : ℚ) → Option ℚ} (hv : Gives per fs val)
    (b : Body V) (dt t : ℚ) (q : TP (V × (Nat → Hint))) (hq : Hints fs q.2.vars.2) :
    (record (jitScheme per fs b) dt t q).map bare = record (refScheme val b) dt t (strip q) := record_jit (jit_ok hf hg hp hv) b dt t q hq

/-- C113. The values the theorems speak of exist. -/
theorem C113_values {per : Nat → Bool} {fs : Nat → Fld} (hf : ∀ i, Sound (fs i)) (hp : ∀ i, per i = true → Closed (fs i)) : ∃ val, Gives per fs val := gives_exists hf hp

/-- C113. A run in Scipy mode with a kernel that samples fields of which some are periodic in time: the particles that are left are where the trajectories in the periodic values lead. -/
theorem C113_scipy {per : Nat → Bool} {fs : Nat → Fld} (hf : ∀ i, Sound (fs i)) (hp : ∀ i, per i = true → Closed (fs i)) {val : Nat → (t z y x : ℚ) → Option ℚ} (hv : Gives per fs val) (b : Body V)
    {user : RMap Unit V} {o : Opts} {S : ℚ} {N : ℕ} {ps : List (TP V)} (h : Regular o S N ps)
    (hok : Deletes user ∨ ∀ q ∈ ps, (trajectory (refScheme val b) o.dt (S + N * o.dt) q).isSome) (k n fuel : ℕ) (file : Output.PFile) (r : Run V)
    (hr : execute o (scipyExec (kernel (scipyScheme per fs b)) user k n) fuel file ps = some r) :
    ∃ s, r = .done s ∧ s.ps.map core = ps.filterMap (trajectory (refScheme val b) o.dt (S + N * o.dt)) := by
  rw [← traj_scipy hf hp hv b] at hok ⊢
  exact WholeRun.C97_run ⟨k, n, Or.inl rfl⟩ h hok fuel file r hr

/-- C113. The same in JIT mode, where particles remember cells. -/
theorem C113_jit {per : Nat → Bool} {fs : Nat → Fld} (hf : ∀ i, Sound (fs i)) (hp : ∀ i, per i = true → Closed (fs i)) (hg : Grids fs) {val : Nat → (t z y x : ℚ) → Option ℚ} (hv : Gives per fs val) (b : Body V)
    {user : RMap Unit (V × (Nat → Hint))} {o : Opts} {S : ℚ} {N : ℕ} {ps : List (TP (V × (Nat → Hint)))} (h : Regular o S N ps)
    (hh : ∀ q ∈ ps, Hints fs q.2.vars.2)
    (hok : Deletes user ∨ ∀ q ∈ ps, (trajectory (refScheme val b) o.dt (S + N * o.dt) (strip q)).isSome) (k n fuel : ℕ) (file : Output.PFile)
    (r : Run (V × (Nat → Hint))) (hr : execute o (jitExec (kernel (jitScheme per fs b)) user k n) fuel file ps = some r) :
    ∃ s, r = .done s ∧ (s.ps.map core).map bare = (ps.map strip).filterMap (trajectory (refScheme val b) o.dt (S + N * o.dt)) := by
  have hok' : Deletes user ∨ ∀ q ∈ ps, (trajectory (jitScheme per fs b) o.dt (S + N * o.dt) q).isSome := by
    refine hok.imp_right fun H q hq => ?_
    have := H q hq
    rw [← traj_jit hf hp hg hv b _ _ q (hh q hq), Option.isSome_map] at this
    exact this
  obtain ⟨s, h1, h2⟩ := WholeRun.C97_run (f := jitScheme per fs b) ⟨k, n, Or.inr rfl⟩ h hok' fuel file r hr
  refine ⟨s, h1, ?_⟩
  rw [h2]
  exact filterMap_bare _ _ _ _ _ fun q hq => traj_jit hf hp hg hv b _ _ q (hh q hq)

/-- C113. With recovery functions that delete, the two modes give the same particles, and the same records in the output file. -/
theorem C113_modes {per : Nat → Bool} {fs : Nat → Fld} (hf : ∀ i, Sound (fs i)) (hp : ∀ i, per i = true → Closed (fs i)) (hg : Grids fs) (b : Body V) {user : RMap Unit V} {user' : RMap Unit (V × (Nat → Hint))}
    (hu : Deletes user) (hu' : Deletes user') {o : Opts} {S : ℚ} {N : ℕ} {ps : List (TP (V × (Nat → Hint)))} (h : Regular o S N ps)
    (hh : ∀ q ∈ ps, Hints fs q.2.vars.2) (k n fuel k' n' fuel' : ℕ) (file : Output.PFile) (r : Run V) (r' : Run (V × (Nat → Hint)))
    (hr : execute o (scipyExec (kernel (scipyScheme per fs b)) user k n) fuel file (ps.map strip) = some r)
    (hr' : execute o (jitExec (kernel (jitScheme per fs b)) user' k' n') fuel' file ps = some r') :
    ∃ s s', r = .done s ∧ r' = .done s' ∧ s.ps.map core = (s'.ps.map core).map bare ∧
      (o.hasFile = true → file.writeOndelete = false → file.lasttime ≠ some S → o.outputdt ≠ none → records s = (records s').map bare) := by
  obtain ⟨val, hv⟩ := gives_exists hf hp
  obtain ⟨s, e1, e2⟩ := C113_scipy hf hp hv b (regular_strip h) (Or.inl hu) k n fuel file r hr
  obtain ⟨s', e1', e2'⟩ := C113_jit hf hp hg hv b h hh (Or.inl hu') k' n' fuel' file r' hr'
  refine ⟨s, s', e1, e1', by rw [e2, e2'], fun c1 c2 c3 c4 => ?_⟩
  obtain ⟨i, hi⟩ := Option.ne_none_iff_exists'.mp c4
  obtain ⟨s2, a1, a2⟩ := WholeRun.C97_records (f := scipyScheme per fs b) ⟨k, n, Or.inl rfl⟩ (regular_strip h) (Or.inl hu) fuel file r hr c1 c2 c3 i hi
  obtain ⟨s2', a1', a2'⟩ := WholeRun.C97_records (f := jitScheme per fs b) ⟨k', n', Or.inr rfl⟩ h (Or.inl hu') fuel' file r' hr' c1 c2 c3 i hi
  rw [e1] at a1
  rw [e1'] at a1'
  injection a1 with a1
  injection a1' with a1'
  subst a1 a1'
  rw [a2, a2', List.map_flatMap]
  congr 1
  funext t
  rw [filterMap_bare _ (record (refScheme val b) o.dt t) bare strip ps fun q hq => rec_jit hf hp hg hv b _ _ q (hh q hq)]
  unfold record
  rw [traj_scipy hf hp hv b]

/-- C113. With recovery functions that raise (the default), either both modes raise, or both return with the same particles. -/
theorem C113_modes_raise {per : Nat → Bool} {fs : Nat → Fld} (hf : ∀ i, Sound (fs i)) (hp : ∀ i, per i = true → Closed (fs i)) (hg : Grids fs) (b : Body V) {user : RMap Unit V} {user' : RMap Unit (V × (Nat → Hint))}
    (hu : Raises user) (hu' : Raises user') {o : Opts} {S : ℚ} {N : ℕ} {ps : List (TP (V × (Nat → Hint)))} (h : Regular o S N ps)
    (hh : ∀ q ∈ ps, Hints fs q.2.vars.2) (k n fuel k' n' fuel' : ℕ) (file : Output.PFile) (r : Run V) (r' : Run (V × (Nat → Hint)))
    (hr : execute o (scipyExec (kernel (scipyScheme per fs b)) user k n) fuel file (ps.map strip) = some r)
    (hr' : execute o (jitExec (kernel (jitScheme per fs b)) user' k' n') fuel' file ps = some r') :
    (∃ s s', r = .raised s ∧ r' = .raised s') ∨
    (∃ s s', r = .done s ∧ r' = .done s' ∧ s.ps.map core = (s'.ps.map core).map bare ∧ s.ps.length = ps.length) := by
  obtain ⟨val, hv⟩ := gives_exists hf hp
  by_cases c : ∀ q ∈ ps, (trajectory (refScheme val b) o.dt (S + N * o.dt) (strip q)).isSome
  · right
    have c' : ∀ q ∈ ps.map strip, (trajectory (refScheme val b) o.dt (S + N * o.dt) q).isSome := by
      intro q hq
      obtain ⟨p, hp, rfl⟩ := List.mem_map.mp hq
      exact c p hp
    obtain ⟨s, e1, e2⟩ := C113_scipy hf hp hv b (regular_strip h) (Or.inr c') k n fuel file r hr
    obtain ⟨s', e1', e2'⟩ := C113_jit hf hp hg hv b h hh (Or.inr c) k' n' fuel' file r' hr'
    refine ⟨s, s', e1, e1', by rw [e2, e2'], ?_⟩
    have l := congrArg List.length e2
    rw [List.length_map, filterMap_length c', List.length_map] at l
    exact l
  · left
    push Not at c
    obtain ⟨q, hq, hn⟩ := c
    have hn' : trajectory (refScheme val b) o.dt (S + N * o.dt) (strip q) = none := by
      cases e : trajectory (refScheme val b) o.dt (S + N * o.dt) (strip q) with
      | none => rfl
      | some v => rw [e] at hn; exact absurd rfl hn
    obtain ⟨s, e1⟩ := WholeRun.C97_raises (f := scipyScheme per fs b) ⟨k, n, Or.inl rfl⟩ (regular_strip h) hu
      ⟨strip q, List.mem_map_of_mem hq, by rw [traj_scipy hf hp hv b]; exact hn'⟩ fuel file r hr
    obtain ⟨s', e1'⟩ := WholeRun.C97_raises (f := jitScheme per fs b) ⟨k', n', Or.inr rfl⟩ h hu'
      ⟨q, hq, by
        have := traj_jit hf hp hg hv b o.dt (S + N * o.dt) q (hh q hq)
        rw [hn', Option.map_eq_none_iff] at this
        exact this⟩ fuel' file r' hr'
    exact ⟨s, s', e1, e1'⟩

/-! ### Runs at other times -/

theorem outputTimes_later (S dt i c : ℚ) (N : ℕ) : outputTimes (S + c) dt i N = (outputTimes S dt i N).map (· + c) := by
  unfold outputTimes
  rw [List.map_append, List.map_map]
  congr 1
  · refine List.map_congr_left fun k _ => ?_
    show S + c + _ = S + _ + c
    ring
  · split_ifs
    · rfl
    · show [S + c + N * dt] = [S + N * dt + c]
      rw [add_right_comm]

theorem filterMap_later (f g : TP V → Option (Nat × ℚ × V)) (c : ℚ) (h : ∀ q, g (later c q) = (f q).map (postpone c)) (ps : List (TP V)) :
    (ps.map (later c)).filterMap g = (ps.filterMap f).map (postpone c) := by
  rw [List.filterMap_map, List.map_filterMap]
  congr 1
  funext q
  exact h q

/-- C113. If all fields are the same `c` seconds later (`c` a whole number of periods), then particles that start `c` seconds later follow, `c` seconds later, the same trajectories, and end and are recorded
where the others are; in Scipy mode. -/
theorem C113_later_scipy {per : Nat → Bool} {fs : Nat → Fld} (hf : ∀ i, Sound (fs i)) (hp : ∀ i, per i = true → Closed (fs i)) {b : Body V} (hb : Timeless b) {c : ℚ}
    (hc : ∀ i, Repeats (per i) (fs i) c) {user : RMap Unit V} (hu : Deletes user) {o o' : Opts} (hdt : o'.dt = o.dt) (hout : o'.outputdt = o.outputdt) {S : ℚ} {N : ℕ} {ps : List (TP V)}
    (h : Regular o S N ps) (h' : Regular o' (S + c) N (ps.map (later c))) (k n fuel k' n' fuel' : ℕ) (file file' : Output.PFile) (r r' : Run V)
    (hr : execute o (scipyExec (kernel (scipyScheme per fs b)) user k n) fuel file ps = some r)
    (hr' : execute o' (scipyExec (kernel (scipyScheme per fs b)) user k' n') fuel' file' (ps.map (later c)) = some r') :
    ∃ s s', r = .done s ∧ r' = .done s' ∧ s'.ps.map core = (s.ps.map core).map (postpone c) ∧
      (o.hasFile = true → o'.hasFile = true → file.writeOndelete = false → file'.writeOndelete = false → file.lasttime ≠ some S → file'.lasttime ≠ some (S + c) → o.outputdt ≠ none →
        records s' = (records s).map (postpone c)) := by
  obtain ⟨val, hv⟩ := gives_exists hf hp
  have hl := ref_later hf hv hb hc
  obtain ⟨s, e1, e2⟩ := C113_scipy hf hp hv b h (Or.inl hu) k n fuel file r hr
  obtain ⟨s', e1', e2'⟩ := C113_scipy hf hp hv b h' (Or.inl hu) k' n' fuel' file' r' hr'
  refine ⟨s, s', e1, e1', ?_, fun c1 c1' c2 c2' c3 c3' c4 => ?_⟩
  · rw [e2, e2', hdt]
    refine filterMap_later _ _ c (fun q => ?_) ps
    rw [add_right_comm]
    exact trajectory_later hl _ _ _
  · obtain ⟨i, hi⟩ := Option.ne_none_iff_exists'.mp c4
    obtain ⟨s2, a1, a2⟩ := WholeRun.C97_records (f := scipyScheme per fs b) ⟨k, n, Or.inl rfl⟩ h (Or.inl hu) fuel file r hr c1 c2 c3 i hi
    obtain ⟨s2', a1', a2'⟩ := WholeRun.C97_records (f := scipyScheme per fs b) ⟨k', n', Or.inl rfl⟩ h' (Or.inl hu) fuel' file' r' hr' c1' c2' c3' i (by rw [hout]; exact hi)
    rw [e1] at a1
    rw [e1'] at a1'
    injection a1 with a1
    injection a1' with a1'
    subst a1 a1'
    rw [a2, a2', hdt, outputTimes_later, List.flatMap_map, List.map_flatMap]
    congr 1
    funext t
    refine filterMap_later _ _ c (fun q => ?_) ps
    have e : record (scipyScheme per fs b) = record (refScheme val b) := by
      funext dt t q
      unfold record
      rw [traj_scipy hf hp hv b]
    rw [e]
    exact record_later hl _ _ _

theorem strip_later (c : ℚ) (q : TP (V × (Nat → Hint))) : strip (later c q) = later c (strip q) := rfl

/-- C113. The same in JIT mode, whatever cells the particles remember. -/
theorem C113_later_jit {per : Nat → Bool} {fs : Nat → Fld} (hf : ∀ i, Sound (fs i)) (hp : ∀ i, per i = true → Closed (fs i)) (hg : Grids fs) {b : Body V} (hb : Timeless b) {c : ℚ}
    (hc : ∀ i, Repeats (per i) (fs i) c) {user : RMap Unit (V × (Nat → Hint))} (hu : Deletes user) {o o' : Opts} (hdt : o'.dt = o.dt) (hout : o'.outputdt = o.outputdt) {S : ℚ} {N : ℕ}
    {ps : List (TP (V × (Nat → Hint)))} (hh : ∀ q ∈ ps, Hints fs q.2.vars.2)
    (h : Regular o S N ps) (h' : Regular o' (S + c) N (ps.map (later c))) (k n fuel k' n' fuel' : ℕ) (file file' : Output.PFile) (r r' : Run (V × (Nat → Hint)))
    (hr : execute o (jitExec (kernel (jitScheme per fs b)) user k n) fuel file ps = some r)
    (hr' : execute o' (jitExec (kernel (jitScheme per fs b)) user k' n') fuel' file' (ps.map (later c)) = some r') :
    ∃ s s', r = .done s ∧ r' = .done s' ∧ (s'.ps.map core).map bare = ((s.ps.map core).map bare).map (postpone c) ∧
      (o.hasFile = true → o'.hasFile = true → file.writeOndelete = false → file'.writeOndelete = false → file.lasttime ≠ some S → file'.lasttime ≠ some (S + c) → o.outputdt ≠ none →
        (records s').map bare = ((records s).map bare).map (postpone c)) := by
  obtain ⟨val, hv⟩ := gives_exists hf hp
  have hl := ref_later hf hv hb hc
  have hh' : ∀ q ∈ ps.map (later c), Hints fs q.2.vars.2 := by
    intro q hq
    obtain ⟨p, hp, rfl⟩ := List.mem_map.mp hq
    exact hh p hp
  have hmap : (ps.map (later c)).map strip = (ps.map strip).map (later c) := by rw [List.map_map, List.map_map]; rfl
  obtain ⟨s, e1, e2⟩ := C113_jit hf hp hg hv b h hh (Or.inl hu) k n fuel file r hr
  obtain ⟨s', e1', e2'⟩ := C113_jit hf hp hg hv b h' hh' (Or.inl hu) k' n' fuel' file' r' hr'
  refine ⟨s, s', e1, e1', ?_, fun c1 c1' c2 c2' c3 c3' c4 => ?_⟩
  · rw [e2, e2', hdt, hmap]
    refine filterMap_later _ _ c (fun q => ?_) _
    rw [add_right_comm]
    exact trajectory_later hl _ _ _
  · obtain ⟨i, hi⟩ := Option.ne_none_iff_exists'.mp c4
    obtain ⟨s2, a1, a2⟩ := WholeRun.C97_records (f := jitScheme per fs b) ⟨k, n, Or.inr rfl⟩ h (Or.inl hu) fuel file r hr c1 c2 c3 i hi
    obtain ⟨s2', a1', a2'⟩ := WholeRun.C97_records (f := jitScheme per fs b) ⟨k', n', Or.inr rfl⟩ h' (Or.inl hu) fuel' file' r' hr' c1' c2' c3' i (by rw [hout]; exact hi)
    rw [e1] at a1
    rw [e1'] at a1'
    injection a1 with a1
    injection a1' with a1'
    subst a1 a1'
    rw [a2, a2', hdt, outputTimes_later, List.flatMap_map, List.map_flatMap, List.map_flatMap, List.map_flatMap]
    congr 1
    funext t
    rw [filterMap_bare _ (record (refScheme val b) o.dt (t + c)) bare strip _ fun q hq => rec_jit hf hp hg hv b _ _ q (hh' q hq),
      filterMap_bare _ (record (refScheme val b) o.dt t) bare strip _ fun q hq => rec_jit hf hp hg hv b _ _ q (hh q hq), hmap]
    exact filterMap_later _ _ c (fun q => record_later hl _ _ _) _

/-- C113. The advection kernels use the time only to sample. -/
theorem C113_kernels : Timeless GridRun.rk4 ∧ Timeless GridRun.ee ∧ Timeless GridRun.rk4_3D := ⟨timeless_rk4, timeless_ee, timeless_rk4_3D⟩

/-! ### Cases -/

/-- A velocity with period 2, and one that does not change. -/
def exFs : Nat → Fld
  | 0 => ⟨⟨[0, 4], [0, 2, 4], [0], false, false, false⟩, [0, 1, 2], false, fun i => ⟨1, 3, 2, fun _ _ k => if i = 1 then 1 / 2 + k else 1 / 4⟩, 0⟩
  | _ => ⟨⟨[-1, 2, 4], [-1, 4], [0], false, false, false⟩, [0], true, fun _ => ⟨1, 2, 3, fun _ j _ => -1 / 8 + j⟩, 1⟩

def exPer : Nat → Bool := fun i => decide (i = 0)

theorem exSound : ∀ i, Sound (exFs i) := by
  intro i
  rcases i with _ | i
  · exact ⟨rfl, rfl, rfl, by simp [exFs, Increasing], by simp [exFs], by simp [exFs, Increasing] <;> norm_num, by simp [exFs], Or.inl (by simp [exFs]),
      by simp [exFs, Increasing], by simp [exFs], fun _ => ⟨rfl, rfl, rfl⟩⟩
  · exact ⟨rfl, rfl, rfl, by simp [exFs, Increasing] <;> norm_num, by simp [exFs], by simp [exFs, Increasing] <;> norm_num, by simp [exFs], Or.inl (by simp [exFs]),
      by simp [exFs, Increasing], by simp [exFs], fun _ => ⟨rfl, rfl, rfl⟩⟩

theorem exClosed : ∀ i, exPer i = true → Closed (exFs i) := by
  intro i hi
  obtain rfl : i = 0 := by simpa [exPer] using hi
  exact ⟨by simp [exFs], by simp [exFs]⟩

theorem exGrids : Grids exFs := by
  intro i j
  rcases i with _ | i <;> rcases j with _ | j <;> simp [exFs]

theorem exHints : Hints exFs GridRun.newHints := by
  intro i
  rcases i with _ | i <;> simp [exFs, GridRun.newHints]

theorem exRepeats : ∀ i, Repeats (exPer i) (exFs i) 6 := by
  intro i
  rcases i with _ | i
  · exact Or.inl ⟨rfl, 3, by norm_num [span, exFs]⟩
  · exact Or.inr ⟨by simp [exPer], by simp [exFs], rfl⟩

/-- Three particles; one leaves the domain. -/
def exParts : List (TP ((ℚ × ℚ × ℚ) × (Nat → Hint))) :=
  [(0, ⟨0, 1 / 2, .success, ((1 / 2, 0, 0), GridRun.newHints)⟩), (1, ⟨0, 1 / 2, .success, ((4, 3, 0), GridRun.newHints)⟩), (2, ⟨1, 1 / 2, .success, ((1, 1, 1 / 2), GridRun.newHints)⟩)]

/-- Four seconds, two periods. -/
def exOpts : Opts := ⟨1 / 2, .runtime 4, true, some 1, none, none, fun _ _ => .pinf⟩

theorem exRegular (c : ℚ) : Regular exOpts (0 + c) 8 (exParts.map (later c)) := by
  refine ⟨⟨_, List.mem_cons_self, rfl⟩, by norm_num [exOpts, abs_div], by norm_num [exOpts, abs_div], by norm_num [exOpts, abs_div], ?_, ?_, ?_, ?_, ?_, ?_⟩
  · intro i hi
    simp only [exOpts, Option.some.injEq] at hi
    exact ⟨2, by norm_num, by rw [← hi]; norm_num [exOpts, abs_div]⟩
  · intro i hi; cases hi
  · intro i hi; cases hi
  · intro i t; show (0 : ℚ) < 1 / 2; norm_num
  · intro i t q hq; cases hq
  · intro q hq
    simp only [exParts, List.map_cons, List.map_nil, List.mem_cons, List.not_mem_nil, or_false] at hq
    rcases hq with rfl | rfl | rfl
    · exact ⟨0, by norm_num [exOpts, later]⟩
    · exact ⟨0, by norm_num [exOpts, later]⟩
    · exact ⟨2, by norm_num [exOpts, later]; ring⟩

/-- The hypotheses can be met: runs of two periods, and the same three periods later, return in both modes with the same particles and records. -/
example : (∀ i, Sound (exFs i)) ∧ (∀ i, exPer i = true → Closed (exFs i)) ∧ Grids exFs ∧ (∀ i, Repeats (exPer i) (exFs i) 6) ∧ Regular exOpts (0 + 0) 8 (exParts.map (later 0)) ∧
    Regular exOpts (0 + 6) 8 (exParts.map (later 6)) ∧ (∀ q ∈ exParts, Hints exFs q.2.vars.2) ∧
    (match execute exOpts (scipyExec (kernel (scipyScheme exPer exFs GridRun.rk4)) WholeRun.exDelete 9 2) 9 WholeRun.exFile (exParts.map strip),
      execute exOpts (jitExec (kernel (jitScheme exPer exFs GridRun.rk4)) WholeRun.exDelete 9 2) 9 WholeRun.exFile (exParts.map (later 6)) with
    | some (.done s), some (.done s') => decide ((s'.ps.map core).map bare = (s.ps.map core).map (postpone 6) ∧ (records s').map bare = (records s).map (postpone 6) ∧
        s.ps.map (fun q => (q.1, q.2.time)) = [(0, 4), (2, 4)] ∧ 9 ≤ (records s).length)
    | _, _ => false) = true := by
  refine ⟨exSound, exClosed, exGrids, exRepeats, exRegular 0, exRegular 6, ?_, by decide +kernel⟩
  intro q hq
  simp only [exParts, List.mem_cons, List.not_mem_nil, or_false] at hq
  rcases hq with rfl | rfl | rfl <;> exact exHints

/-- C113. If the data at the last time are not those at the first, then a run that starts at the last time depends on the mode: JIT mode samples the last data, Scipy mode the first. -/
theorem C113_open_fails :
    (match execute ⟨1, .runtime 1, false, none, none, none, fun _ _ => .pinf⟩ (scipyExec (kernel (scipyScheme exPer (fun i => { exFs i with data := fun j => ⟨1, 3, 3, fun _ _ _ => j⟩ }) GridRun.ee))
        WholeRun.exDelete 9 2) 9 WholeRun.exFile [(0, ⟨2, 1, .success, (1, 1, 0)⟩)],
      execute ⟨1, .runtime 1, false, none, none, none, fun _ _ => .pinf⟩ (jitExec (kernel (jitScheme exPer (fun i => { exFs i with data := fun j => ⟨1, 3, 3, fun _ _ _ => j⟩ }) GridRun.ee))
        WholeRun.exDelete 9 2) 9 WholeRun.exFile [(0, ⟨2, 1, .success, ((1, 1, 0), GridRun.newHints)⟩)] with
    | some (.done s), some (.done s') => decide (s.ps.map core = [(0, 3, 1, 1, 0)] ∧ (s'.ps.map core).map bare = [(0, 3, 3, 1, 0)])
    | _, _ => false) = true := by decide +kernel

end Parcels.PeriodRun
