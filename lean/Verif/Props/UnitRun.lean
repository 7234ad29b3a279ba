import Verif.Proofs.UnitRun
import Verif.Props.GridRun

/-!
C116: on flat meshes, runs do not depend on the origins and units of coordinates and time.
-/

namespace Parcels.UnitRun

open Search Interp
open KernelLoop (Exc)
open WholeRun (Scheme Opts Run Exec St execute scipyExec jitExec kernel solution trajectory record records outputTimes core Regular Deletes Raises)
open Recovery (TP RMap)
open GridRun (Fld Hint Sound FieldValue SpaceValue HintOk Hints Grids Covers Body Prog refScheme bare strip filterMap_bare regular_strip filterMap_length eval cEval scipyScheme jitScheme
  trajectory_scipy trajectory_jit record_jit interpolates_exists C99_sample C99_scipy C99_jit)

variable {V : Type}

/-! ### Samples -/

/-- C116. In other units, a sample at the same place and time has the same value, in the other units, and fails where it failed; in both modes, whatever cells of the grid the particle remembers. -/
theorem C116_sample {f : Fld} (hf : Sound f) (u : Units) {c : ℚ} (hc : c ≠ 0) (t z y x w : ℚ) (h : Hint)
    (hx : h.xi + 1 < f.grid.lon.length) (hy : h.yi + 1 < f.grid.lat.length) (hz : h.zi ≤ f.grid.depth.length - 1) (ht : h.ti < f.time.length) :
    (eval (change u c f) (u.t.to t) (u.z.to z) (u.y.to y) (u.x.to x) = .ok (c * w) ↔ eval f t z y x = .ok w) ∧
    ((∃ h', cEval (change u c f) (u.t.to t) (u.z.to z) (u.y.to y) (u.x.to x) h = .ok (c * w, h')) ↔ ∃ h', cEval f t z y x h = .ok (w, h')) := by
  obtain ⟨a1, a2⟩ := C99_sample hf t z y x w h hx hy hz ht
  obtain ⟨b1, b2⟩ := C99_sample (sound_change u c hf) (u.t.to t) (u.z.to z) (u.y.to y) (u.x.to x) (c * w) h
    (by show _ < (f.grid.lon.map u.x.to).length; rwa [List.length_map]) (by show _ < (f.grid.lat.map u.y.to).length; rwa [List.length_map])
    (by show _ ≤ (f.grid.depth.map u.z.to).length - 1; rwa [List.length_map]) (by show _ < ((f.time.map u.t.to).length : ℤ); rwa [List.length_map])
  rw [a1, a2, b1, b2]
  exact ⟨value_change u c hc f t z y x w, value_change u c hc f t z y x w⟩

/-! ### Runs -/

/-- C116. Runs in Scipy mode with recovery functions that delete: with the data, the particles, the step, the end and the output interval in the other units, all particles end, and are recorded, at the same places
and times, in the other units. -/
theorem C116_scipy {fs : Nat → Fld} (hf : ∀ i, Sound (fs i)) (u : Units) {c : Nat → ℚ} (hc : ∀ i, c i ≠ 0) {g : V → V} {b : Body V} (hb : Covariant u c g b)
    {user : RMap Unit V} (hu : Deletes user) {o o' : Opts} (hdt : o'.dt = u.t.scale * o.dt) (hout : o'.outputdt = o.outputdt.map (u.t.scale * ·)) {S : ℚ} {N : ℕ} {ps : List (TP V)}
    (h : Regular o S N ps) (h' : Regular o' (u.t.to S) N (ps.map (moved u g))) (k n fuel k' n' fuel' : ℕ) (file file' : Output.PFile) (r r' : Run V)
    (hr : execute o (scipyExec (kernel (scipyScheme fs b)) user k n) fuel file ps = some r)
    (hr' : execute o' (scipyExec (kernel (scipyScheme (fun i => change u (c i) (fs i)) b)) user k' n') fuel' file' (ps.map (moved u g)) = some r') :
    ∃ s s', r = .done s ∧ r' = .done s' ∧ s'.ps.map core = (s.ps.map core).map (read u g) ∧
      (o.hasFile = true → o'.hasFile = true → file.writeOndelete = false → file'.writeOndelete = false → file.lasttime ≠ some S → file'.lasttime ≠ some (u.t.to S) → o.outputdt ≠ none →
        records s' = (records s).map (read u g)) := by
  have hf' : ∀ i, Sound (change u (c i) (fs i)) := fun i => sound_change u (c i) (hf i)
  obtain ⟨val, hv⟩ := interpolates_exists hf
  obtain ⟨val', hv'⟩ := interpolates_exists hf'
  have hl := ref_alike hc hv hv' hb
  obtain ⟨s, e1, e2⟩ := C99_scipy hf hv b h (Or.inl hu) k n fuel file r hr
  obtain ⟨s', e1', e2'⟩ := C99_scipy hf' hv' b h' (Or.inl hu) k' n' fuel' file' r' hr'
  refine ⟨s, s', e1, e1', ?_, fun c1 c1' c2 c2' c3 c3' c4 => ?_⟩
  · rw [e2, e2', hdt]
    refine filterMap_moved _ _ (fun q => ?_) ps
    rw [show u.t.to S + N * (u.t.scale * o.dt) = u.t.to (S + N * o.dt) by unfold Axis.to; ring]
    exact trajectory_alike hl _ _ _
  · obtain ⟨i, hi⟩ := Option.ne_none_iff_exists'.mp c4
    obtain ⟨s2, a1, a2⟩ := WholeRun.C97_records (f := scipyScheme fs b) ⟨k, n, Or.inl rfl⟩ h (Or.inl hu) fuel file r hr c1 c2 c3 i hi
    obtain ⟨s2', a1', a2'⟩ := WholeRun.C97_records (f := scipyScheme (fun i => change u (c i) (fs i)) b) ⟨k', n', Or.inl rfl⟩ h' (Or.inl hu) fuel' file' r' hr' c1' c2' c3' (u.t.scale * i)
      (by rw [hout, hi]; rfl)
    rw [e1] at a1
    rw [e1'] at a1'
    injection a1 with a1
    injection a1' with a1'
    subst a1 a1'
    rw [a2, a2', hdt, outputTimes_to, List.flatMap_map, List.map_flatMap]
    congr 1
    funext t
    refine filterMap_moved _ _ (fun q => ?_) ps
    unfold record
    rw [trajectory_scipy hf hv b, trajectory_scipy hf' hv' b]
    exact record_alike hl _ _ _

/-- C116. The same in JIT mode, whatever cells the particles remember. -/
theorem C116_jit {fs : Nat → Fld} (hf : ∀ i, Sound (fs i)) (hg : Grids fs) (u : Units) {c : Nat → ℚ} (hc : ∀ i, c i ≠ 0) {g : V → V} {b : Body V} (hb : Covariant u c g b)
    {user : RMap Unit (V × (Nat → Hint))} (hu : Deletes user) {o o' : Opts} (hdt : o'.dt = u.t.scale * o.dt) (hout : o'.outputdt = o.outputdt.map (u.t.scale * ·)) {S : ℚ} {N : ℕ}
    {ps : List (TP (V × (Nat → Hint)))} (hh : ∀ q ∈ ps, Hints fs q.2.vars.2)
    (h : Regular o S N ps) (h' : Regular o' (u.t.to S) N (ps.map (moved u (Prod.map g id)))) (k n fuel k' n' fuel' : ℕ) (file file' : Output.PFile) (r r' : Run (V × (Nat → Hint)))
    (hr : execute o (jitExec (kernel (jitScheme fs b)) user k n) fuel file ps = some r)
    (hr' : execute o' (jitExec (kernel (jitScheme (fun i => change u (c i) (fs i)) b)) user k' n') fuel' file' (ps.map (moved u (Prod.map g id))) = some r') :
    ∃ s s', r = .done s ∧ r' = .done s' ∧ (s'.ps.map core).map bare = ((s.ps.map core).map bare).map (read u g) ∧
      (o.hasFile = true → o'.hasFile = true → file.writeOndelete = false → file'.writeOndelete = false → file.lasttime ≠ some S → file'.lasttime ≠ some (u.t.to S) → o.outputdt ≠ none →
        (records s').map bare = ((records s).map bare).map (read u g)) := by
  have hf' : ∀ i, Sound (change u (c i) (fs i)) := fun i => sound_change u (c i) (hf i)
  have hg' := grids_change u c hg
  obtain ⟨val, hv⟩ := interpolates_exists hf
  obtain ⟨val', hv'⟩ := interpolates_exists hf'
  have hl := ref_alike hc hv hv' hb
  have hh' : ∀ q ∈ ps.map (moved u (Prod.map g id)), Hints (fun i => change u (c i) (fs i)) q.2.vars.2 := by
    intro q hq
    obtain ⟨p, hp, rfl⟩ := List.mem_map.mp hq
    exact hints_change u c (hh p hp)
  have hmap : (ps.map (moved u (Prod.map g id))).map strip = (ps.map strip).map (moved u g) := by rw [List.map_map, List.map_map]; rfl
  obtain ⟨s, e1, e2⟩ := C99_jit hf hg hv b h hh (Or.inl hu) k n fuel file r hr
  obtain ⟨s', e1', e2'⟩ := C99_jit hf' hg' hv' b h' hh' (Or.inl hu) k' n' fuel' file' r' hr'
  refine ⟨s, s', e1, e1', ?_, fun c1 c1' c2 c2' c3 c3' c4 => ?_⟩
  · rw [e2, e2', hdt, hmap]
    refine filterMap_moved _ _ (fun q => ?_) _
    rw [show u.t.to S + N * (u.t.scale * o.dt) = u.t.to (S + N * o.dt) by unfold Axis.to; ring]
    exact trajectory_alike hl _ _ _
  · obtain ⟨i, hi⟩ := Option.ne_none_iff_exists'.mp c4
    obtain ⟨s2, a1, a2⟩ := WholeRun.C97_records (f := jitScheme fs b) ⟨k, n, Or.inr rfl⟩ h (Or.inl hu) fuel file r hr c1 c2 c3 i hi
    obtain ⟨s2', a1', a2'⟩ := WholeRun.C97_records (f := jitScheme (fun i => change u (c i) (fs i)) b) ⟨k', n', Or.inr rfl⟩ h' (Or.inl hu) fuel' file' r' hr' c1' c2' c3' (u.t.scale * i)
      (by rw [hout, hi]; rfl)
    rw [e1] at a1
    rw [e1'] at a1'
    injection a1 with a1
    injection a1' with a1'
    subst a1 a1'
    rw [a2, a2', hdt, outputTimes_to, List.flatMap_map, List.map_flatMap, List.map_flatMap, List.map_flatMap]
    congr 1
    funext t
    rw [filterMap_bare _ (record (refScheme val' b) (u.t.scale * o.dt) (u.t.to t)) bare strip _ fun q hq => record_jit hf' hg' hv' b _ _ q (hh' q hq),
      filterMap_bare _ (record (refScheme val b) o.dt t) bare strip _ fun q hq => record_jit hf hg hv b _ _ q (hh q hq), hmap]
    exact filterMap_moved _ _ (fun q => record_alike hl _ _ _) _

/-- C116. With recovery functions that raise (the default), either both runs raise, or both return, with the same particles in the other units; in Scipy mode. -/
theorem C116_raise_scipy {fs : Nat → Fld} (hf : ∀ i, Sound (fs i)) (u : Units) {c : Nat → ℚ} (hc : ∀ i, c i ≠ 0) {g : V → V} {b : Body V} (hb : Covariant u c g b)
    {user : RMap Unit V} (hu : Raises user) {o o' : Opts} (hdt : o'.dt = u.t.scale * o.dt) {S : ℚ} {N : ℕ} {ps : List (TP V)}
    (h : Regular o S N ps) (h' : Regular o' (u.t.to S) N (ps.map (moved u g))) (k n fuel k' n' fuel' : ℕ) (file file' : Output.PFile) (r r' : Run V)
    (hr : execute o (scipyExec (kernel (scipyScheme fs b)) user k n) fuel file ps = some r)
    (hr' : execute o' (scipyExec (kernel (scipyScheme (fun i => change u (c i) (fs i)) b)) user k' n') fuel' file' (ps.map (moved u g)) = some r') :
    (∃ s s', r = .raised s ∧ r' = .raised s') ∨ (∃ s s', r = .done s ∧ r' = .done s' ∧ s'.ps.map core = (s.ps.map core).map (read u g) ∧ s.ps.length = ps.length) := by
  have hf' : ∀ i, Sound (change u (c i) (fs i)) := fun i => sound_change u (c i) (hf i)
  obtain ⟨val, hv⟩ := interpolates_exists hf
  obtain ⟨val', hv'⟩ := interpolates_exists hf'
  have hl := ref_alike hc hv hv' hb
  have ht : ∀ q, trajectory (refScheme val' b) o'.dt (u.t.to S + N * o'.dt) (moved u g q) = (trajectory (refScheme val b) o.dt (S + N * o.dt) q).map (read u g) := by
    intro q
    rw [hdt, show u.t.to S + N * (u.t.scale * o.dt) = u.t.to (S + N * o.dt) by unfold Axis.to; ring]
    exact trajectory_alike hl _ _ _
  by_cases d : ∀ q ∈ ps, (trajectory (refScheme val b) o.dt (S + N * o.dt) q).isSome
  · right
    have d' : ∀ q ∈ ps.map (moved u g), (trajectory (refScheme val' b) o'.dt (u.t.to S + N * o'.dt) q).isSome := by
      intro q hq
      obtain ⟨p, hp, rfl⟩ := List.mem_map.mp hq
      rw [ht, Option.isSome_map]
      exact d p hp
    obtain ⟨s, e1, e2⟩ := C99_scipy hf hv b h (Or.inr d) k n fuel file r hr
    obtain ⟨s', e1', e2'⟩ := C99_scipy hf' hv' b h' (Or.inr d') k' n' fuel' file' r' hr'
    refine ⟨s, s', e1, e1', ?_, ?_⟩
    · rw [e2, e2']
      exact filterMap_moved _ _ ht ps
    · have l := congrArg List.length e2
      rw [List.length_map, filterMap_length d] at l
      exact l
  · left
    push Not at d
    obtain ⟨q, hq, hn⟩ := d
    have hn' : trajectory (refScheme val b) o.dt (S + N * o.dt) q = none := by simpa using hn
    obtain ⟨s, e1⟩ := WholeRun.C97_raises (f := scipyScheme fs b) ⟨k, n, Or.inl rfl⟩ h hu ⟨q, hq, by rw [trajectory_scipy hf hv b]; exact hn'⟩ fuel file r hr
    obtain ⟨s', e1'⟩ := WholeRun.C97_raises (f := scipyScheme (fun i => change u (c i) (fs i)) b) ⟨k', n', Or.inl rfl⟩ h' hu
      ⟨moved u g q, List.mem_map_of_mem hq, by rw [trajectory_scipy hf' hv' b, ht, hn']; rfl⟩ fuel' file' r' hr'
    exact ⟨s, s', e1, e1'⟩

/-- C116. The same in JIT mode. -/
theorem C116_raise_jit {fs : Nat → Fld} (hf : ∀ i, Sound (fs i)) (hg : Grids fs) (u : Units) {c : Nat → ℚ} (hc : ∀ i, c i ≠ 0) {g : V → V} {b : Body V} (hb : Covariant u c g b)
    {user : RMap Unit (V × (Nat → Hint))} (hu : Raises user) {o o' : Opts} (hdt : o'.dt = u.t.scale * o.dt) {S : ℚ} {N : ℕ} {ps : List (TP (V × (Nat → Hint)))}
    (hh : ∀ q ∈ ps, Hints fs q.2.vars.2) (h : Regular o S N ps) (h' : Regular o' (u.t.to S) N (ps.map (moved u (Prod.map g id)))) (k n fuel k' n' fuel' : ℕ) (file file' : Output.PFile)
    (r r' : Run (V × (Nat → Hint)))
    (hr : execute o (jitExec (kernel (jitScheme fs b)) user k n) fuel file ps = some r)
    (hr' : execute o' (jitExec (kernel (jitScheme (fun i => change u (c i) (fs i)) b)) user k' n') fuel' file' (ps.map (moved u (Prod.map g id))) = some r') :
    (∃ s s', r = .raised s ∧ r' = .raised s') ∨
    (∃ s s', r = .done s ∧ r' = .done s' ∧ (s'.ps.map core).map bare = ((s.ps.map core).map bare).map (read u g) ∧ s.ps.length = ps.length) := by
  have hf' : ∀ i, Sound (change u (c i) (fs i)) := fun i => sound_change u (c i) (hf i)
  have hg' := grids_change u c hg
  obtain ⟨val, hv⟩ := interpolates_exists hf
  obtain ⟨val', hv'⟩ := interpolates_exists hf'
  have hl := ref_alike hc hv hv' hb
  have hh' : ∀ q ∈ ps.map (moved u (Prod.map g id)), Hints (fun i => change u (c i) (fs i)) q.2.vars.2 := by
    intro q hq
    obtain ⟨p, hp, rfl⟩ := List.mem_map.mp hq
    exact hints_change u c (hh p hp)
  have hmap : (ps.map (moved u (Prod.map g id))).map strip = (ps.map strip).map (moved u g) := by rw [List.map_map, List.map_map]; rfl
  have ht : ∀ q, trajectory (refScheme val' b) o'.dt (u.t.to S + N * o'.dt) (moved u g q) = (trajectory (refScheme val b) o.dt (S + N * o.dt) q).map (read u g) := by
    intro q
    rw [hdt, show u.t.to S + N * (u.t.scale * o.dt) = u.t.to (S + N * o.dt) by unfold Axis.to; ring]
    exact trajectory_alike hl _ _ _
  by_cases d : ∀ q ∈ ps, (trajectory (refScheme val b) o.dt (S + N * o.dt) (strip q)).isSome
  · right
    have d' : ∀ q ∈ ps.map (moved u (Prod.map g id)), (trajectory (refScheme val' b) o'.dt (u.t.to S + N * o'.dt) (strip q)).isSome := by
      intro q hq
      obtain ⟨p, hp, rfl⟩ := List.mem_map.mp hq
      show (trajectory (refScheme val' b) o'.dt (u.t.to S + N * o'.dt) (moved u g (strip p))).isSome
      rw [ht, Option.isSome_map]
      exact d p hp
    have d2 : ∀ q ∈ ps.map strip, (trajectory (refScheme val b) o.dt (S + N * o.dt) q).isSome := by
      intro q hq
      obtain ⟨p, hp, rfl⟩ := List.mem_map.mp hq
      exact d p hp
    obtain ⟨s, e1, e2⟩ := C99_jit hf hg hv b h hh (Or.inr d) k n fuel file r hr
    obtain ⟨s', e1', e2'⟩ := C99_jit hf' hg' hv' b h' hh' (Or.inr d') k' n' fuel' file' r' hr'
    refine ⟨s, s', e1, e1', ?_, ?_⟩
    · rw [e2, e2', hmap]
      exact filterMap_moved _ _ ht _
    · have l := congrArg List.length e2
      rw [List.length_map, List.length_map, filterMap_length d2, List.length_map] at l
      exact l
  · left
    push Not at d
    obtain ⟨q, hq, hn⟩ := d
    have hn' : trajectory (refScheme val b) o.dt (S + N * o.dt) (strip q) = none := by simpa using hn
    obtain ⟨s, e1⟩ := WholeRun.C97_raises (f := jitScheme fs b) ⟨k, n, Or.inr rfl⟩ h hu
      ⟨q, hq, by
        have := trajectory_jit hf hg hv b o.dt (S + N * o.dt) q (hh q hq)
        rw [hn', Option.map_eq_none_iff] at this
        exact this⟩ fuel file r hr
    obtain ⟨s', e1'⟩ := WholeRun.C97_raises (f := jitScheme (fun i => change u (c i) (fs i)) b) ⟨k', n', Or.inr rfl⟩ h' hu
      ⟨moved u (Prod.map g id) q, List.mem_map_of_mem hq, by
        have := trajectory_jit hf' hg' hv' b o'.dt (u.t.to S + N * o'.dt) (moved u (Prod.map g id) q) (hh' _ (List.mem_map_of_mem hq))
        rw [show strip (moved u (Prod.map g id) q) = moved u g (strip q) from rfl, ht, hn', Option.map_none, Option.map_eq_none_iff] at this
        exact this⟩ fuel' file' r' hr'
    exact ⟨s, s', e1, e1'⟩

/-- C116. The advection kernels compute the same in all units, if velocities are in units of length per time. -/
theorem C116_kernels (u : Units) : (∀ i, velocity u i ≠ 0) ∧ Covariant u (velocity u) (position u) GridRun.ee ∧ Covariant u (velocity u) (position u) GridRun.rk4 ∧
    Covariant u (velocity u) (position u) GridRun.rk4_3D :=
  ⟨velocity_ne u, covariant_ee u, covariant_rk4 u, covariant_rk4_3D u⟩

/-! ### An example -/

/-- Kilometres instead of metres, from another origin; latitudes from another origin; time in steps of a quarter of a second, since an earlier date. -/
def exUnits : Units := ⟨⟨1 / 1000, 7, by norm_num⟩, ⟨1, -90, by norm_num⟩, ⟨2, 3, by norm_num⟩, ⟨4, 100, by norm_num⟩⟩

def exOpts' : Opts := ⟨2, .endtime 108, true, some 4, none, none, fun _ _ => .pinf⟩

theorem exRegular' : Regular exOpts' (exUnits.t.to 0) 4 (GridRun.exParts.map (moved exUnits (Prod.map (position exUnits) id))) := by
  refine ⟨⟨_, List.mem_cons_self, rfl⟩, by norm_num [exOpts'], by norm_num [exOpts'], by norm_num [exOpts', exUnits, Axis.to], ?_, ?_, ?_, ?_, ?_, ?_⟩
  · intro i hi
    simp only [exOpts', Option.some.injEq] at hi
    exact ⟨2, by norm_num, by rw [← hi]; norm_num [exOpts']⟩
  · intro i hi; cases hi
  · intro i hi; cases hi
  · intro i t; show (0 : ℚ) < 2; norm_num
  · intro i t q hq; cases hq
  · intro q hq
    simp only [GridRun.exParts, List.map_cons, List.map_nil, List.mem_cons, List.not_mem_nil, or_false] at hq
    rcases hq with rfl | rfl | rfl
    · exact ⟨0, by norm_num [exOpts', moved]⟩
    · exact ⟨0, by norm_num [exOpts', moved]⟩
    · exact ⟨2, by norm_num [exOpts', moved, exUnits, Axis.to]⟩

/-- The hypotheses can be met: the runs return in both modes, one particle of three has left the domain in both units, and there are records. -/
example : (∀ i, Sound (GridRun.exFs i)) ∧ Grids GridRun.exFs ∧ Regular GridRun.exOpts 0 4 GridRun.exParts ∧
    Regular exOpts' (exUnits.t.to 0) 4 (GridRun.exParts.map (moved exUnits (Prod.map (position exUnits) id))) ∧
    exOpts'.dt = exUnits.t.scale * GridRun.exOpts.dt ∧ exOpts'.outputdt = GridRun.exOpts.outputdt.map (exUnits.t.scale * ·) ∧
    (match execute GridRun.exOpts (scipyExec (kernel (scipyScheme GridRun.exFs GridRun.rk4)) WholeRun.exDelete 9 2) 9 WholeRun.exFile (GridRun.exParts.map strip),
      execute exOpts' (jitExec (kernel (jitScheme (fun i => change exUnits (velocity exUnits i) (GridRun.exFs i)) GridRun.rk4)) WholeRun.exDelete 9 2) 9 WholeRun.exFile
        (GridRun.exParts.map (moved exUnits (Prod.map (position exUnits) id))) with
    | some (.done s), some (.done s') => decide ((s'.ps.map core).map bare = (s.ps.map core).map (read exUnits (position exUnits)) ∧
        (records s').map bare = (records s).map (read exUnits (position exUnits)) ∧ s'.ps.map (fun q => (q.1, q.2.time)) = [(0, 108), (2, 108)] ∧ 5 ≤ (records s).length)
    | _, _ => false) = true :=
  ⟨GridRun.exSound, GridRun.exGrids, GridRun.exRegular, exRegular', by norm_num [exOpts', exUnits, GridRun.exOpts], by norm_num [exOpts', exUnits, GridRun.exOpts], by decide +kernel⟩

end Parcels.UnitRun
