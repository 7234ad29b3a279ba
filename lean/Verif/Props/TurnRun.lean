import Verif.Proofs.TurnRun
import Verif.Props.SphereRun
import Verif.Props.UnitRun

/-!
C117: on spherical meshes, runs do not depend on the meridian from which longitudes are counted, nor on origins and units of depth and time.
-/

namespace Parcels.TurnRun

open Search Interp
open KernelLoop (Exc)
open WholeRun (Scheme Opts Run Exec St execute scipyExec jitExec kernel solution trajectory record records outputTimes core Regular Deletes Raises)
open Recovery (TP RMap)
open GridRun (Fld Hint Body Prog refScheme bare strip filterMap_bare regular_strip filterMap_length)
open SphereRun (SFld Sound SpaceValue FieldValue Places Regional Hints Grids Interpolates eval cEval scipyScheme jitScheme trajectory_scipy trajectory_jit record_scipy record_jit interpolates_exists
  C101_sample C101_scipy C101_jit exPac exPacU exPacOpts exPacParts exCos)
open UnitRun (Units Axis change moved read Covariant Alike position velocity filterMap_moved trajectory_alike record_alike outputTimes_to)

variable {V : Type}

/-! ### Samples -/

/-- C117. With longitudes counted from another meridian, a sample at the same place and time, among the longitudes at which both modes look, has the same value, and fails where it failed; in both modes, whatever cells
of the grid the particle remembers. -/
theorem C117_sample {f : SFld} {U : List ℚ} (hf : Sound f.fld U) (cosd : ℚ → ℚ) {u : Units} (ht : Turn u) {c : ℚ} (hc : c ≠ 0) (t z y x w : ℚ) (hx : Places f.fld.grid U x) (h : Hint)
    (hxi : h.xi + 1 < f.fld.grid.lon.length) (hyi : h.yi + 1 < f.fld.grid.lat.length) (hzi : h.zi ≤ f.fld.grid.depth.length - 1) (hti : h.ti < f.fld.time.length) :
    (eval cosd (turn u c f) (u.t.to t) (u.z.to z) y (u.x.to x) = .ok (c * w) ↔ eval cosd f t z y x = .ok w) ∧
    ((∃ h', cEval cosd (turn u c f) (u.t.to t) (u.z.to z) y (u.x.to x) h = .ok (c * w, h')) ↔ ∃ h', cEval cosd f t z y x h = .ok (w, h')) := by
  obtain ⟨a1, a2⟩ := C101_sample hf cosd t z y x w hx h hxi hyi hzi hti
  obtain ⟨b1, b2⟩ := C101_sample (f := turn u c f) (sound_turn u ht c hf) cosd (u.t.to t) (u.z.to z) y (u.x.to x) (c * w) ((places_turn u ht c f.fld (eastward_ne hf.sphere.lon) x).mpr hx) h
    (by show _ < (f.fld.grid.lon.map u.x.to).length; rwa [List.length_map]) (by show _ < (f.fld.grid.lat.map u.y.to).length; rwa [List.length_map])
    (by show _ ≤ (f.fld.grid.depth.map u.z.to).length - 1; rwa [List.length_map]) (by show _ < ((f.fld.time.map u.t.to).length : ℤ); rwa [List.length_map])
  have := value_turn cosd u ht c hc f t z y x w
  rw [to_lat u ht] at this
  rw [a1, a2, b1, b2]
  exact ⟨this, this⟩

/-! ### Runs -/

/-- C117. Runs in Scipy mode on regional grids with recovery functions that delete: with longitudes of grids and particles counted from another meridian (and depths and times in other units and from other origins), all
particles end, and are recorded, at the same places and times, in these coordinates. -/
theorem C117_scipy {fs : Nat → SFld} {U : Nat → List ℚ} (hf : ∀ i, Sound (fs i).fld (U i)) (hreg : ∀ i, Regional (fs i).fld.grid (U i)) (cosd : ℚ → ℚ) {u : Units} (ht : Turn u) {c : Nat → ℚ} (hc : ∀ i, c i ≠ 0) {g : V → V} {b : Body V} (hb : Covariant u c g b)
    {user : RMap Unit V} (hu : Deletes user) {o o' : Opts} (hdt : o'.dt = u.t.scale * o.dt) (hout : o'.outputdt = o.outputdt.map (u.t.scale * ·)) {S : ℚ} {N : ℕ} {ps : List (TP V)}
    (h : Regular o S N ps) (h' : Regular o' (u.t.to S) N (ps.map (moved u g))) (k n fuel k' n' fuel' : ℕ) (file file' : Output.PFile) (r r' : Run V)
    (hr : execute o (scipyExec (kernel (scipyScheme cosd fs b)) user k n) fuel file ps = some r)
    (hr' : execute o' (scipyExec (kernel (scipyScheme cosd (fun i => turn u (c i) (fs i)) b)) user k' n') fuel' file' (ps.map (moved u g)) = some r') :
    ∃ s s', r = .done s ∧ r' = .done s' ∧ s'.ps.map core = (s.ps.map core).map (read u g) ∧
      (o.hasFile = true → o'.hasFile = true → file.writeOndelete = false → file'.writeOndelete = false → file.lasttime ≠ some S → file'.lasttime ≠ some (u.t.to S) → o.outputdt ≠ none →
        records s' = (records s).map (read u g)) := by
  have hf' : ∀ i, Sound (turn u (c i) (fs i)).fld ((U i).map u.x.to) := fun i => sound_turn u ht (c i) (hf i)
  have hreg' : ∀ i, Regional (turn u (c i) (fs i)).fld.grid ((U i).map u.x.to) := fun i => regional_turn u ht (c i) (eastward_ne (hf i).sphere.lon) (hreg i)
  obtain ⟨val, hv⟩ := interpolates_exists hf cosd
  obtain ⟨val', hv'⟩ := interpolates_exists hf' cosd
  have hl := ref_turn ht hc hf hv hv' hb
  obtain ⟨s, e1, e2⟩ := C101_scipy hf hv b h (Or.inl ⟨hu, hreg⟩) k n fuel file r hr
  obtain ⟨s', e1', e2'⟩ := C101_scipy hf' hv' b h' (Or.inl ⟨hu, hreg'⟩) k' n' fuel' file' r' hr'
  refine ⟨s, s', e1, e1', ?_, fun c1 c1' c2 c2' c3 c3' c4 => ?_⟩
  · rw [e2, e2', hdt]
    refine filterMap_moved _ _ (fun q => ?_) ps
    rw [show u.t.to S + N * (u.t.scale * o.dt) = u.t.to (S + N * o.dt) by unfold Axis.to; ring]
    exact trajectory_alike hl _ _ _
  · obtain ⟨i, hi⟩ := Option.ne_none_iff_exists'.mp c4
    obtain ⟨s2, a1, a2⟩ := WholeRun.C97_records (f := scipyScheme cosd fs b) ⟨k, n, Or.inl rfl⟩ h (Or.inl hu) fuel file r hr c1 c2 c3 i hi
    obtain ⟨s2', a1', a2'⟩ := WholeRun.C97_records (f := scipyScheme cosd (fun i => turn u (c i) (fs i)) b) ⟨k', n', Or.inl rfl⟩ h' (Or.inl hu) fuel' file' r' hr' c1' c2' c3' (u.t.scale * i)
      (by rw [hout, hi]; rfl)
    rw [e1] at a1
    rw [e1'] at a1'
    injection a1 with a1
    injection a1' with a1'
    subst a1 a1'
    rw [a2, a2', hdt, outputTimes_to, List.flatMap_map, List.map_flatMap]
    congr 1
    funext t
    refine filterMap_moved _ _ (fun q => ?_) ps
    rw [record_scipy hf hv b _ _ _ hreg, record_scipy hf' hv' b _ _ _ hreg']
    exact record_alike hl _ _ _

/-- C117. The same in JIT mode, whatever cells the particles remember. -/
theorem C117_jit {fs : Nat → SFld} {U : Nat → List ℚ} (hf : ∀ i, Sound (fs i).fld (U i)) (hreg : ∀ i, Regional (fs i).fld.grid (U i)) (hg : Grids fs) (cosd : ℚ → ℚ) {u : Units} (ht : Turn u) {c : Nat → ℚ} (hc : ∀ i, c i ≠ 0) {g : V → V} {b : Body V} (hb : Covariant u c g b)
    {user : RMap Unit (V × (Nat → Hint))} (hu : Deletes user) {o o' : Opts} (hdt : o'.dt = u.t.scale * o.dt) (hout : o'.outputdt = o.outputdt.map (u.t.scale * ·)) {S : ℚ} {N : ℕ}
    {ps : List (TP (V × (Nat → Hint)))} (hh : ∀ q ∈ ps, Hints fs q.2.vars.2)
    (h : Regular o S N ps) (h' : Regular o' (u.t.to S) N (ps.map (moved u (Prod.map g id)))) (k n fuel k' n' fuel' : ℕ) (file file' : Output.PFile) (r r' : Run (V × (Nat → Hint)))
    (hr : execute o (jitExec (kernel (jitScheme cosd fs b)) user k n) fuel file ps = some r)
    (hr' : execute o' (jitExec (kernel (jitScheme cosd (fun i => turn u (c i) (fs i)) b)) user k' n') fuel' file' (ps.map (moved u (Prod.map g id))) = some r') :
    ∃ s s', r = .done s ∧ r' = .done s' ∧ (s'.ps.map core).map bare = ((s.ps.map core).map bare).map (read u g) ∧
      (o.hasFile = true → o'.hasFile = true → file.writeOndelete = false → file'.writeOndelete = false → file.lasttime ≠ some S → file'.lasttime ≠ some (u.t.to S) → o.outputdt ≠ none →
        (records s').map bare = ((records s).map bare).map (read u g)) := by
  have hf' : ∀ i, Sound (turn u (c i) (fs i)).fld ((U i).map u.x.to) := fun i => sound_turn u ht (c i) (hf i)
  have hreg' : ∀ i, Regional (turn u (c i) (fs i)).fld.grid ((U i).map u.x.to) := fun i => regional_turn u ht (c i) (eastward_ne (hf i).sphere.lon) (hreg i)
  have hg' := grids_turn u c hg
  obtain ⟨val, hv⟩ := interpolates_exists hf cosd
  obtain ⟨val', hv'⟩ := interpolates_exists hf' cosd
  have hl := ref_turn ht hc hf hv hv' hb
  have hh' : ∀ q ∈ ps.map (moved u (Prod.map g id)), Hints (fun i => turn u (c i) (fs i)) q.2.vars.2 := by
    intro q hq
    obtain ⟨p, hp, rfl⟩ := List.mem_map.mp hq
    exact hints_turn u c (hh p hp)
  have hmap : (ps.map (moved u (Prod.map g id))).map strip = (ps.map strip).map (moved u g) := by rw [List.map_map, List.map_map]; rfl
  obtain ⟨s, e1, e2⟩ := C101_jit hf hg hv b h hh (Or.inl ⟨hu, hreg⟩) k n fuel file r hr
  obtain ⟨s', e1', e2'⟩ := C101_jit hf' hg' hv' b h' hh' (Or.inl ⟨hu, hreg'⟩) k' n' fuel' file' r' hr'
  refine ⟨s, s', e1, e1', ?_, fun c1 c1' c2 c2' c3 c3' c4 => ?_⟩
  · rw [e2, e2', hdt, hmap]
    refine filterMap_moved _ _ (fun q => ?_) _
    rw [show u.t.to S + N * (u.t.scale * o.dt) = u.t.to (S + N * o.dt) by unfold Axis.to; ring]
    exact trajectory_alike hl _ _ _
  · obtain ⟨i, hi⟩ := Option.ne_none_iff_exists'.mp c4
    obtain ⟨s2, a1, a2⟩ := WholeRun.C97_records (f := jitScheme cosd fs b) ⟨k, n, Or.inr rfl⟩ h (Or.inl hu) fuel file r hr c1 c2 c3 i hi
    obtain ⟨s2', a1', a2'⟩ := WholeRun.C97_records (f := jitScheme cosd (fun i => turn u (c i) (fs i)) b) ⟨k', n', Or.inr rfl⟩ h' (Or.inl hu) fuel' file' r' hr' c1' c2' c3' (u.t.scale * i)
      (by rw [hout, hi]; rfl)
    rw [e1] at a1
    rw [e1'] at a1'
    injection a1 with a1
    injection a1' with a1'
    subst a1 a1'
    rw [a2, a2', hdt, outputTimes_to, List.flatMap_map, List.map_flatMap, List.map_flatMap, List.map_flatMap]
    congr 1
    funext t
    rw [filterMap_bare _ (record (refScheme val' b) (u.t.scale * o.dt) (u.t.to t)) bare strip _ fun q hq => record_jit hf' hg' hv' b _ _ q (hh' q hq) hreg',
      filterMap_bare _ (record (refScheme val b) o.dt t) bare strip _ fun q hq => record_jit hf hg hv b _ _ q (hh q hq) hreg, hmap]
    exact filterMap_moved _ _ (fun q => record_alike hl _ _ _) _

/-- C117. With recovery functions that raise (the default), either both runs raise, or both return, with the same particles in the new coordinates; in Scipy mode. -/
theorem C117_raise_scipy {fs : Nat → SFld} {U : Nat → List ℚ} (hf : ∀ i, Sound (fs i).fld (U i)) (hreg : ∀ i, Regional (fs i).fld.grid (U i)) (cosd : ℚ → ℚ) {u : Units} (ht : Turn u) {c : Nat → ℚ} (hc : ∀ i, c i ≠ 0) {g : V → V} {b : Body V} (hb : Covariant u c g b)
    {user : RMap Unit V} (hu : Raises user) {o o' : Opts} (hdt : o'.dt = u.t.scale * o.dt) {S : ℚ} {N : ℕ} {ps : List (TP V)}
    (h : Regular o S N ps) (h' : Regular o' (u.t.to S) N (ps.map (moved u g))) (k n fuel k' n' fuel' : ℕ) (file file' : Output.PFile) (r r' : Run V)
    (hr : execute o (scipyExec (kernel (scipyScheme cosd fs b)) user k n) fuel file ps = some r)
    (hr' : execute o' (scipyExec (kernel (scipyScheme cosd (fun i => turn u (c i) (fs i)) b)) user k' n') fuel' file' (ps.map (moved u g)) = some r') :
    (∃ s s', r = .raised s ∧ r' = .raised s') ∨ (∃ s s', r = .done s ∧ r' = .done s' ∧ s'.ps.map core = (s.ps.map core).map (read u g) ∧ s.ps.length = ps.length) := by
  have hf' : ∀ i, Sound (turn u (c i) (fs i)).fld ((U i).map u.x.to) := fun i => sound_turn u ht (c i) (hf i)
  have hreg' : ∀ i, Regional (turn u (c i) (fs i)).fld.grid ((U i).map u.x.to) := fun i => regional_turn u ht (c i) (eastward_ne (hf i).sphere.lon) (hreg i)
  obtain ⟨val, hv⟩ := interpolates_exists hf cosd
  obtain ⟨val', hv'⟩ := interpolates_exists hf' cosd
  have hl := ref_turn ht hc hf hv hv' hb
  have htr : ∀ q, trajectory (refScheme val' b) o'.dt (u.t.to S + N * o'.dt) (moved u g q) = (trajectory (refScheme val b) o.dt (S + N * o.dt) q).map (read u g) := by
    intro q
    rw [hdt, show u.t.to S + N * (u.t.scale * o.dt) = u.t.to (S + N * o.dt) by unfold Axis.to; ring]
    exact trajectory_alike hl _ _ _
  by_cases d : ∀ q ∈ ps, (trajectory (refScheme val b) o.dt (S + N * o.dt) q).isSome
  · right
    have d' : ∀ q ∈ ps.map (moved u g), (trajectory (refScheme val' b) o'.dt (u.t.to S + N * o'.dt) q).isSome := by
      intro q hq
      obtain ⟨p, hp, rfl⟩ := List.mem_map.mp hq
      rw [htr, Option.isSome_map]
      exact d p hp
    obtain ⟨s, e1, e2⟩ := C101_scipy hf hv b h (Or.inr d) k n fuel file r hr
    obtain ⟨s', e1', e2'⟩ := C101_scipy hf' hv' b h' (Or.inr d') k' n' fuel' file' r' hr'
    refine ⟨s, s', e1, e1', ?_, ?_⟩
    · rw [e2, e2']
      exact filterMap_moved _ _ htr ps
    · have l := congrArg List.length e2
      rw [List.length_map, filterMap_length d] at l
      exact l
  · left
    push Not at d
    obtain ⟨q, hq, hn⟩ := d
    have hn' : trajectory (refScheme val b) o.dt (S + N * o.dt) q = none := by simpa using hn
    obtain ⟨s, e1⟩ := WholeRun.C97_raises (f := scipyScheme cosd fs b) ⟨k, n, Or.inl rfl⟩ h hu ⟨q, hq, by rw [trajectory_scipy hf hv b _ _ _ (Or.inl hreg)]; exact hn'⟩ fuel file r hr
    obtain ⟨s', e1'⟩ := WholeRun.C97_raises (f := scipyScheme cosd (fun i => turn u (c i) (fs i)) b) ⟨k', n', Or.inl rfl⟩ h' hu
      ⟨moved u g q, List.mem_map_of_mem hq, by rw [trajectory_scipy hf' hv' b _ _ _ (Or.inl hreg'), htr, hn']; rfl⟩ fuel' file' r' hr'
    exact ⟨s, s', e1, e1'⟩

/-- C117. The same in JIT mode. -/
theorem C117_raise_jit {fs : Nat → SFld} {U : Nat → List ℚ} (hf : ∀ i, Sound (fs i).fld (U i)) (hreg : ∀ i, Regional (fs i).fld.grid (U i)) (hg : Grids fs) (cosd : ℚ → ℚ) {u : Units} (ht : Turn u) {c : Nat → ℚ} (hc : ∀ i, c i ≠ 0) {g : V → V} {b : Body V} (hb : Covariant u c g b)
    {user : RMap Unit (V × (Nat → Hint))} (hu : Raises user) {o o' : Opts} (hdt : o'.dt = u.t.scale * o.dt) {S : ℚ} {N : ℕ} {ps : List (TP (V × (Nat → Hint)))}
    (hh : ∀ q ∈ ps, Hints fs q.2.vars.2) (h : Regular o S N ps) (h' : Regular o' (u.t.to S) N (ps.map (moved u (Prod.map g id)))) (k n fuel k' n' fuel' : ℕ) (file file' : Output.PFile)
    (r r' : Run (V × (Nat → Hint)))
    (hr : execute o (jitExec (kernel (jitScheme cosd fs b)) user k n) fuel file ps = some r)
    (hr' : execute o' (jitExec (kernel (jitScheme cosd (fun i => turn u (c i) (fs i)) b)) user k' n') fuel' file' (ps.map (moved u (Prod.map g id))) = some r') :
    (∃ s s', r = .raised s ∧ r' = .raised s') ∨
    (∃ s s', r = .done s ∧ r' = .done s' ∧ (s'.ps.map core).map bare = ((s.ps.map core).map bare).map (read u g) ∧ s.ps.length = ps.length) := by
  have hf' : ∀ i, Sound (turn u (c i) (fs i)).fld ((U i).map u.x.to) := fun i => sound_turn u ht (c i) (hf i)
  have hreg' : ∀ i, Regional (turn u (c i) (fs i)).fld.grid ((U i).map u.x.to) := fun i => regional_turn u ht (c i) (eastward_ne (hf i).sphere.lon) (hreg i)
  have hg' := grids_turn u c hg
  obtain ⟨val, hv⟩ := interpolates_exists hf cosd
  obtain ⟨val', hv'⟩ := interpolates_exists hf' cosd
  have hl := ref_turn ht hc hf hv hv' hb
  have hh' : ∀ q ∈ ps.map (moved u (Prod.map g id)), Hints (fun i => turn u (c i) (fs i)) q.2.vars.2 := by
    intro q hq
    obtain ⟨p, hp, rfl⟩ := List.mem_map.mp hq
    exact hints_turn u c (hh p hp)
  have hmap : (ps.map (moved u (Prod.map g id))).map strip = (ps.map strip).map (moved u g) := by rw [List.map_map, List.map_map]; rfl
  have htr : ∀ q, trajectory (refScheme val' b) o'.dt (u.t.to S + N * o'.dt) (moved u g q) = (trajectory (refScheme val b) o.dt (S + N * o.dt) q).map (read u g) := by
    intro q
    rw [hdt, show u.t.to S + N * (u.t.scale * o.dt) = u.t.to (S + N * o.dt) by unfold Axis.to; ring]
    exact trajectory_alike hl _ _ _
  by_cases d : ∀ q ∈ ps, (trajectory (refScheme val b) o.dt (S + N * o.dt) (strip q)).isSome
  · right
    have d' : ∀ q ∈ ps.map (moved u (Prod.map g id)), (trajectory (refScheme val' b) o'.dt (u.t.to S + N * o'.dt) (strip q)).isSome := by
      intro q hq
      obtain ⟨p, hp, rfl⟩ := List.mem_map.mp hq
      show (trajectory (refScheme val' b) o'.dt (u.t.to S + N * o'.dt) (moved u g (strip p))).isSome
      rw [htr, Option.isSome_map]
      exact d p hp
    have d2 : ∀ q ∈ ps.map strip, (trajectory (refScheme val b) o.dt (S + N * o.dt) q).isSome := by
      intro q hq
      obtain ⟨p, hp, rfl⟩ := List.mem_map.mp hq
      exact d p hp
    obtain ⟨s, e1, e2⟩ := C101_jit hf hg hv b h hh (Or.inr d) k n fuel file r hr
    obtain ⟨s', e1', e2'⟩ := C101_jit hf' hg' hv' b h' hh' (Or.inr d') k' n' fuel' file' r' hr'
    refine ⟨s, s', e1, e1', ?_, ?_⟩
    · rw [e2, e2', hmap]
      exact filterMap_moved _ _ htr _
    · have l := congrArg List.length e2
      rw [List.length_map, List.length_map, filterMap_length d2, List.length_map] at l
      exact l
  · left
    push Not at d
    obtain ⟨q, hq, hn⟩ := d
    have hn' : trajectory (refScheme val b) o.dt (S + N * o.dt) (strip q) = none := by simpa using hn
    obtain ⟨s, e1⟩ := WholeRun.C97_raises (f := jitScheme cosd fs b) ⟨k, n, Or.inr rfl⟩ h hu
      ⟨q, hq, by
        have := trajectory_jit hf hg hv b o.dt (S + N * o.dt) q (hh q hq) (Or.inl hreg)
        rw [hn', Option.map_eq_none_iff] at this
        exact this⟩ fuel file r hr
    obtain ⟨s', e1'⟩ := WholeRun.C97_raises (f := jitScheme cosd (fun i => turn u (c i) (fs i)) b) ⟨k', n', Or.inr rfl⟩ h' hu
      ⟨moved u (Prod.map g id) q, List.mem_map_of_mem hq, by
        have := trajectory_jit hf' hg' hv' b o'.dt (u.t.to S + N * o'.dt) (moved u (Prod.map g id) q) (hh' _ (List.mem_map_of_mem hq)) (Or.inl hreg')
        rw [show strip (moved u (Prod.map g id) q) = moved u g (strip q) from rfl, htr, hn', Option.map_none, Option.map_eq_none_iff] at this
        exact this⟩ fuel' file' r' hr'
    exact ⟨s, s', e1, e1'⟩

/-- C117. On all grids, also those that go round the globe, with any recovery functions: if no trajectory leaves the longitudes at which both modes look, and the data, then all particles end at the same places and
times in the new coordinates; in Scipy mode. -/
theorem C117_complete_scipy {fs : Nat → SFld} {U : Nat → List ℚ} (hf : ∀ i, Sound (fs i).fld (U i)) {cosd : ℚ → ℚ} {val : Nat → (t z y x : ℚ) → Option ℚ} (hv : Interpolates cosd fs U val) {u : Units} (ht : Turn u)
    {c : Nat → ℚ} (hc : ∀ i, c i ≠ 0) {g : V → V} {b : Body V} (hb : Covariant u c g b) {user : RMap Unit V} {o o' : Opts} (hdt : o'.dt = u.t.scale * o.dt) {S : ℚ} {N : ℕ} {ps : List (TP V)}
    (h : Regular o S N ps) (h' : Regular o' (u.t.to S) N (ps.map (moved u g))) (hok : ∀ q ∈ ps, (trajectory (refScheme val b) o.dt (S + N * o.dt) q).isSome)
    (k n fuel k' n' fuel' : ℕ) (file file' : Output.PFile) (r r' : Run V)
    (hr : execute o (scipyExec (kernel (scipyScheme cosd fs b)) user k n) fuel file ps = some r)
    (hr' : execute o' (scipyExec (kernel (scipyScheme cosd (fun i => turn u (c i) (fs i)) b)) user k' n') fuel' file' (ps.map (moved u g)) = some r') :
    ∃ s s', r = .done s ∧ r' = .done s' ∧ s'.ps.map core = (s.ps.map core).map (read u g) ∧ s.ps.length = ps.length := by
  have hf' : ∀ i, Sound (turn u (c i) (fs i)).fld ((U i).map u.x.to) := fun i => sound_turn u ht (c i) (hf i)
  obtain ⟨val', hv'⟩ := interpolates_exists hf' cosd
  have hl := ref_turn ht hc hf hv hv' hb
  have htr : ∀ q, trajectory (refScheme val' b) o'.dt (u.t.to S + N * o'.dt) (moved u g q) = (trajectory (refScheme val b) o.dt (S + N * o.dt) q).map (read u g) := by
    intro q
    rw [hdt, show u.t.to S + N * (u.t.scale * o.dt) = u.t.to (S + N * o.dt) by unfold Axis.to; ring]
    exact trajectory_alike hl _ _ _
  have d' : ∀ q ∈ ps.map (moved u g), (trajectory (refScheme val' b) o'.dt (u.t.to S + N * o'.dt) q).isSome := by
    intro q hq
    obtain ⟨p, hp, rfl⟩ := List.mem_map.mp hq
    rw [htr, Option.isSome_map]
    exact hok p hp
  obtain ⟨s, e1, e2⟩ := C101_scipy hf hv b h (Or.inr hok) k n fuel file r hr
  obtain ⟨s', e1', e2'⟩ := C101_scipy hf' hv' b h' (Or.inr d') k' n' fuel' file' r' hr'
  refine ⟨s, s', e1, e1', ?_, ?_⟩
  · rw [e2, e2']
    exact filterMap_moved _ _ htr ps
  · have l := congrArg List.length e2
    rw [List.length_map, filterMap_length hok] at l
    exact l

/-- C117. The same in JIT mode. -/
theorem C117_complete_jit {fs : Nat → SFld} {U : Nat → List ℚ} (hf : ∀ i, Sound (fs i).fld (U i)) (hg : Grids fs) {cosd : ℚ → ℚ} {val : Nat → (t z y x : ℚ) → Option ℚ} (hv : Interpolates cosd fs U val) {u : Units}
    (ht : Turn u) {c : Nat → ℚ} (hc : ∀ i, c i ≠ 0) {g : V → V} {b : Body V} (hb : Covariant u c g b) {user : RMap Unit (V × (Nat → Hint))} {o o' : Opts} (hdt : o'.dt = u.t.scale * o.dt) {S : ℚ} {N : ℕ}
    {ps : List (TP (V × (Nat → Hint)))} (hh : ∀ q ∈ ps, Hints fs q.2.vars.2)
    (h : Regular o S N ps) (h' : Regular o' (u.t.to S) N (ps.map (moved u (Prod.map g id)))) (hok : ∀ q ∈ ps, (trajectory (refScheme val b) o.dt (S + N * o.dt) (strip q)).isSome)
    (k n fuel k' n' fuel' : ℕ) (file file' : Output.PFile) (r r' : Run (V × (Nat → Hint)))
    (hr : execute o (jitExec (kernel (jitScheme cosd fs b)) user k n) fuel file ps = some r)
    (hr' : execute o' (jitExec (kernel (jitScheme cosd (fun i => turn u (c i) (fs i)) b)) user k' n') fuel' file' (ps.map (moved u (Prod.map g id))) = some r') :
    ∃ s s', r = .done s ∧ r' = .done s' ∧ (s'.ps.map core).map bare = ((s.ps.map core).map bare).map (read u g) ∧ s.ps.length = ps.length := by
  have hf' : ∀ i, Sound (turn u (c i) (fs i)).fld ((U i).map u.x.to) := fun i => sound_turn u ht (c i) (hf i)
  have hg' := grids_turn u c hg
  obtain ⟨val', hv'⟩ := interpolates_exists hf' cosd
  have hl := ref_turn ht hc hf hv hv' hb
  have hh' : ∀ q ∈ ps.map (moved u (Prod.map g id)), Hints (fun i => turn u (c i) (fs i)) q.2.vars.2 := by
    intro q hq
    obtain ⟨p, hp, rfl⟩ := List.mem_map.mp hq
    exact hints_turn u c (hh p hp)
  have hmap : (ps.map (moved u (Prod.map g id))).map strip = (ps.map strip).map (moved u g) := by rw [List.map_map, List.map_map]; rfl
  have htr : ∀ q, trajectory (refScheme val' b) o'.dt (u.t.to S + N * o'.dt) (moved u g q) = (trajectory (refScheme val b) o.dt (S + N * o.dt) q).map (read u g) := by
    intro q
    rw [hdt, show u.t.to S + N * (u.t.scale * o.dt) = u.t.to (S + N * o.dt) by unfold Axis.to; ring]
    exact trajectory_alike hl _ _ _
  have d' : ∀ q ∈ ps.map (moved u (Prod.map g id)), (trajectory (refScheme val' b) o'.dt (u.t.to S + N * o'.dt) (strip q)).isSome := by
    intro q hq
    obtain ⟨p, hp, rfl⟩ := List.mem_map.mp hq
    show (trajectory (refScheme val' b) o'.dt (u.t.to S + N * o'.dt) (moved u g (strip p))).isSome
    rw [htr, Option.isSome_map]
    exact hok p hp
  have d2 : ∀ q ∈ ps.map strip, (trajectory (refScheme val b) o.dt (S + N * o.dt) q).isSome := by
    intro q hq
    obtain ⟨p, hp, rfl⟩ := List.mem_map.mp hq
    exact hok p hp
  obtain ⟨s, e1, e2⟩ := C101_jit hf hg hv b h hh (Or.inr hok) k n fuel file r hr
  obtain ⟨s', e1', e2'⟩ := C101_jit hf' hg' hv' b h' hh' (Or.inr d') k' n' fuel' file' r' hr'
  refine ⟨s, s', e1, e1', ?_, ?_⟩
  · rw [e2, e2', hmap]
    exact filterMap_moved _ _ htr _
  · have l := congrArg List.length e2
    rw [List.length_map, List.length_map, filterMap_length d2, List.length_map] at l
    exact l

/-- C117. The advection kernels may be used: they compute the same in the new coordinates. -/
theorem C117_kernels (u : Units) : (∀ i, velocity u i ≠ 0) ∧ Covariant u (velocity u) (position u) GridRun.ee ∧ Covariant u (velocity u) (position u) GridRun.rk4 ∧
    Covariant u (velocity u) (position u) GridRun.rk4_3D := UnitRun.C116_kernels u

/-! ### An example -/

/-- Longitudes from 180 degrees west of the meridian they are counted from, the rest as it is. -/
def exTurn : Units := ⟨⟨1, -180, by norm_num⟩, ⟨1, 0, by norm_num⟩, ⟨1, 0, by norm_num⟩, ⟨1, 0, by norm_num⟩⟩

/-- The hypotheses can be met: with a regional grid across the date line, and the same grid seen from there, the runs return in both modes, one particle of two has left the domain in both, and there are records. -/
example : (∀ i, Sound (exPac i).fld exPacU) ∧ (∀ i, Regional (exPac i).fld.grid exPacU) ∧ Grids exPac ∧ Turn exTurn ∧ Regular exPacOpts 0 4 exPacParts ∧
    Regular exPacOpts (exTurn.t.to 0) 4 (exPacParts.map (moved exTurn (Prod.map (position exTurn) id))) ∧ (∀ q ∈ exPacParts, Hints exPac q.2.vars.2) ∧
    (match execute exPacOpts (scipyExec (kernel (scipyScheme exCos exPac GridRun.rk4)) WholeRun.exDelete 9 2) 9 WholeRun.exFile (exPacParts.map strip),
      execute exPacOpts (jitExec (kernel (jitScheme exCos (fun i => turn exTurn (velocity exTurn i) (exPac i)) GridRun.rk4)) WholeRun.exDelete 9 2) 9 WholeRun.exFile
        (exPacParts.map (moved exTurn (Prod.map (position exTurn) id))) with
    | some (.done s), some (.done s') => decide ((s'.ps.map core).map bare = (s.ps.map core).map (read exTurn (position exTurn)) ∧
        (records s').map bare = (records s).map (read exTurn (position exTurn))) && decide ((s'.ps.map core).map bare = [(0, 2, -18, 113 / 100, 0)]) && decide (5 ≤ (records s).length)
    | _, _ => false) = true := by
  have e : exTurn.t.to 0 = 0 := by norm_num [exTurn, Axis.to]
  refine ⟨SphereRun.exPac_sound, SphereRun.exPac_regional, SphereRun.exPac_grids, ⟨rfl, rfl, rfl⟩, SphereRun.regular_two _ _, ?_, ?_, by decide +kernel⟩
  · rw [e]
    simp only [exPacParts, List.map_cons, List.map_nil, moved, e]
    exact SphereRun.regular_two _ _
  · intro q hq
    simp only [exPacParts, List.mem_cons, List.not_mem_nil, or_false] at hq
    rcases hq with rfl | rfl <;> exact SphereRun.exPac_hints

/-- The hypothesis of the last theorems on the trajectories can be met: the first particle of the example moves eastward for the whole run. -/
example : ∃ val, Interpolates exCos exPac (fun _ => exPacU) val ∧ ∀ q ∈ [(0, ⟨0, 1 / 2, .success, (160, 1, 0)⟩)], trajectory (refScheme val GridRun.rk4) exPacOpts.dt (0 + (4 : ℕ) * exPacOpts.dt) q =
    some (0, 2, 162, 113 / 100, 0) := by
  obtain ⟨val, hv⟩ := interpolates_exists SphereRun.exPac_sound exCos
  refine ⟨val, hv, fun q hq => ?_⟩
  rw [List.mem_singleton.mp hq, ← trajectory_scipy SphereRun.exPac_sound hv GridRun.rk4 _ _ _ (Or.inl SphereRun.exPac_regional)]
  have : (match trajectory (scipyScheme exCos exPac GridRun.rk4) exPacOpts.dt (0 + (4 : ℕ) * exPacOpts.dt) (0, ⟨0, 1 / 2, .success, (160, 1, 0)⟩) with
      | some (a, b, c, d, e) => decide (a = 0 ∧ b = 2 ∧ c = 162 ∧ d = 113 / 100 ∧ e = 0)
      | none => false) = true := by decide +kernel
  revert this
  cases trajectory (scipyScheme exCos exPac GridRun.rk4) exPacOpts.dt (0 + (4 : ℕ) * exPacOpts.dt) (0, ⟨0, 1 / 2, .success, (160, 1, 0)⟩) with
  | none => intro h; cases h
  | some p =>
    intro h
    obtain ⟨a, b, c, d, e⟩ := p
    obtain ⟨rfl, rfl, rfl, rfl, rfl⟩ := of_decide_eq_true h
    rfl

/-- The fields of the example with longitudes that go on after 180. -/
def exOn (i : Nat) : SFld := { exPac i with fld := { (exPac i).fld with grid := { (exPac i).fld.grid with lon := exPacU } } }

/-- C117. It matters whether longitudes go on after 180 or start again at -180. The same data on the same grid across the date line, and the same particle: with longitudes 150, 170, 185, 210 it is advected to 178
degrees, with longitudes 150, 170, -175, -150 it is deleted after the first step; in both modes. -/
theorem C117_dateline_fails : (∀ i, (exOn i).fld.grid.lon = exPacU ∧ (exPac i).fld.grid.lon = [150, 170, 185 - 360, 210 - 360]) ∧
    (match execute exPacOpts (scipyExec (kernel (scipyScheme exCos exOn GridRun.rk4)) WholeRun.exDelete 5 2) 5 WholeRun.exFile [(0, ⟨0, 1 / 2, .success, (176, 0, 0)⟩)],
      execute exPacOpts (jitExec (kernel (jitScheme exCos exOn GridRun.rk4)) WholeRun.exDelete 5 2) 5 WholeRun.exFile [(0, ⟨0, 1 / 2, .success, ((176, 0, 0), GridRun.newHints)⟩)],
      execute exPacOpts (scipyExec (kernel (scipyScheme exCos exPac GridRun.rk4)) WholeRun.exDelete 5 2) 5 WholeRun.exFile [(0, ⟨0, 1 / 2, .success, (176, 0, 0)⟩)],
      execute exPacOpts (jitExec (kernel (jitScheme exCos exPac GridRun.rk4)) WholeRun.exDelete 5 2) 5 WholeRun.exFile [(0, ⟨0, 1 / 2, .success, ((176, 0, 0), GridRun.newHints)⟩)] with
    | some (.done s1), some (.done s2), some (.done s3), some (.done s4) => decide (s1.ps.map (fun q => (q.1, q.2.time, q.2.vars.1)) = [(0, 2, 178)] ∧
        s2.ps.map (fun q => (q.1, q.2.time, q.2.vars.1.1)) = [(0, 2, 178)] ∧ s3.ps.length = 0 ∧ s4.ps.length = 0)
    | _, _, _, _ => false) = true := by
  refine ⟨fun i => ⟨rfl, ?_⟩, by decide +kernel⟩
  rcases i with _ | i <;> norm_num [exPac, SphereRun.exPacific]

end Parcels.TurnRun
