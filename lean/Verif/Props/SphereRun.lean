import Verif.Proofs.SphereRun6
import Verif.Props.GridRun

/-!
C101: runs on spherical meshes follow the interpolated fields, in degrees and with longitudes modulo 360.
-/

namespace Parcels.SphereRun

open Search Interp TimeInterp
open GridRun (Fld Hint Prog Body follow refScheme strip bare rk4 Covers Constant)
open KernelLoop (Exc)
open WholeRun (Scheme Opts Run Exec St execute scipyExec jitExec kernel solution trajectory record records outputTimes core Regular Deletes Raises)
open Recovery (TP RMap)

variable {V : Type}

/-! ### Samples -/

/-- C101. Where both modes look, a sample is the interpolated value in degrees, and succeeds if there is one; in both modes, whatever cells the particle
remembers. -/
theorem C101_sample {f : SFld} {U : List ℚ} (hf : Sound f.fld U) (cosd : ℚ → ℚ) (t z y x w : ℚ) (hx : Places f.fld.grid U x) (h : Hint)
    (hxi : h.xi + 1 < f.fld.grid.lon.length) (hyi : h.yi + 1 < f.fld.grid.lat.length) (hzi : h.zi ≤ f.fld.grid.depth.length - 1)
    (hti : h.ti < f.fld.time.length) :
    (eval cosd f t z y x = .ok w ↔ FieldValue cosd f t z y x w) ∧ ((∃ h', cEval cosd f t z y x h = .ok (w, h')) ↔ FieldValue cosd f t z y x w) :=
  ⟨eval_places hf cosd hx, cEval_places hf cosd ⟨hxi, hyi, hzi, hti⟩ hx⟩

/-- C101. On a regional grid, no sample succeeds elsewhere. -/
theorem C101_sample_regional {f : SFld} {U : List ℚ} (hf : Sound f.fld U) (hr : Regional f.fld.grid U) (cosd : ℚ → ℚ) (t z y x w : ℚ) (h : Hint)
    (hxi : h.xi + 1 < f.fld.grid.lon.length) (hyi : h.yi + 1 < f.fld.grid.lat.length) (hzi : h.zi ≤ f.fld.grid.depth.length - 1)
    (hti : h.ti < f.fld.time.length) :
    (eval cosd f t z y x = .ok w ↔ Places f.fld.grid U x ∧ FieldValue cosd f t z y x w) ∧
    ((∃ h', cEval cosd f t z y x h = .ok (w, h')) ↔ Places f.fld.grid U x ∧ FieldValue cosd f t z y x w) :=
  ⟨eval_iff hf hr cosd t z y x w, cEval_iff hf hr cosd ⟨hxi, hyi, hzi, hti⟩ t z y x w⟩

/-- C101. The values the theorems speak of exist. -/
theorem C101_values {fs : Nat → SFld} {U : Nat → List ℚ} (hf : ∀ i, Sound (fs i).fld (U i)) (cosd : ℚ → ℚ) :
    (∃ val, Interpolates cosd fs U val) ∧ ((∀ i, (fs i).fld.grid.lon = U i) → ∃ val, Everywhere cosd fs val) :=
  ⟨interpolates_exists hf cosd, fun hU => everywhere_exists hf hU cosd⟩

/-! ### Runs -/

/-- C101. A run in Scipy mode ends with the particles where the trajectories in the interpolated fields lead: if none of these ends early, or, on regional
grids, if the recovery functions delete. -/
theorem C101_scipy {fs : Nat → SFld} {U : Nat → List ℚ} (hf : ∀ i, Sound (fs i).fld (U i)) {cosd : ℚ → ℚ} {val : Nat → (t z y x : ℚ) → Option ℚ}
    (hv : Interpolates cosd fs U val) (b : Body V) {user : RMap Unit V} {o : Opts} {S : ℚ} {N : ℕ} {ps : List (TP V)} (h : Regular o S N ps)
    (hok : (Deletes user ∧ ∀ i, Regional (fs i).fld.grid (U i)) ∨ ∀ q ∈ ps, (trajectory (refScheme val b) o.dt (S + N * o.dt) q).isSome)
    (k n fuel : ℕ) (file : Output.PFile) (r : Run V) (hr : execute o (scipyExec (kernel (scipyScheme cosd fs b)) user k n) fuel file ps = some r) :
    ∃ s, r = .done s ∧ s.ps.map core = ps.filterMap (trajectory (refScheme val b) o.dt (S + N * o.dt)) := by
  have key : ∀ q ∈ ps, trajectory (scipyScheme cosd fs b) o.dt (S + N * o.dt) q = trajectory (refScheme val b) o.dt (S + N * o.dt) q := by
    intro q hq
    apply trajectory_scipy hf hv
    rcases hok with h | h
    · exact Or.inl h.2
    · exact Or.inr (h q hq)
  obtain ⟨s, h1, h2⟩ := WholeRun.C97_run (f := scipyScheme cosd fs b) ⟨k, n, Or.inl rfl⟩ h (hok.imp And.left fun H q hq => by rw [key q hq]; exact H q hq)
    fuel file r hr
  exact ⟨s, h1, by rw [h2]; exact List.filterMap_congr key⟩

/-- C101. The same in JIT mode. -/
theorem C101_jit {fs : Nat → SFld} {U : Nat → List ℚ} (hf : ∀ i, Sound (fs i).fld (U i)) (hg : Grids fs) {cosd : ℚ → ℚ}
    {val : Nat → (t z y x : ℚ) → Option ℚ} (hv : Interpolates cosd fs U val) (b : Body V) {user : RMap Unit (V × (Nat → Hint))} {o : Opts} {S : ℚ} {N : ℕ}
    {ps : List (TP (V × (Nat → Hint)))} (h : Regular o S N ps) (hh : ∀ q ∈ ps, Hints fs q.2.vars.2)
    (hok : (Deletes user ∧ ∀ i, Regional (fs i).fld.grid (U i)) ∨ ∀ q ∈ ps, (trajectory (refScheme val b) o.dt (S + N * o.dt) (strip q)).isSome)
    (k n fuel : ℕ) (file : Output.PFile) (r : Run (V × (Nat → Hint)))
    (hr : execute o (jitExec (kernel (jitScheme cosd fs b)) user k n) fuel file ps = some r) :
    ∃ s, r = .done s ∧ (s.ps.map core).map bare = (ps.map strip).filterMap (trajectory (refScheme val b) o.dt (S + N * o.dt)) := by
  have key : ∀ q ∈ ps, (trajectory (jitScheme cosd fs b) o.dt (S + N * o.dt) q).map bare = trajectory (refScheme val b) o.dt (S + N * o.dt) (strip q) := by
    intro q hq
    apply trajectory_jit hf hg hv _ _ _ _ (hh q hq)
    rcases hok with h | h
    · exact Or.inl h.2
    · exact Or.inr (h q hq)
  obtain ⟨s, h1, h2⟩ := WholeRun.C97_run (f := jitScheme cosd fs b) ⟨k, n, Or.inr rfl⟩ h
    (hok.imp And.left fun H q hq => by have := H q hq; rwa [← key q hq, Option.isSome_map] at this) fuel file r hr
  refine ⟨s, h1, ?_⟩
  rw [h2]
  exact GridRun.filterMap_bare _ _ _ _ _ key

/-- C101. On regional grids, with recovery functions that delete, the two modes give the same particles, and the same records in the output file. -/
theorem C101_modes {fs : Nat → SFld} {U : Nat → List ℚ} (hf : ∀ i, Sound (fs i).fld (U i)) (hreg : ∀ i, Regional (fs i).fld.grid (U i)) (hg : Grids fs)
    (cosd : ℚ → ℚ) (b : Body V) {user : RMap Unit V} {user' : RMap Unit (V × (Nat → Hint))} (hu : Deletes user) (hu' : Deletes user') {o : Opts} {S : ℚ}
    {N : ℕ} {ps : List (TP (V × (Nat → Hint)))} (h : Regular o S N ps) (hh : ∀ q ∈ ps, Hints fs q.2.vars.2) (k n fuel k' n' fuel' : ℕ)
    (file : Output.PFile) (r : Run V) (r' : Run (V × (Nat → Hint)))
    (hr : execute o (scipyExec (kernel (scipyScheme cosd fs b)) user k n) fuel file (ps.map strip) = some r)
    (hr' : execute o (jitExec (kernel (jitScheme cosd fs b)) user' k' n') fuel' file ps = some r') :
    ∃ s s', r = .done s ∧ r' = .done s' ∧ s.ps.map core = (s'.ps.map core).map bare ∧
      (o.hasFile = true → file.writeOndelete = false → file.lasttime ≠ some S → o.outputdt ≠ none → records s = (records s').map bare) := by
  obtain ⟨val, hv⟩ := interpolates_exists hf cosd
  obtain ⟨s, e1, e2⟩ := C101_scipy hf hv b (GridRun.regular_strip h) (Or.inl ⟨hu, hreg⟩) k n fuel file r hr
  obtain ⟨s', e1', e2'⟩ := C101_jit hf hg hv b h hh (Or.inl ⟨hu', hreg⟩) k' n' fuel' file r' hr'
  refine ⟨s, s', e1, e1', by rw [e2, e2'], fun c1 c2 c3 c4 => ?_⟩
  obtain ⟨i, hi⟩ := Option.ne_none_iff_exists'.mp c4
  obtain ⟨s2, a1, a2⟩ := WholeRun.C97_records (f := scipyScheme cosd fs b) ⟨k, n, Or.inl rfl⟩ (GridRun.regular_strip h) (Or.inl hu) fuel file r hr c1 c2 c3 i hi
  obtain ⟨s2', a1', a2'⟩ := WholeRun.C97_records (f := jitScheme cosd fs b) ⟨k', n', Or.inr rfl⟩ h (Or.inl hu') fuel' file r' hr' c1 c2 c3 i hi
  rw [e1] at a1
  rw [e1'] at a1'
  injection a1 with a1
  injection a1' with a1'
  subst a1 a1'
  rw [a2, a2', List.map_flatMap]
  congr 1
  funext t
  rw [GridRun.filterMap_bare _ (record (refScheme val b) o.dt t) bare strip ps fun q hq => record_jit hf hg hv b _ _ q (hh q hq) hreg]
  exact List.filterMap_congr fun q _ => record_scipy hf hv b _ _ q hreg

/-- C101. On regional grids, with recovery functions that raise (the default), either both modes raise, or both return with the same particles. -/
theorem C101_modes_raise {fs : Nat → SFld} {U : Nat → List ℚ} (hf : ∀ i, Sound (fs i).fld (U i)) (hreg : ∀ i, Regional (fs i).fld.grid (U i))
    (hg : Grids fs) (cosd : ℚ → ℚ) (b : Body V) {user : RMap Unit V} {user' : RMap Unit (V × (Nat → Hint))} (hu : Raises user) (hu' : Raises user')
    {o : Opts} {S : ℚ} {N : ℕ} {ps : List (TP (V × (Nat → Hint)))} (h : Regular o S N ps) (hh : ∀ q ∈ ps, Hints fs q.2.vars.2)
    (k n fuel k' n' fuel' : ℕ) (file : Output.PFile) (r : Run V) (r' : Run (V × (Nat → Hint)))
    (hr : execute o (scipyExec (kernel (scipyScheme cosd fs b)) user k n) fuel file (ps.map strip) = some r)
    (hr' : execute o (jitExec (kernel (jitScheme cosd fs b)) user' k' n') fuel' file ps = some r') :
    (∃ s s', r = .raised s ∧ r' = .raised s') ∨
    (∃ s s', r = .done s ∧ r' = .done s' ∧ s.ps.map core = (s'.ps.map core).map bare ∧ s.ps.length = ps.length) := by
  obtain ⟨val, hv⟩ := interpolates_exists hf cosd
  by_cases c : ∀ q ∈ ps, (trajectory (refScheme val b) o.dt (S + N * o.dt) (strip q)).isSome
  · right
    have c' : ∀ q ∈ ps.map strip, (trajectory (refScheme val b) o.dt (S + N * o.dt) q).isSome := by
      intro q hq
      obtain ⟨p, hp, rfl⟩ := List.mem_map.mp hq
      exact c p hp
    obtain ⟨s, e1, e2⟩ := C101_scipy hf hv b (GridRun.regular_strip h) (Or.inr c') k n fuel file r hr
    obtain ⟨s', e1', e2'⟩ := C101_jit hf hg hv b h hh (Or.inr c) k' n' fuel' file r' hr'
    refine ⟨s, s', e1, e1', by rw [e2, e2'], ?_⟩
    have l := congrArg List.length e2
    rw [List.length_map, GridRun.filterMap_length c', List.length_map] at l
    exact l
  · left
    push Not at c
    obtain ⟨q, hq, hn⟩ := c
    have hn' : trajectory (refScheme val b) o.dt (S + N * o.dt) (strip q) = none := by
      cases e : trajectory (refScheme val b) o.dt (S + N * o.dt) (strip q) with
      | none => rfl
      | some v => rw [e] at hn; exact absurd rfl hn
    obtain ⟨s, e1⟩ := WholeRun.C97_raises (f := scipyScheme cosd fs b) ⟨k, n, Or.inl rfl⟩ (GridRun.regular_strip h) hu
      ⟨strip q, List.mem_map_of_mem hq, by rw [trajectory_scipy hf hv b _ _ _ (Or.inl hreg)]; exact hn'⟩ fuel file r hr
    obtain ⟨s', e1'⟩ := WholeRun.C97_raises (f := jitScheme cosd fs b) ⟨k', n', Or.inr rfl⟩ h hu'
      ⟨q, hq, by
        have := trajectory_jit hf hg hv b o.dt (S + N * o.dt) q (hh q hq) (Or.inl hreg)
        rw [hn', Option.map_eq_none_iff] at this
        exact this⟩ fuel' file r' hr'
    exact ⟨s, s', e1, e1'⟩

/-! ### Round the globe -/

/-- C101. On axes of a full turn with halos of `h` degrees, with `AdvectionRK4`, the kernel that moves particles by 360 degrees when they leave
[west, west + 360], and steps of at most `h` degrees eastward or westward: in both modes the run ends with the particles where the trajectories round the globe
lead, up to full turns, with longitudes from `west` to `west + 360`; the same holds for the records of the output file. If no trajectory ends early, or if the
recovery functions delete. -/
theorem C101_global {fs : Nat → SFld} {U : Nat → List ℚ} (hf : ∀ i, Sound (fs i).fld (U i)) (hg : Grids fs) {cosd : ℚ → ℚ}
    {val : Nat → (t z y x : ℚ) → Option ℚ} (hv : Everywhere cosd fs val) {west h : ℚ} (hh : 0 ≤ h) (hs : Spans fs U (west - h) (west + 360 + h))
    {user : RMap Unit (ℚ × ℚ × ℚ)} {user' : RMap Unit ((ℚ × ℚ × ℚ) × (Nat → Hint))} {o : Opts} {S : ℚ} {N : ℕ}
    (hu : ∀ t z y x w, val 0 t z y x = some w → |w| * |o.dt| ≤ h)
    {ps : List (TP ((ℚ × ℚ × ℚ) × (Nat → Hint)))} (hR : Regular o S N ps) (hi : ∀ q ∈ ps, Hints fs q.2.vars.2)
    (hp : ∀ q ∈ ps, west ≤ q.2.vars.1.1 ∧ q.2.vars.1.1 ≤ west + 360)
    (hok : (Deletes user ∧ Deletes user') ∨ ∀ q ∈ ps, (trajectory (refScheme val rk4) o.dt (S + N * o.dt) (strip q)).isSome)
    (k n fuel k' n' fuel' : ℕ) (file : Output.PFile) (r : Run (ℚ × ℚ × ℚ)) (r' : Run ((ℚ × ℚ × ℚ) × (Nat → Hint)))
    (hr : execute o (scipyExec (kernel (scipyScheme cosd fs (periodic west (west + 360) rk4))) user k n) fuel file (ps.map strip) = some r)
    (hr' : execute o (jitExec (kernel (jitScheme cosd fs (periodic west (west + 360) rk4))) user' k' n') fuel' file ps = some r') :
    ∃ s s', r = .done s ∧ r' = .done s' ∧
      List.Forall₂ (SameCore west) ((ps.map strip).filterMap (trajectory (refScheme val rk4) o.dt (S + N * o.dt))) (s.ps.map core) ∧
      List.Forall₂ (SameCore west) ((ps.map strip).filterMap (trajectory (refScheme val rk4) o.dt (S + N * o.dt))) ((s'.ps.map core).map bare) ∧
      ∀ i, o.hasFile = true → file.writeOndelete = false → file.lasttime ≠ some S → o.outputdt = some i →
        List.Forall₂ (SameCore west) ((outputTimes S o.dt i N).flatMap fun t => (ps.map strip).filterMap (record (refScheme val rk4) o.dt t)) (records s) ∧
        List.Forall₂ (SameCore west) ((outputTimes S o.dt i N).flatMap fun t => (ps.map strip).filterMap (record (refScheme val rk4) o.dt t))
          ((records s').map bare) := by
  have hh' := halo_le hf hs
  have k1 : ∀ t, ∀ q ∈ ps.map strip, Both (SameCore west) (trajectory (refScheme val rk4) o.dt t q)
      (trajectory (scipyScheme cosd fs (periodic west (west + 360) rk4)) o.dt t q) := by
    intro t q hq
    obtain ⟨p, hp', rfl⟩ := List.mem_map.mp hq
    exact trajectory_global_scipy hf hh hh' hs hv hu t _ (hp p hp').1 (hp p hp').2
  have k2 : ∀ t, ∀ q ∈ ps, Both (SameCore west) (trajectory (refScheme val rk4) o.dt t (strip q))
      ((trajectory (jitScheme cosd fs (periodic west (west + 360) rk4)) o.dt t q).map bare) :=
    fun t q hq => trajectory_global_jit hf hh hh' hs hv hu hg t q (hi q hq) (hp q hq).1 (hp q hq).2
  have r1 : ∀ t, ∀ q ∈ ps.map strip, Both (SameCore west) (record (refScheme val rk4) o.dt t q)
      (record (scipyScheme cosd fs (periodic west (west + 360) rk4)) o.dt t q) := by
    intro t q hq
    obtain ⟨p, hp', rfl⟩ := List.mem_map.mp hq
    exact record_global_scipy hf hh hh' hs hv hu t _ (hp p hp').1 (hp p hp').2
  have r2 : ∀ t, ∀ q ∈ ps, Both (SameCore west) (record (refScheme val rk4) o.dt t (strip q))
      ((record (jitScheme cosd fs (periodic west (west + 360) rk4)) o.dt t q).map bare) :=
    fun t q hq => record_global_jit hf hh hh' hs hv hu hg t q (hi q hq) (hp q hq).1 (hp q hq).2
  have ok1 : Deletes user ∨ ∀ q ∈ ps.map strip, (trajectory (scipyScheme cosd fs (periodic west (west + 360) rk4)) o.dt (S + N * o.dt) q).isSome := by
    refine hok.imp And.left fun H q hq => ?_
    rw [← (k1 _ q hq).isSome]
    obtain ⟨p, hp', rfl⟩ := List.mem_map.mp hq
    exact H p hp'
  have ok2 : Deletes user' ∨ ∀ q ∈ ps, (trajectory (jitScheme cosd fs (periodic west (west + 360) rk4)) o.dt (S + N * o.dt) q).isSome := by
    refine hok.imp And.right fun H q hq => ?_
    have := (k2 (S + N * o.dt) q hq).isSome
    rw [Option.isSome_map] at this
    rw [← this]
    exact H q hq
  obtain ⟨s, e1, e2⟩ := WholeRun.C97_run ⟨k, n, Or.inl rfl⟩ (GridRun.regular_strip hR) ok1 fuel file r hr
  obtain ⟨s', e1', e2'⟩ := WholeRun.C97_run ⟨k', n', Or.inr rfl⟩ hR ok2 fuel' file r' hr'
  refine ⟨s, s', e1, e1', ?_, ?_, ?_⟩
  · rw [e2]; exact both_filterMap _ (k1 _)
  · rw [e2', List.map_filterMap, List.filterMap_map]
    exact both_filterMap _ (k2 _)
  · intro i c1 c2 c3 c4
    obtain ⟨s2, a1, a2⟩ := WholeRun.C97_records ⟨k, n, Or.inl rfl⟩ (GridRun.regular_strip hR) ok1 fuel file r hr c1 c2 c3 i c4
    obtain ⟨s2', a1', a2'⟩ := WholeRun.C97_records ⟨k', n', Or.inr rfl⟩ hR ok2 fuel' file r' hr' c1 c2 c3 i c4
    rw [e1] at a1
    rw [e1'] at a1'
    injection a1 with a1
    injection a1' with a1'
    subst a1 a1'
    rw [a2, a2', List.map_flatMap]
    refine ⟨forall₂_flatMap _ fun t => both_filterMap _ (r1 t), forall₂_flatMap _ fun t => ?_⟩
    rw [List.map_filterMap, List.filterMap_map]
    exact both_filterMap _ (r2 t)

/-! ### Zonal and meridional flows -/

/-- C101. On data with one eastward velocity `u` and one northward velocity `v`, of which one is 0, in metres per unit of time, on axes without jump with a
domain that contains the start and the end of every path: advected particles move eastward by `u` times the time over 60 nautical miles times the cosine of the
latitude, northward by `v` times the time over 60 nautical miles; in both modes, whatever the recovery functions. -/
theorem C101_uniform {fs : Nat → SFld} {U : Nat → List ℚ} (hf : ∀ i, Sound (fs i).fld (U i)) (hg : Grids fs)
    (hU : ∀ i, i = 0 ∨ i = 1 → (fs i).fld.grid.lon = U i) (cosd : ℚ → ℚ) {u v : ℚ} (hu : Constant (fs 0).fld u) (hv : Constant (fs 1).fld v)
    (huu : (fs 0).units = .geographicPolar) (hvu : (fs 1).units = .geographic) (huv : u = 0 ∨ v = 0)
    {user : RMap Unit (ℚ × ℚ × ℚ)} {user' : RMap Unit ((ℚ × ℚ × ℚ) × (Nat → Hint))} {o : Opts} {S : ℚ} {N : ℕ}
    {ps : List (TP ((ℚ × ℚ × ℚ) × (Nat → Hint)))} (h : Regular o S N ps) (hh : ∀ q ∈ ps, Hints fs q.2.vars.2)
    (hc : ∀ q ∈ ps, ¬ 0 < (q.2.time - (S + N * o.dt)) * sgn o.dt → ∀ i, i = 0 ∨ i = 1 →
      Covers (fs i).fld q.2.time q.2.vars.1.2.2 q.2.vars.1.2.1 q.2.vars.1.1 ∧
      Covers (fs i).fld (S + N * o.dt) q.2.vars.1.2.2 (q.2.vars.1.2.1 + v / (60 * 1852) * (S + N * o.dt - q.2.time))
        (q.2.vars.1.1 + u / (60 * 1852 * cosd q.2.vars.1.2.1) * (S + N * o.dt - q.2.time)))
    (k n fuel k' n' fuel' : ℕ) (file : Output.PFile) (r : Run (ℚ × ℚ × ℚ)) (r' : Run ((ℚ × ℚ × ℚ) × (Nat → Hint)))
    (hr : execute o (scipyExec (kernel (scipyScheme cosd fs rk4)) user k n) fuel file (ps.map strip) = some r)
    (hr' : execute o (jitExec (kernel (jitScheme cosd fs rk4)) user' k' n') fuel' file ps = some r') :
    ∃ s s', r = .done s ∧ r' = .done s' ∧ s.ps.map core = (s'.ps.map core).map bare ∧
      s.ps.map core = ps.map fun q =>
        if 0 < (q.2.time - (S + N * o.dt)) * sgn o.dt then core (strip q)
        else (q.1, S + N * o.dt, q.2.vars.1.1 + u / (60 * 1852 * cosd q.2.vars.1.2.1) * (S + N * o.dt - q.2.time),
          q.2.vars.1.2.1 + v / (60 * 1852) * (S + N * o.dt - q.2.time), q.2.vars.1.2.2) := by
  obtain ⟨val, hval⟩ := interpolates_exists hf cosd
  have hne := WholeRun.ne_zero_of h.step
  have key : ∀ q ∈ ps, trajectory (refScheme val rk4) o.dt (S + N * o.dt) (strip q) =
      some (if 0 < (q.2.time - (S + N * o.dt)) * sgn o.dt then core (strip q)
        else (q.1, S + N * o.dt, q.2.vars.1.1 + u / (60 * 1852 * cosd q.2.vars.1.2.1) * (S + N * o.dt - q.2.time),
          q.2.vars.1.2.1 + v / (60 * 1852) * (S + N * o.dt - q.2.time), q.2.vars.1.2.2)) := by
    intro q hq
    by_cases c : 0 < (q.2.time - (S + N * o.dt)) * sgn o.dt
    · unfold trajectory
      rw [if_pos c, if_pos (show 0 < ((strip q).2.time - (S + N * o.dt)) * sgn o.dt from c)]
    rw [if_neg c]
    have c2 := hc q hq c
    obtain ⟨j, hj⟩ := h.starts q hq
    have c3 := c
    rw [hj, WholeRun.grid_lt hne, not_lt] at c3
    have e : S + N * o.dt - q.2.time = ((N - j : ℕ) : ℚ) * o.dt := by rw [hj, Nat.cast_sub c3]; ring
    have e' : S + N * o.dt = q.2.time + ((N - j : ℕ) : ℚ) * o.dt := by linarith
    unfold trajectory
    rw [if_neg (show ¬ 0 < ((strip q).2.time - (S + N * o.dt)) * sgn o.dt from c)]
    show Option.map _ (solution (refScheme val rk4) o.dt ⌊(S + N * o.dt - q.2.time) / o.dt⌋₊ q.2.time q.2.vars.1) = _
    rw [e, mul_div_assoc, div_self hne, mul_one, Nat.floor_natCast]
    have su := solution_uniform hf hval hU hu hv (a := u / (60 * 1852 * cosd q.2.vars.1.2.1)) (b := v / (60 * 1852)) o.dt (N - j) q.2.time q.2.vars.1.1
      q.2.vars.1.2.1 q.2.vars.1.2.2 (by
        intro w
        rw [huu, hvu]
        refine ⟨?_, rfl⟩
        show u / _ = _
        rcases huv with rfl | rfl
        · simp
        · simp) (by
      intro i hi
      have := c2 i hi
      rw [e, e'] at this
      exact this)
    rw [show q.2.vars.1 = (q.2.vars.1.1, q.2.vars.1.2.1, q.2.vars.1.2.2) from rfl, su]
    rfl
  have ok1 : ∀ q ∈ ps, (trajectory (refScheme val rk4) o.dt (S + N * o.dt) (strip q)).isSome := fun q hq => by rw [key q hq]; rfl
  have ok2 : ∀ q ∈ ps.map strip, (trajectory (refScheme val rk4) o.dt (S + N * o.dt) q).isSome := by
    intro q hq
    obtain ⟨p, hp, rfl⟩ := List.mem_map.mp hq
    exact ok1 p hp
  obtain ⟨s, e1, e2⟩ := C101_scipy hf hval rk4 (GridRun.regular_strip h) (Or.inr ok2) k n fuel file r hr
  obtain ⟨s', e1', e2'⟩ := C101_jit hf hg hval rk4 h hh (Or.inr ok1) k' n' fuel' file r' hr'
  refine ⟨s, s', e1, e1', by rw [e2, e2'], ?_⟩
  rw [e2, List.filterMap_map, ← List.filterMap_eq_map']
  exact List.filterMap_congr key

/-! ### Cases -/

theorem eastward_self {l : List ℚ} (h : Increasing l) (hl : 2 ≤ l.length) (hw : ∀ (n : Nat) (a b : ℚ), l[n]? = some a → l[n + 1]? = some b → b - a < 180) :
    EastwardAxis l l :=
  ⟨l, [], by simp, by simp, hl, by rintro rfl; simp at hl, by simp, h, hw⟩

/-- A function in place of the cosine. -/
def exCos (y : ℚ) : ℚ := if |y| ≤ 5 then 1 else 1 / 2

/-- One degree of latitude in metres. -/
def deg : ℚ := 60 * 1852

/-- A grid that crosses the date line. -/
def exPacific : RGrid := ⟨[150, 170, -175, -150], [-10, 0, 10], [0], true, false, false⟩

/-- `U` is one degree per unit of time at the equator, `V` grows to the east. -/
def exPac : Nat → SFld
  | 0 => ⟨⟨exPacific, [0], true, fun _ => ⟨1, 3, 4, fun _ _ _ => deg⟩, 0⟩, .geographicPolar⟩
  | _ => ⟨⟨exPacific, [0, 10], false, fun i => ⟨1, 3, 4, fun _ _ k => deg * (i + k) / 10⟩, 1⟩, .geographic⟩

def exPacU : List ℚ := [150, 170, 185, 210]

theorem exPac_sound : ∀ i, Sound (exPac i).fld exPacU := by
  have hg : SphereGrid exPacific exPacU := by
    refine ⟨rfl, ⟨[150, 170], [-175, -150], rfl, by norm_num [exPacU], by decide, by decide, ?_, by norm_num [Increasing, exPacU], all_pairs (by decide +kernel)⟩,
      by norm_num [exPacific, Increasing], by decide⟩
    intro b hb a ha
    simp at hb ha
    subst hb
    rcases ha with rfl | rfl <;> norm_num
  have hspan : exPacU.getLastD 0 - exPacU.headD 0 < 360 := by decide +kernel
  intro i
  rcases i with _ | i
  · exact ⟨hg, all_pairs (by decide +kernel), by decide, Or.inl hspan.le, rfl, Or.inl (by decide), by simp [exPac, Increasing], by simp [exPac],
      fun _ => ⟨rfl, rfl, rfl⟩, fun _ => Or.inl hspan⟩
  · exact ⟨hg, all_pairs (by decide +kernel), (by decide : exPacific.lon.length ≤ 5000), Or.inl hspan.le, rfl, Or.inl (by decide : exPacific.depth.length ≤ 1), by simp [exPac, Increasing], by simp [exPac],
      fun _ => ⟨rfl, rfl, rfl⟩, fun _ => Or.inl hspan⟩

theorem exPac_regional : ∀ i, Regional (exPac i).fld.grid exPacU := by
  intro i
  rcases i with _ | i <;> exact ⟨rfl, by decide +kernel⟩

theorem exPac_grids : Grids exPac := by
  intro i j
  rcases i with _ | i <;> rcases j with _ | j <;> simp [exPac]

theorem exPac_hints : Hints exPac GridRun.newHints := by
  intro i
  rcases i with _ | i <;> simp [exPac, exPacific, GridRun.newHints]

/-- Two particles; the second starts in the northeast and leaves the grid. -/
def exPacParts : List (TP ((ℚ × ℚ × ℚ) × (Nat → Hint))) :=
  [(0, ⟨0, 1 / 2, .success, ((160, 1, 0), GridRun.newHints)⟩), (1, ⟨0, 1 / 2, .success, ((-170, 97 / 10, 0), GridRun.newHints)⟩)]

def exPacOpts : Opts := ⟨1 / 2, .runtime 2, true, some 1, none, none, fun _ _ => .pinf⟩

theorem regular_two {V : Type} (a b : V) : Regular exPacOpts 0 4 [(0, ⟨0, 1 / 2, .success, a⟩), (1, ⟨0, 1 / 2, .success, b⟩)] := by
  refine ⟨⟨_, List.mem_cons_self, rfl⟩, by norm_num [exPacOpts, abs_div], by norm_num [exPacOpts, abs_div], by norm_num [exPacOpts, abs_div], ?_, ?_, ?_, ?_, ?_, ?_⟩
  · intro i hi
    simp only [exPacOpts, Option.some.injEq] at hi
    exact ⟨2, by norm_num, by rw [← hi]; norm_num [exPacOpts, abs_div]⟩
  · intro i hi; cases hi
  · intro i hi; cases hi
  · intro i t; show (0 : ℚ) < 1 / 2; norm_num
  · intro i t q hq; cases hq
  · intro q hq
    simp only [List.mem_cons, List.not_mem_nil, or_false] at hq
    rcases hq with rfl | rfl <;> exact ⟨0, by norm_num [exPacOpts]⟩

/-- Runs in the two modes end, with the same particles and records, of which one particle is gone at the end. -/
theorem exPac_runs :
    (match execute exPacOpts (scipyExec (kernel (scipyScheme exCos exPac rk4)) WholeRun.exDelete 5 2) 5 WholeRun.exFile (exPacParts.map strip),
      execute exPacOpts (jitExec (kernel (jitScheme exCos exPac rk4)) WholeRun.exDelete 5 2) 5 WholeRun.exFile exPacParts with
    | some (.done s), some (.done s') => decide (s.ps.map core = (s'.ps.map core).map bare ∧ records s = (records s').map bare ∧
        (records s).map (fun c => (c.1, c.2.1)) = [(0, 0), (1, 0), (0, 1), (1, 1), (0, 2)]) && decide (s.ps.map core = [(0, 2, 162, 113 / 100, 0)])
    | _, _ => false) = true := by decide +kernel

/-- By default the runs raise. -/
theorem exPac_raises :
    (match execute exPacOpts (scipyExec (kernel (scipyScheme exCos exPac rk4)) (fun _ => none) 5 2) 5 WholeRun.exFile (exPacParts.map strip),
      execute exPacOpts (jitExec (kernel (jitScheme exCos exPac rk4)) (fun _ => none) 5 2) 5 WholeRun.exFile exPacParts with
    | some (.raised _), some (.raised _) => true
    | _, _ => false) = true := by decide +kernel

/-- The hypotheses of C101 for regional grids can be met, on a grid that crosses the date line. -/
example : (∀ i, Sound (exPac i).fld exPacU) ∧ (∀ i, Regional (exPac i).fld.grid exPacU) ∧ Grids exPac ∧ Regular exPacOpts 0 4 exPacParts ∧
    (∀ q ∈ exPacParts, Hints exPac q.2.vars.2) := by
  refine ⟨exPac_sound, exPac_regional, exPac_grids, ?_, ?_⟩
  · unfold exPacParts; exact regular_two _ _
  intro q hq
  simp only [exPacParts, List.mem_cons, List.not_mem_nil, or_false] at hq
  rcases hq with rfl | rfl <;> exact exPac_hints

/-- Samples: in the west and in the east of the grid, and outside. -/
example : eval exCos (exPac 0) 0 0 6 160 = .ok 2 ∧ eval exCos (exPac 1) 5 0 5 (-175) = .ok (1 / 4) ∧
    (match cEval exCos (exPac 1) 5 0 5 (-175) ⟨0, 0, 0, -1⟩ with | .ok (w, h) => decide (w = 1 / 4 ∧ 1 ≤ h.xi ∧ h.xi ≤ 2) | _ => false) = true ∧
    Places exPacific exPacU (-175) ∧ Places exPacific exPacU 160 ∧ ¬ Places exPacific exPacU 100 := by
  refine ⟨by decide +kernel, by decide +kernel, by decide +kernel, ⟨Or.inr ?_, Or.inr ?_⟩, ⟨Or.inr ?_, Or.inl ?_⟩, ?_⟩
  · exact ⟨-175, 170, by simp [exPacific], by simp [exPacific], by norm_num, by norm_num⟩
  · exact ⟨by decide +kernel, by decide +kernel, by decide +kernel, by decide +kernel⟩
  · exact ⟨-175, 170, by simp [exPacific], by simp [exPacific], by norm_num, by norm_num⟩
  · exact ⟨by decide +kernel, by decide +kernel⟩
  · rintro ⟨-, h | ⟨-, -, h⟩⟩ <;> norm_num [OnAxis, exPacU] at h

/-- C101 is false for trajectories across the date line: longitude 178 is in the grid, but neither it nor any of its other values is accepted, because the range
check compares with the smallest and the largest longitude of the axis, -175 and 170. So a particle that drifts from 169 to the east is deleted at 170. -/
theorem C101_dateline_fails : (∀ i, Sound (exPac i).fld exPacU) ∧ (∃ w, FieldValue exCos (exPac 0) 0 0 0 178 w) ∧
    (∀ (k : ℤ) (w : ℚ), eval exCos (exPac 0) 0 0 0 (178 + 360 * k) ≠ .ok w ∧
      ∀ h', cEval exCos (exPac 0) 0 0 0 (178 + 360 * k) ⟨0, 0, 0, -1⟩ ≠ .ok (w, h')) ∧
    (match execute exPacOpts (scipyExec (kernel (scipyScheme exCos exPac rk4)) WholeRun.exDelete 5 2) 5 WholeRun.exFile [(0, ⟨0, 1 / 2, .success, (169, 0, 0)⟩)],
      execute exPacOpts (jitExec (kernel (jitScheme exCos exPac rk4)) WholeRun.exDelete 5 2) 5 WholeRun.exFile
        [(0, ⟨0, 1 / 2, .success, ((169, 0, 0), GridRun.newHints)⟩)] with
    | some (.done s), some (.done s') => decide (s.ps.length = 0 ∧ s'.ps.length = 0)
    | _, _ => false) = true := by
  have hno : ∀ k : ℤ, ¬ Places (exPac 0).fld.grid exPacU (178 + 360 * k) := by
    rintro k ⟨h, -⟩
    obtain ⟨a, b, ha, hb, h1, h2⟩ := h.resolve_left (by decide)
    have hb' : b ≤ 170 := by simp [exPac, exPacific] at hb; rcases hb with rfl | rfl | rfl | rfl <;> norm_num
    have ha' : -175 ≤ a := by simp [exPac, exPacific] at ha; rcases ha with rfl | rfl | rfl | rfl <;> norm_num
    have k1 : (k : ℚ) < 0 := by linarith
    have k2 : (-1 : ℚ) < k := by linarith
    have k1' : k < 0 := by exact_mod_cast k1
    have k2' : -1 < k := by exact_mod_cast k2
    omega
  have hh : GridRun.HintOk (exPac 0).fld ⟨0, 0, 0, -1⟩ := exPac_hints 0
  refine ⟨exPac_sound, ⟨_, fun _ => deg, deg, ?_, Or.inl ⟨0, rfl, rfl⟩, rfl⟩, fun k w => ⟨fun h => ?_, fun h' h => ?_⟩, by decide +kernel⟩
  · intro i _
    refine ⟨1, 1, 8 / 15, 0, ⟨1, 170, -175, 15, 1, 0, rfl, rfl, rfl, by norm_num, by norm_num, by norm_num, by norm_num, by norm_num, by norm_num⟩,
      ⟨1, 0, 10, rfl, rfl, rfl, by norm_num, by norm_num, by norm_num⟩, fun _ => ?_, fun h => absurd h (by decide)⟩
    norm_num [bilinearAt, lerp, exPac]
    try ring
  · exact hno k ((eval_iff (exPac_sound 0) (exPac_regional 0) exCos _ _ _ _ _).mp h).1
  · exact hno k ((cEval_iff (exPac_sound 0) (exPac_regional 0) exCos hh _ _ _ _ _).mp ⟨h', h⟩).1

/-- A global axis, from 0 to 360. -/
def exGlobal : RGrid := ⟨[0, 90, 180, 270, 360], [-10, 0, 10], [0], true, true, false⟩

def exGlo : Nat → SFld := fun i => ⟨⟨exGlobal, [0], true, fun _ => ⟨1, 3, 5, fun _ _ _ => if i = 0 then deg else 0⟩, 0⟩, if i = 0 then .geographicPolar else .geographic⟩

theorem exGlo_sound : ∀ i, Sound (exGlo i).fld exGlobal.lon := by
  intro i
  refine ⟨⟨rfl, eastward_self (l := exGlobal.lon) ?_ (by decide) (all_pairs (by decide +kernel)), by norm_num [exGlo, exGlobal, Increasing], by simp [exGlo, exGlobal]⟩,
    all_pairs (by decide +kernel), by simp [exGlo, exGlobal], Or.inl (by decide +kernel), rfl, Or.inl (by simp [exGlo, exGlobal]), by simp [exGlo, Increasing],
    by simp [exGlo], fun _ => ⟨rfl, rfl, rfl⟩, fun _ => Or.inr ⟨4, by norm_num, by decide, ?_⟩⟩
  · norm_num [exGlo, exGlobal, Increasing]
  · intro j a b ha hb
    have hj := (List.getElem?_eq_some_iff.mp hb).1
    have : j = 0 := by simp [exGlobal] at hj; omega
    subst this
    simp [exGlobal] at ha hb
    exact ⟨by rw [← ha, ← hb]; norm_num, fun _ _ => by simp [exGlo]⟩

/-- C101, agreement of the modes, is false on grids recognised as going round the globe: east of the end of the axis the Scipy search fails, the C search finds
the cell one turn to the west. -/
theorem C101_modes_fails : (∀ i, Sound (exGlo i).fld exGlobal.lon) ∧
    (match execute exPacOpts (scipyExec (kernel (scipyScheme exCos exGlo rk4)) WholeRun.exDelete 5 2) 5 WholeRun.exFile [(0, ⟨0, 1 / 2, .success, (359, 0, 0)⟩)],
      execute exPacOpts (jitExec (kernel (jitScheme exCos exGlo rk4)) WholeRun.exDelete 5 2) 5 WholeRun.exFile
        [(0, ⟨0, 1 / 2, .success, ((359, 0, 0), GridRun.newHints)⟩)] with
    | some (.done s), some (.done s') => decide (s.ps.length = 0 ∧ (s'.ps.map core).map bare = [(0, 2, 361, 0, 0)])
    | _, _ => false) = true :=
  ⟨exGlo_sound, by decide +kernel⟩

/-- A global axis with halos: data from 0 to 315 every 45 degrees, one column of halo in the west and two in the east. -/
def exHalo : RGrid := ⟨[-45, 0, 45, 90, 135, 180, 225, 270, 315, 360, 405], [-80, 0, 80], [0], true, true, false⟩

/-- `U` is 20 degrees per unit of time at the equator; `V` depends on the place. -/
def exHal : Nat → SFld
  | 0 => ⟨⟨exHalo, [0], true, fun _ => ⟨1, 3, 11, fun _ _ _ => 20 * deg⟩, 0⟩, .geographicPolar⟩
  | _ => ⟨⟨exHalo, [0], true, fun _ => ⟨1, 3, 11, fun _ _ k => deg * ((k % 8 : Nat) : ℚ) / 10⟩, 0⟩, .geographic⟩

theorem exHal_sound : ∀ i, Sound (exHal i).fld exHalo.lon := by
  have hg : SphereGrid exHalo exHalo.lon :=
    ⟨rfl, eastward_self (by norm_num [exHalo, Increasing]) (by decide) (all_pairs (by decide +kernel)), by norm_num [exHalo, Increasing], by decide⟩
  have hcyc : ∀ d : Arr, (∀ k j i, i + 8 < 11 → d.v k j i = d.v k j (i + 8)) → Cyclic exHalo.lon d := by
    intro d hd
    refine Or.inr ⟨8, by norm_num, by decide, ?_⟩
    intro i a b ha hb
    have hj : i + 8 < 11 := (List.getElem?_eq_some_iff.mp hb).1
    refine ⟨?_, fun k j => hd k j i hj⟩
    have : i = 0 ∨ i = 1 ∨ i = 2 := by omega
    rcases this with rfl | rfl | rfl <;> simp [exHalo] at ha hb <;> rw [← ha, ← hb] <;> norm_num
  intro i
  rcases i with _ | i
  · exact ⟨hg, all_pairs (by decide +kernel), (by decide : exHalo.lon.length ≤ 5000), Or.inr ⟨rfl, by decide +kernel⟩, rfl, Or.inl (by decide : exHalo.depth.length ≤ 1), by simp [exHal, Increasing], by simp [exHal],
      fun _ => ⟨rfl, rfl, rfl⟩, fun _ => hcyc _ fun _ _ _ _ => rfl⟩
  · exact ⟨hg, all_pairs (by decide +kernel), (by decide : exHalo.lon.length ≤ 5000), Or.inr ⟨rfl, by decide +kernel⟩, rfl, Or.inl (by decide : exHalo.depth.length ≤ 1), by simp [exHal, Increasing], by simp [exHal],
      fun _ => ⟨rfl, rfl, rfl⟩, fun _ => hcyc _ fun k j i hi => by simp [exHal]⟩

theorem exHal_hints : Hints exHal GridRun.newHints := by
  intro i
  rcases i with _ | i <;> simp [exHal, exHalo, GridRun.newHints]

theorem exCos_pos (y : ℚ) : 1 / 2 ≤ exCos y := by
  unfold exCos
  split_ifs <;> norm_num

def exHalParts : List (TP ((ℚ × ℚ × ℚ) × (Nat → Hint))) :=
  [(0, ⟨0, 1 / 2, .success, ((350, 1, 0), GridRun.newHints)⟩), (1, ⟨0, 1 / 2, .success, ((100, 799 / 10, 0), GridRun.newHints)⟩)]

/-- The hypotheses of `C101_global` can be met: the runs end, one particle has gone across the seam, the other has left the grid in the north. -/
example : (∀ i, Sound (exHal i).fld exHalo.lon) ∧ Grids exHal ∧ (∃ val, Everywhere exCos exHal val ∧
      ∀ t z y x w, val 0 t z y x = some w → |w| * |exPacOpts.dt| ≤ 45) ∧
    Spans exHal (fun _ => exHalo.lon) (0 - 45) (0 + 360 + 45) ∧ Regular exPacOpts 0 4 exHalParts ∧ (∀ q ∈ exHalParts, Hints exHal q.2.vars.2) ∧
    (∀ q ∈ exHalParts, 0 ≤ q.2.vars.1.1 ∧ q.2.vars.1.1 ≤ 0 + 360) ∧
    (match execute exPacOpts (scipyExec (kernel (scipyScheme exCos exHal (periodic 0 (0 + 360) rk4))) WholeRun.exDelete 5 2) 5 WholeRun.exFile (exHalParts.map strip),
      execute exPacOpts (jitExec (kernel (jitScheme exCos exHal (periodic 0 (0 + 360) rk4))) WholeRun.exDelete 5 2) 5 WholeRun.exFile exHalParts with
    | some (.done s), some (.done s') => decide (s.ps.map core = (s'.ps.map core).map bare ∧ s.ps.length = 1 ∧
        ∀ c ∈ s.ps.map core, c.2.2.1 = 30)
    | _, _ => false) = true := by
  obtain ⟨val, hval⟩ := everywhere_exists exHal_sound (fun i => by rcases i with _ | i <;> rfl) exCos
  refine ⟨exHal_sound, ?_, ⟨val, hval, ?_⟩, ?_, ?_, ?_, ?_, by decide +kernel⟩
  · intro i j _
    rcases i with _ | i <;> rcases j with _ | j <;> simp [exHal]
  · intro t z y x w hw
    have e := value_constant (f := exHal 0) (c := 20 * deg) (fun _ _ _ _ => rfl) (by simp [exHal]) ((hval _ _ _ _ _ _).mp hw)
    have hc := exCos_pos y
    have e2 : w = 20 / exCos y := by
      rw [e]
      show 20 * deg / (60 * 1852 * exCos y) = _
      rw [show (60 : ℚ) * 1852 = deg from rfl, mul_comm 20 deg, mul_div_mul_left _ _ (by norm_num [deg])]
    have : |w| ≤ 40 := by
      rw [e2, abs_of_nonneg (by positivity), div_le_iff₀ (by linarith)]
      linarith
    have hd : |exPacOpts.dt| = 1 / 2 := by norm_num [exPacOpts, abs_div]
    rw [hd]
    linarith
  · rintro i (rfl | rfl) <;> exact ⟨rfl, by decide +kernel, by decide +kernel⟩
  · unfold exHalParts; exact regular_two _ _
  · intro q hq
    simp only [exHalParts, List.mem_cons, List.not_mem_nil, or_false] at hq
    rcases hq with rfl | rfl <;> exact exHal_hints
  · intro q hq
    simp only [exHalParts, List.mem_cons, List.not_mem_nil, or_false] at hq
    rcases hq with rfl | rfl <;> norm_num

/-- The kernel of the tutorial on periodic boundaries does not do this on such data: it moves particles by the difference between the last and the first
longitude of the data, here 315 instead of 360 degrees. A particle that drifts from 305 to the east ends at 30 instead of 345. -/
theorem C101_tutorial_fails :
    (match execute exPacOpts (scipyExec (kernel (scipyScheme exCos exHal (periodic 0 315 GridRun.rk4))) (fun _ => none) 5 2) 5 WholeRun.exFile
        [(0, ⟨0, 1 / 2, .success, (305, 0, 0)⟩)],
      execute exPacOpts (scipyExec (kernel (scipyScheme exCos exHal (periodic 0 360 GridRun.rk4))) (fun _ => none) 5 2) 5 WholeRun.exFile
        [(0, ⟨0, 1 / 2, .success, (305, 0, 0)⟩)] with
    | some (.done s), some (.done s') => decide (s.ps.map (fun q => (q.1, q.2.time, q.2.vars.1)) = [(0, 2, 30)] ∧ s'.ps.map (fun q => (q.1, q.2.time, q.2.vars.1)) = [(0, 2, 345)])
    | _, _ => false) = true := by
  decide +kernel

/-- The hypotheses of `C101_uniform` can be met, and the runs end: north of latitude 5 a degree of longitude is half as long, with the function that stands for the cosine. -/
example : (∀ i, Sound (exGlo i).fld exGlobal.lon) ∧ Grids exGlo ∧ Constant (exGlo 0).fld deg ∧ Constant (exGlo 1).fld 0 ∧ (exGlo 0).units = .geographicPolar ∧
    (exGlo 1).units = .geographic ∧ Regular exPacOpts 0 4 [(0, ⟨0, 1 / 2, .success, ((10, 6, 0), GridRun.newHints)⟩), (1, ⟨0, 1 / 2, .success, ((20, 0, 0), GridRun.newHints)⟩)] ∧
    (∀ i t (x y : ℚ), 0 ≤ x → x ≤ 360 → -10 ≤ y → y ≤ 10 → Covers (exGlo i).fld t 0 y x) ∧
    (match execute exPacOpts (jitExec (kernel (jitScheme exCos exGlo rk4)) (fun _ => none) 5 2) 5 WholeRun.exFile
        [(0, ⟨0, 1 / 2, .success, ((10, 6, 0), GridRun.newHints)⟩), (1, ⟨0, 1 / 2, .success, ((20, 0, 0), GridRun.newHints)⟩)] with
    | some (.done s') => decide ((s'.ps.map core).map bare = [(0, 2, 14, 6, 0), (1, 2, 22, 0, 0)])
    | _ => false) = true := by
  refine ⟨exGlo_sound, ?_, fun _ _ _ _ => rfl, fun _ _ _ _ => rfl, rfl, rfl, regular_two _ _, ?_, by decide +kernel⟩
  · intro i j _; exact ⟨rfl, rfl⟩
  · intro i t x y h1 h2 h3 h4
    exact ⟨⟨0, 360, by simp [exGlo, exGlobal], by simp [exGlo, exGlobal], h1, h2⟩, ⟨-10, 10, by simp [exGlo, exGlobal], by simp [exGlo, exGlobal], h3, h4⟩,
      fun h => by simp [exGlo, exGlobal] at h, Or.inl rfl⟩

end Parcels.SphereRun
