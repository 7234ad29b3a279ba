import Verif.Proofs.ExportRun

/-!
C105: the exported file of a run contains the trajectories. C106: a run can be continued from the exported file.
-/

namespace Parcels.ExportRun

open KernelLoop (Particle Kern Exc)
open Recovery (TP RMap)
open WholeRun
open Output (newFile)
open Restart (PVar NcFile RestartTime FileOf fromParticleFile)

variable {V W : Type}

/-! ## C105 -/

/-- C105. After a run on a new file in which everything happens after a whole number of steps (see C97), the export does not fail, and each array of the file is
the table of the trajectories: one row for each particle that has a point at an output time, in order of ID; in each row the particle's points at the output
times (the start, every `outputdt`, the end) from its start to its end, in order of time, then missing values. (`val` is the variable that is exported: the
particle's ID, its time, or anything computed from its variables.) In both modes. -/
theorem C105_export_partial {f : Scheme V} {user : RMap Unit V} {exec : Exec V} (hm : IsMode (kernel f) user exec) {o : Opts} {S : ℚ} {N : ℕ}
    {ps : List (TP V)} (h : Regular o S N ps) (hs : ps.Pairwise fun a b => a.1 < b.1)
    (hok : Deletes user ∨ ∀ q ∈ ps, (trajectory f o.dt (S + N * o.dt) q).isSome) (hf : o.hasFile = true) (i : ℚ) (hi : o.outputdt = some i) (once : Bool)
    (fuel : ℕ) (r : Run V) (hr : execute o exec fuel (newFile false once) ps = some r)
    (path : ℕ → List Char) (hpath : ∀ k, Npy.hasOnce (path k) = false) :
    ∃ s, r = .done s ∧ ∀ (W : Type) (val : Output.P V → W) (g : ℕ × ℚ × V → W), (∀ q : TP V, val (view q) = g (core q)) →
      exported path val s = some (table g (rows f o.dt (outputTimes S o.dt i N) ps)) := by
  obtain ⟨s, rfl, hrec⟩ := C97_records hm h hok fuel _ r hr hf rfl (by simp [newFile]) i hi
  refine ⟨s, rfl, fun W val g hval => ?_⟩
  have hn : (ps.map Prod.fst).Nodup := by
    rw [List.nodup_iff_pairwise_ne, List.pairwise_map]
    exact hs.imp fun h => h.ne
  have hH := execute_hist h (mode_effect hm h.step) hok hn fuel _ s hr
  exact exported_eq f hH (ne_zero_of h.step) _ ps hs hrec path hpath val g hval

/-- C105. If moreover all particles start at the start of the run and no trajectory ends, all rows are complete: the array of times has one row per particle, with
all output times. -/
theorem C105_times {f : Scheme V} {user : RMap Unit V} {exec : Exec V} (hm : IsMode (kernel f) user exec) {o : Opts} {S : ℚ} {N : ℕ}
    {ps : List (TP V)} (h : Regular o S N ps) (hs : ps.Pairwise fun a b => a.1 < b.1) (hstart : ∀ q ∈ ps, q.2.time = S)
    (hall : ∀ q ∈ ps, (trajectory f o.dt (S + N * o.dt) q).isSome) (hf : o.hasFile = true) (i : ℚ) (hi : o.outputdt = some i) (once : Bool)
    (fuel : ℕ) (r : Run V) (hr : execute o exec fuel (newFile false once) ps = some r)
    (path : ℕ → List Char) (hpath : ∀ k, Npy.hasOnce (path k) = false) :
    ∃ s, r = .done s ∧ exported path (fun p => p.time) s = some (ps.map fun _ => (outputTimes S o.dt i N).map fun t => some (some t)) := by
  obtain ⟨s, rfl, hE⟩ := C105_export_partial hm h hs (Or.inr hall) hf i hi once fuel r hr path hpath
  refine ⟨s, rfl, ?_⟩
  rw [hE _ (fun p => p.time) (fun c => some c.2.1) (fun q => rfl)]
  have hne := ne_zero_of h.step
  obtain ⟨k, hk, rfl⟩ := h.output i hi
  obtain ⟨-, htimes, hend⟩ := times_nodup (S := S) (N := N) hne hk
  have hrow : ∀ q ∈ ps, (row f o.dt (outputTimes S o.dt (k * |o.dt|) N) q).map (fun c => c.2.1) = outputTimes S o.dt (k * |o.dt|) N := by
    intro q hq
    unfold row
    rw [List.map_filterMap]
    conv_rhs => rw [← List.map_id (outputTimes S o.dt (k * |o.dt|) N), ← List.filterMap_eq_map']
    apply List.filterMap_congr
    intro t ht
    obtain ⟨n, hn, rfl⟩ := htimes t ht
    have h1 : (trajectory f o.dt (S + n * o.dt) q).isSome :=
      traj_isSome f hne (core q) 0 n N (by rw [zero_steps]; exact hstart q hq) hn (hall q hq)
    have h2 : ¬ 0 < (q.2.time - (S + n * o.dt)) * sgn o.dt := by
      rw [hstart q hq]
      have := (grid_lt (S := S) hne (j := 0) (m := n)).not.mpr (Nat.not_lt_zero n)
      rwa [zero_steps] at this
    obtain ⟨c, hc⟩ := Option.isSome_iff_exists.mp h1
    have h3 : record f o.dt (S + n * o.dt) q = some c := by unfold record; rw [if_neg h2]; exact hc
    rw [h3, Option.map_some, record_time h3]
    rfl
  have hlen : ∀ q ∈ ps, (row f o.dt (outputTimes S o.dt (k * |o.dt|) N) q).length = (outputTimes S o.dt (k * |o.dt|) N).length := by
    intro q hq
    conv_rhs => rw [← hrow q hq]
    rw [List.length_map]
  have hrows : rows f o.dt (outputTimes S o.dt (k * |o.dt|) N) ps = ps.map (row f o.dt (outputTimes S o.dt (k * |o.dt|) N)) := by
    unfold rows
    rw [List.filter_eq_self]
    intro x hx
    obtain ⟨q, hq, rfl⟩ := List.mem_map.mp hx
    have : row f o.dt (outputTimes S o.dt (k * |o.dt|) N) q ≠ [] := by
      intro e
      have h5 := hlen q hq
      rw [e] at h5
      rw [List.eq_nil_of_length_eq_zero h5.symm] at hend
      cases hend
    simpa using this
  congr 1
  unfold table
  rw [hrows, List.map_map]
  apply List.map_congr_left
  intro q hq
  simp only [Function.comp]
  have hw : width (ps.map (row f o.dt (outputTimes S o.dt (k * |o.dt|) N))) ≤ (outputTimes S o.dt (k * |o.dt|) N).length := by
    unfold width
    rcases Npy.foldr_max_mem ((ps.map (row f o.dt (outputTimes S o.dt (k * |o.dt|) N))).map List.length) with e | e
    · rw [e]; exact Nat.zero_le _
    · obtain ⟨x, hx, e'⟩ := List.mem_map.mp e
      obtain ⟨q', hq', rfl⟩ := List.mem_map.mp hx
      rw [← e', hlen q' hq']
  rw [hlen q hq, Nat.sub_eq_zero_of_le hw, List.replicate_zero, List.append_nil]
  conv_rhs => rw [← hrow q hq]
  rw [List.map_map]
  rfl

/-- Names of temporary files. -/
def exPath : ℕ → List Char := fun _ => "out/0/f.npy".toList

theorem exPath_ok : ∀ k, Npy.hasOnce (exPath k) = false := fun _ => by
  change Npy.hasOnce "out/0/f.npy".toList = false
  decide +kernel

/-- The hypotheses of C105 can be met: the run of the example of C97, in which the second particle starts later and is deleted and the third starts even later.
Its file. -/
example : Regular (exOpts 2 (.runtime 4)) 0 4 exPs ∧ (exPs.Pairwise fun a b => a.1 < b.1) ∧ Deletes (exDelete (V := ℚ)) ∧
    table (fun c => c.2.2) (rows exScheme 1 (outputTimes 0 1 2 4) exPs) = [[some 1, some 4, some 16], [some 100, none, none], [some 3, some 12, none]] ∧
    (match execute (exOpts 2 (.runtime 4)) (jitExec (kernel exScheme) exDelete 5 2) 5 exFile exPs with
    | some (.done s) => decide (
        exported exPath (fun p => p.vals) s = some [[some 1, some 4, some 16], [some 100, none, none], [some 3, some 12, none]] ∧
        exported exPath (fun p => p.time) s =
          some [[some (some 0), some (some 2), some (some 4)], [some (some 2), none, none], [some (some 2), some (some 4), none]] ∧
        exported exPath (fun p => p.id) s = some [[some 0, some 0, some 0], [some 1, none, none], [some 2, some 2, none]])
    | _ => false) = true := by
  refine ⟨exRegular, by decide, exDeletes, by decide +kernel, by decide +kernel⟩

/-- The hypotheses of `C105_times` can be met. -/
example : (∀ q ∈ exPs.take 1, q.2.time = 0) ∧ (∀ q ∈ exPs.take 1, (trajectory exScheme 1 4 q).isSome) ∧
    Regular (exOpts 2 (.runtime 4)) 0 4 (exPs.take 1) := by
  refine ⟨by decide, by decide +kernel, ⟨⟨_, List.mem_cons_self, rfl⟩, exRegular.step, exRegular.length, exRegular.end_, exRegular.output, exRegular.movie,
    exRegular.callback, exRegular.ahead, exRegular.input, fun q hq => exRegular.starts q (List.mem_of_mem_take hq)⟩⟩

/-- C105 is false if the path of the temporary files contains "once" (C21): of each trajectory only the last point is left. -/
theorem C105_path_fails : ∃ s : St ℚ,
    execute (exOpts 2 (.runtime 4)) (scipyExec (kernel exScheme) exDelete 5 2) 5 exFile exPs = some (.done s) ∧
    exported (fun _ => "concentration/out/0/f.npy".toList) (fun p => p.vals) s = some [[some 16], [some 100], [some 12]] := by
  have h1 : (match execute (exOpts 2 (.runtime 4)) (scipyExec (kernel exScheme) exDelete 5 2) 5 exFile exPs with
    | some (.done s) =>
      decide (exported (fun _ => "concentration/out/0/f.npy".toList) (fun p => p.vals) s = some [[some 16], [some 100], [some 12]])
    | _ => false) = true := by decide +kernel
  split at h1
  · rename_i s hs
    exact ⟨s, hs, of_decide_eq_true h1⟩
  · cases h1

/-! ## C106 -/

/-- C106. The set made by `from_particlefile` from the file of such a run, at the end of the run, has exactly the particles that are under way then: with their
identifiers, at the same time, with the same variables. The restart time is given, or it is the default and the run goes forward in time. (`get` reads a
variable, `make` puts variables together; all variables that matter are written to the file.) -/
theorem C106_set {f : Scheme V} {user : RMap Unit V} {exec : Exec V} (hm : IsMode (kernel f) user exec) {o : Opts} {S : ℚ} {N : ℕ}
    {ps : List (TP V)} (h : Regular o S N ps) (hs : ps.Pairwise fun a b => a.1 < b.1)
    (hok : Deletes user ∨ ∀ q ∈ ps, (trajectory f o.dt (S + N * o.dt) q).isSome) (hf : o.hasFile = true) (i : ℚ) (hi : o.outputdt = some i) (once : Bool)
    (hsome : ∃ q ∈ ps, ∃ c, record f o.dt (S + N * o.dt) q = some c)
    (fuel : ℕ) (s : St V) (hr : execute o exec fuel (newFile false once) ps = some (.done s))
    (path path1 : ℕ → List Char) (hpath : ∀ k, Npy.hasOnce (path k) = false) (hpath1 : ∀ k, Npy.hasOnce (path1 k) = true)
    (pvars : List PVar) (hn : (pvars.map (·.name)).Nodup) (ht : "time" ∉ pvars.map (·.name)) (honce : ∀ x ∈ pvars, x.toWrite ≠ .once)
    (get : String → V → Option ℚ) (make : (String → Option ℚ) → V)
    (hmake : ∀ (v : V) (g : String → Option ℚ), (∀ x ∈ pvars, x.toWrite = .yes → g x.name = get x.name v) → make g = v)
    (ncf : NcFile) (hfile : FileOf s.file.maxid.toNat s.file.timeWritten.length path path1 s.outs (fun n p => get n p.vals) pvars ncf)
    (rt : RestartTime) (hrt : rt = .at (S + N * o.dt) ∨ rt = .last ∧ 0 < o.dt) (lastID : ℤ) :
    ∃ c last, fromParticleFile lastID pvars ncf true rt = .ok (c, last) ∧
      (particlesOf make c).map core = ps.filterMap (record f o.dt (S + N * o.dt)) := by
  have hne := ne_zero_of h.step
  obtain ⟨s', e, hrec⟩ := C97_records hm h hok fuel _ _ hr hf rfl (by simp [newFile]) i hi
  obtain rfl : s = s' := by cases e; rfl
  have hnd : (ps.map Prod.fst).Nodup := by
    rw [List.nodup_iff_pairwise_ne, List.pairwise_map]
    exact hs.imp fun h => h.ne
  have hH := execute_hist h (mode_effect hm h.step) hok hnd fuel _ s hr
  obtain ⟨k, hk, rfl⟩ := h.output i hi
  obtain ⟨ht1, ht2, ht3⟩ := times_nodup (S := S) (N := N) hne hk
  obtain ⟨hpts, hviews⟩ := recordsAt_points f hH _ ps hs hrec ht1 _ ht3
  obtain ⟨es, h1, h2, h3⟩ := hH.isRun
  have hsg : sgn o.dt = 1 ∨ sgn o.dt = -1 := by
    unfold sgn
    rcases lt_trichotomy o.dt 0 with c | c | c
    · right; simp [c, not_lt.mpr c.le]
    · exact absurd c hne
    · left; simp [c]
  have hC56 := Restart.C56_records (sgn o.dt) hsg false once es h2 (by
    intro e he p hp
    obtain ⟨q, rfl⟩ := h3 e he p hp
    exact Int.natCast_nonneg _) path path1 hpath hpath1 (fun n p => get n p.vals) pvars ncf (S + N * o.dt) lastID
  dsimp only at hC56
  rw [h1] at hC56
  obtain ⟨c, c1, c2, c3⟩ := hC56 hfile (fun ⟨v, hv, hv'⟩ => absurd hv' (honce v hv))
  have hcore := particles_core make get pvars hn ht honce hmake s.outs _ _ hviews c c2 c3
  rcases hrt with rfl | ⟨rfl, hpos⟩
  · exact ⟨c, _, c1, hcore.trans hpts⟩
  · refine ⟨c, _, Eq.trans ?_ c1, hcore.trans hpts⟩
    apply restart_time_congr
    have htime := hfile.time
    have hE := exported_eq f hH hne _ ps hs hrec path hpath (fun p => p.time) (fun c => some c.2.1) (fun q => rfl)
    unfold exported at hE
    rw [hE] at htime
    simp only [Option.map_some, Option.some.injEq] at htime
    rw [← htime, restart_last _ (S + N * o.dt)]
    · rfl
    · obtain ⟨q, hq, c, hc⟩ := hsome
      have hcm : c ∈ row f o.dt (outputTimes S o.dt (k * |o.dt|) N) q := List.mem_filterMap.mpr ⟨_, ht3, hc⟩
      refine ⟨_, List.mem_filter.mpr ⟨List.mem_map_of_mem hq, ?_⟩, c, hcm, record_time hc⟩
      have := List.ne_nil_of_mem hcm
      simpa using this
    · intro x hx c hc
      obtain ⟨q, hq, rfl⟩ := List.mem_map.mp (List.mem_filter.mp hx).1
      obtain ⟨t, ht, e⟩ := List.mem_filterMap.mp hc
      obtain ⟨n, hn, rfl⟩ := ht2 t ht
      rw [record_time e]
      have : (n : ℚ) ≤ N := by exact_mod_cast hn
      nlinarith

/-- C106. A run of `N` steps, the export of its file, a new set made from the file, and a run of `M` steps of this set give the same particles as one run of
`N + M` steps, provided that all particles have started by the end of the first run, that one of them is under way then, and that all variables are in the
file. In both modes. -/
theorem C106_restart_partial {f : Scheme V} {user : RMap Unit V} {exec : Exec V} (hm : IsMode (kernel f) user exec) {o : Opts} {S : ℚ} {N M : ℕ}
    {u u' : Until} {ps : List (TP V)} (h : Regular o S N ps) (h' : Regular (o.lasting u') S (N + M) ps)
    (hM : 1 / 100000 ≤ M * |o.dt|) (hu : match u with | .runtime r => r = M * |o.dt| | .endtime e => e = S + N * o.dt + M * o.dt)
    (hs : ps.Pairwise fun a b => a.1 < b.1)
    (hok : Deletes user ∨ ∀ q ∈ ps, (trajectory f o.dt (S + N * o.dt + M * o.dt) q).isSome)
    (hf : o.hasFile = true) (i : ℚ) (hi : o.outputdt = some i) (once : Bool)
    (hsome : ∃ q ∈ ps, ∃ c, record f o.dt (S + N * o.dt) q = some c) (hstarted : ∀ q ∈ ps, ¬ 0 < (q.2.time - (S + N * o.dt)) * sgn o.dt)
    (n1 n2 n3 : ℕ) (s1 : St V) (hr1 : execute o exec n1 (newFile false once) ps = some (.done s1))
    (path path1 : ℕ → List Char) (hpath : ∀ k, Npy.hasOnce (path k) = false) (hpath1 : ∀ k, Npy.hasOnce (path1 k) = true)
    (pvars : List PVar) (hn : (pvars.map (·.name)).Nodup) (ht : "time" ∉ pvars.map (·.name)) (honce : ∀ x ∈ pvars, x.toWrite ≠ .once)
    (get : String → V → Option ℚ) (make : (String → Option ℚ) → V)
    (hmake : ∀ (v : V) (g : String → Option ℚ), (∀ x ∈ pvars, x.toWrite = .yes → g x.name = get x.name v) → make g = v)
    (ncf : NcFile) (hfile : FileOf s1.file.maxid.toNat s1.file.timeWritten.length path path1 s1.outs (fun n p => get n p.vals) pvars ncf)
    (rt : RestartTime) (hrt : rt = .at (S + N * o.dt) ∨ rt = .last ∧ 0 < o.dt) (lastID : ℤ)
    (file2 file3 : Output.PFile) (r3 : Run V) (hr3 : execute (o.lasting u') exec n3 file3 ps = some r3) :
    ∃ c last, fromParticleFile lastID pvars ncf true rt = .ok (c, last) ∧
      ∀ r2, execute (o.lasting u) exec n2 file2 (particlesOf make c) = some r2 →
        ∃ s2 s3, r2 = .done s2 ∧ r3 = .done s3 ∧ s2.ps.map core = s3.ps.map core := by
  have hne := ne_zero_of h.step
  have e : S + N * o.dt + M * o.dt = S + ((N + M : ℕ) : ℚ) * o.dt := by push_cast; ring
  have hok1 : Deletes user ∨ ∀ q ∈ ps, (trajectory f o.dt (S + N * o.dt) q).isSome := by
    rcases hok with hd | hd
    · exact Or.inl hd
    · right
      intro q hq
      obtain ⟨j, hj⟩ := h.starts q hq
      refine traj_isSome f hne (core q) j N (N + M) hj (by omega) ?_
      rw [← e]
      exact hd q hq
  obtain ⟨c, last, k0, hc0⟩ := C106_set hm h hs hok1 hf i hi once hsome n1 s1 hr1 path path1 hpath hpath1 pvars hn ht honce get make hmake ncf hfile rt hrt lastID
  refine ⟨c, last, k0, fun r2 hr2 => ?_⟩
  have hc1 : (particlesOf make c).map core = ps.filterMap (trajectory f o.dt (S + N * o.dt)) := by
    rw [hc0]
    apply List.filterMap_congr
    intro q hq
    unfold record
    rw [if_neg (hstarted q hq)]
  have h2 := regular_second (u := u) h hc1 hsome hM hu
  have hok2 : Deletes user ∨ ∀ q ∈ particlesOf make c, (trajectory f o.dt (S + N * o.dt + M * o.dt) q).isSome := by
    rcases hok with hd | hd
    · exact Or.inl hd
    · right
      intro q hq
      have : core q ∈ (particlesOf make c).map core := List.mem_map_of_mem hq
      rw [hc1, List.mem_filterMap] at this
      obtain ⟨q0, hq0, eq⟩ := this
      obtain ⟨j, hj⟩ := h.starts q0 hq0
      have hh := hd q0 hq0
      rw [e, trajectory_eq, ← traj_comp f hne (core q0) j N (N + M) hj (by omega), ← trajectory_eq, eq] at hh
      rw [e]
      exact hh
  obtain ⟨s2, k1, k2⟩ := C97_run hm h2 hok2 n2 file2 _ hr2
  obtain ⟨s3, k3, k4⟩ := C97_run hm h' (by
    rcases hok with hd | hd
    · exact Or.inl hd
    · right
      intro q hq
      have := hd q hq
      rw [e] at this
      exact this) n3 file3 _ hr3
  refine ⟨s2, s3, k1, k3, ?_⟩
  rw [k2, k4]
  change (particlesOf make c).filterMap (trajectory f o.dt (S + N * o.dt + M * o.dt)) = ps.filterMap (trajectory f o.dt (S + ((N + M : ℕ) : ℚ) * o.dt))
  rw [second_trajectory h M hc1, e]

/-! ### Cases -/

/-- The variables of the class of particles: one is written, one is not. -/
def exVars : List PVar := [⟨"lon", .yes⟩, ⟨"xi", .no⟩]

def exGet : String → ℚ → Option ℚ := fun _ v => some v

def exMake : (String → Option ℚ) → ℚ := fun g => (g "lon").getD 0

/-- The file of a run. -/
def exNc (s : St ℚ) : NcFile :=
  { traj := (exported exPath (fun p => p.id) s).getD []
    time := ((exported exPath (fun p => p.time) s).getD []).map fun r => r.map Option.join
    vars := [("lon", .grid (((exported exPath (fun p => exGet "lon" p.vals) s).getD []).map fun r => r.map Option.join))] }

/-- The run, the file, the new set and the second run. -/
def exRestart (o o2 : Opts) (ps : List (TP ℚ)) : Option (List (ℕ × ℚ × ℚ) × List (ℕ × ℚ × ℚ)) :=
  match execute o (jitExec (kernel exScheme) exDelete 9 2) 9 exFile ps with
  | some (.done s) =>
    match fromParticleFile 17 exVars (exNc s) true .last with
    | .ok c =>
      match execute o2 (jitExec (kernel exScheme) exDelete 9 2) 9 exFile (particlesOf exMake c.1) with
      | some (.done s2) => some ((particlesOf exMake c.1).map core, s2.ps.map core)
      | _ => none
    | _ => none
  | _ => none

theorem exMake_ok : ∀ (v : ℚ) (g : String → Option ℚ), (∀ x ∈ exVars, x.toWrite = .yes → g x.name = exGet x.name v) → exMake g = v := by
  intro v g h
  have := h ⟨"lon", .yes⟩ (by simp [exVars]) rfl
  simp [exMake, this, exGet]

/-- The hypotheses of C106 can be met: the run of C98, with a file in between. -/
example : ∃ s : St ℚ, execute (exOpts 2 (.runtime 2)) (jitExec (kernel exScheme) exDelete 5 2) 5 exFile exPs = some (.done s) ∧
    FileOf s.file.maxid.toNat s.file.timeWritten.length exPath (fun _ => "out/0/f_once.npy".toList) s.outs (fun n p => exGet n p.vals) exVars (exNc s) ∧
    (∀ q ∈ exPs, ¬ 0 < (q.2.time - (0 + (2 : ℕ) * 1)) * sgn 1) ∧ (∃ q ∈ exPs, ∃ c, record exScheme 1 (0 + (2 : ℕ) * 1) q = some c) := by
  have h1 : (match execute (exOpts 2 (.runtime 2)) (jitExec (kernel exScheme) exDelete 5 2) 5 exFile exPs with
    | some (.done s) => decide ((exported exPath (fun p => p.id) s).isSome ∧ (exported exPath (fun p => p.time) s).isSome ∧
        (exported exPath (fun p => exGet "lon" p.vals) s).isSome)
    | _ => false) = true := by decide +kernel
  split at h1
  · rename_i s hs
    obtain ⟨a1, a2, a3⟩ := of_decide_eq_true h1
    obtain ⟨x1, e1⟩ := Option.isSome_iff_exists.mp a1
    obtain ⟨x2, e2⟩ := Option.isSome_iff_exists.mp a2
    obtain ⟨x3, e3⟩ := Option.isSome_iff_exists.mp a3
    refine ⟨s, hs, ⟨?_, ?_, ?_, ?_, ?_, ?_⟩, by decide +kernel, ⟨(0, ⟨0, 1, .success, 1⟩), by simp [exPs], (0, 2, 4), by decide +kernel⟩⟩
    · simp only [exNc, e1, Option.getD_some]; exact e1
    · simp only [exNc, e2, Option.getD_some]
      unfold exported at e2
      rw [e2]
      rfl
    · intro v hv hy
      simp only [exVars, List.mem_cons, List.not_mem_nil, or_false] at hv
      rcases hv with rfl | rfl
      · exact ⟨x3, e3, by simp [exNc, e3, Restart.fileName]⟩
      · cases hy
    · intro v hv hy
      simp only [exVars, List.mem_cons, List.not_mem_nil, or_false] at hv
      rcases hv with rfl | rfl <;> cases hy
    · intro v hv hy
      simp only [exVars, List.mem_cons, List.not_mem_nil, or_false] at hv
      rcases hv with rfl | rfl
      · cases hy
      · simp [exNc, Restart.fileName, List.lookup]
    · intro v hv hy
      simp only [exVars, List.mem_cons, List.not_mem_nil, or_false] at hv
      rcases hv with rfl | rfl <;> exact absurd hy (by decide)
  · cases h1

/-- The whole sequence: the second set has the three particles at time 2; after two more steps the second has left, the others are where one run of four steps
leads (see the example of C97). -/
example : exRestart (exOpts 2 (.runtime 2)) (exOpts 2 (.runtime 2)) exPs = some ([(0, 2, 4), (1, 2, 100), (2, 2, 3)], [(0, 4, 16), (2, 4, 12)]) := by
  decide +kernel

/-- C106 is false for particles that start after the end of the first run: they are not in the file. With the first run ending at time 1, the particle that
starts at time 2 is lost. -/
theorem C106_late_fails : exRestart (exOpts 1 (.runtime 1)) (exOpts 1 (.runtime 3)) exPs = some ([(0, 1, 2), (1, 1, 50)], [(0, 4, 16)]) ∧
    (match execute (exOpts 1 (.runtime 4)) (jitExec (kernel exScheme) exDelete 9 2) 9 exFile exPs with
    | some (.done s) => decide (s.ps.map core = [(0, 4, 16), (2, 4, 12)]) | _ => false) = true := by
  decide +kernel

/-- Two particles that go backward in time from time 4. -/
def exPast : List (TP ℚ) := [(0, ⟨4, 1, .success, 8⟩), (1, ⟨4, 1, .success, 16⟩)]

def exBackOpts (r : ℚ) : Opts := ⟨-1, .runtime r, true, some 1, none, none, fun _ _ => .ninf⟩

/-- C106 is false for runs backward in time with the default restart time: the set starts again at the beginning of the first run, because the latest time in
the file is the first one. -/
theorem C106_backward_fails : exRestart (exBackOpts 2) (exBackOpts 1) exPast = some ([(0, 4, 8), (1, 4, 16)], [(0, 3, 0), (1, 3, 0)]) := by
  decide +kernel

end Parcels.ExportRun
