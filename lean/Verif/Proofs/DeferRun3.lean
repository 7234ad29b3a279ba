import Verif.Proofs.DeferRun2

namespace Parcels.DeferRun

open WholeRun
open Recovery (TP)
open Schedule (Args Ext After AfterExt NotBefore NB)

variable {V V' : Type}

/-! ### The whole run -/

theorem write_sched (hasFile : Bool) (s : St V) (c : Schedule.St) (t : ℚ) :
    write hasFile { s with sched := c } t = (write hasFile s t).map fun s' => { s' with sched := c } := by
  cases hasFile with
  | false => rfl
  | true =>
    unfold write
    simp only [cond_true]
    cases Output.toDict s.file (s.ps.map view) t .regular <;> rfl

theorem write_ps {hasFile : Bool} {s s' : St V} {t : ℚ} (h : write hasFile s t = some s') : s'.ps = s.ps := by
  unfold write at h
  cases hasFile with
  | false => rw [← Option.some.inj h]
  | true =>
    rw [cond_true] at h
    split at h
    · cases h
    · rw [← Option.some.inj h]

theorem startTime_map (π : V' → V) (dt : ℚ) (ps : List (TP V')) : startTime dt (ps.map (mapP π)) = startTime dt ps := by
  cases ps with
  | nil => rfl
  | cons q qs =>
    rw [List.map_cons, startTime, startTime, List.foldl_map, List.foldl_map]
    rfl

theorem init_orc (a : Args) (dt : ℚ) {S : ℚ} (h : a.S = S) (e : Ext) : Schedule.init { a with input := orc dt S e } = Schedule.init (withInput a e) := by
  have : orc dt S e 0 a.S = e := if_pos h
  unfold Schedule.init withInput
  simp only [this]
  rfl

/-- The first request. -/
def First (S dt : ℚ) (gs gs1 : Grids) (nx : Option ℚ) (Good : Grids → ℕ → Ext → Prop) : Prop :=
  TimeChunk.computeTimeChunk gs S (sgn dt) = .ok (gs1, nx) ∧ Good gs1 0 (ext dt nx) ∧ AfterExt dt S (ext dt nx) ∧ GridExt S dt (ext dt nx)

/-- The state before the loop. -/
theorem start {f : Scheme V} {π : V' → V} {I : V' → Prop} {o : Opts} {S : ℚ} {N : ℕ} {ps : List (TP V')} (h : Regular o S N (ps.map (mapP π)))
    {gs gs1 : Grids} {nx : Option ℚ} {Good : Grids → ℕ → Ext → Prop} (hF : First S o.dt gs gs1 nx Good) (hI : ∀ q ∈ ps, I q.2.vars) (file : Output.PFile) :
    ∃ s1, write (args o S).hasFile ⟨Schedule.init (args o S), ps.map fun q => (q.1, { q.2 with dt := (args o S).dt }), file, []⟩ S = some s1 ∧
      (∀ q ∈ s1.ps, I q.2.vars) ∧ Good gs1 0 (Schedule.init (withInput (args o S) (ext (args o S).dt nx))).nextIn ∧
      J f o S N (args o S) (ps.map (mapP π)) (firstRecords f o.dt S file (ps.map (mapP π))) file.writeOndelete 0
        (mapS π { s1 with sched := Schedule.init (withInput (args o S) (ext (args o S).dt nx)) }) := by
  have hne := ne_zero_of h.step
  have ha := args_plain h
  obtain ⟨h1, h2, h3, h4⟩ := hF
  have h' := regular_orc h h3 h4
  have ha' := plain_orc ha (orc o.dt S (ext o.dt nx))
  obtain ⟨t1, e1, hJ⟩ := start_J f h' ha' file
  have hi : Schedule.init { args o S with input := orc o.dt S (ext o.dt nx) } = Schedule.init (withInput (args o S) (ext o.dt nx)) :=
    init_orc (args o S) o.dt ha.start (ext o.dt nx)
  have hst : (⟨Schedule.init { args o S with input := orc o.dt S (ext o.dt nx) }, (ps.map (mapP π)).map fun q => (q.1, { q.2 with dt := (args o S).dt }), file, []⟩ : St V) =
      mapS π { (⟨Schedule.init (args o S), ps.map fun q => (q.1, { q.2 with dt := (args o S).dt }), file, []⟩ : St V') with
        sched := Schedule.init (withInput (args o S) (ext (args o S).dt nx)) } := by
    rw [hi, ha.dt]
    unfold mapS
    simp only [List.map_map, List.map_nil]
    rfl
  have e1' : write (args o S).hasFile (⟨Schedule.init { args o S with input := orc o.dt S (ext o.dt nx) }, (ps.map (mapP π)).map fun q => (q.1, { q.2 with dt := (args o S).dt }), file, []⟩ : St V) S = some t1 := e1
  rw [hst, write_map, write_sched] at e1'
  obtain ⟨s1', w1, rfl⟩ := Option.map_eq_some_iff.mp e1'
  obtain ⟨s1, w2, rfl⟩ := Option.map_eq_some_iff.mp w1
  refine ⟨s1, w2, ?_, ?_, J_of_input hJ⟩
  · intro q hq
    rw [write_ps w2] at hq
    obtain ⟨p, hp, rfl⟩ := List.mem_map.mp hq
    exact hI p hp
  · have : (Schedule.init (withInput (args o S) (ext (args o S).dt nx))).nextIn = ext o.dt nx := by
      unfold Schedule.init withInput
      dsimp only
      rw [if_pos ha.fieldset, ha.dt]
    rw [this]
    exact h2

/-- The run returned, with the particles and the records as they should be. -/
theorem execute_good {D R : Prop} {f : Scheme V} {π : V' → V} {I : V' → Prop} {o : Opts} {S : ℚ} {N : ℕ} {ps : List (TP V')}
    (h : Regular o S N (ps.map (mapP π))) {exec : Grids → Exec V'} {Good : Grids → ℕ → Ext → Prop} (hs : Serves D R f π I S o.dt N exec Good)
    {gs gs1 : Grids} {nx : Option ℚ} (hF : First S o.dt gs gs1 nx Good) (hI : ∀ q ∈ ps, I q.2.vars)
    (hok : D ∨ ∀ q ∈ ps.map (mapP π), (trajectory f o.dt (S + N * o.dt) q).isSome) (fuel : ℕ) (file : Output.PFile) (r : Run V' × Grids)
    (hr : execute o exec fuel file gs ps = some r) :
    ∃ s, r.1 = .done s ∧ (s.ps.map (mapP π)).map core = (ps.map (mapP π)).filterMap (trajectory f o.dt (S + N * o.dt)) ∧
      (o.hasFile = true → file.writeOndelete = false → ∀ i, o.outputdt = some i →
        records (mapS π s) = firstRecords f o.dt S file (ps.map (mapP π)) ++
          (outputTimes S o.dt i N).tail.flatMap fun t => (ps.map (mapP π)).filterMap (record f o.dt t)) := by
  have hne := ne_zero_of h.step
  have ha := args_plain h
  obtain ⟨s1, e1, e2, e3, hJ1⟩ := start (f := f) h hF hI file
  unfold execute at hr
  rw [← startTime_map π, h.startTime] at hr
  dsimp only at hr
  rw [e1] at hr
  dsimp only at hr
  rw [ha.dt, hF.1] at hr
  dsimp only at hr
  rw [ha.dt] at e3 hJ1
  cases hl : loop (args o S) exec fuel gs1 { s1 with sched := Schedule.init (withInput (args o S) (ext o.dt nx)) } with
  | none => rw [hl] at hr; cases hr
  | some r1 =>
    obtain ⟨s2, er, hJ⟩ := loop_good h ha hs hok fuel 0 gs1 _ r1 (Or.inl e3) hJ1 e2 hl
    obtain ⟨r11, r12⟩ := r1
    dsimp only at er
    subst er
    rw [hl] at hr
    dsimp only at hr
    obtain ⟨t3, k1, k2, k3, k4⟩ := write_at hne h.starts (args o S).hasFile (mapS π s2) N hJ.at_
    have ht : s2.sched.time = S + N * o.dt := hJ.time
    rw [write_map] at k1
    obtain ⟨s3, k1', rfl⟩ := Option.map_eq_some_iff.mp k1
    rw [ht, k1'] at hr
    obtain rfl := Option.some.inj hr
    refine ⟨s3, rfl, ?_, ?_⟩
    · have := hJ.at_.core
      rw [← k2] at this
      exact this
    intro hf hw i hi
    obtain ⟨k, hk, rfl⟩ := h.output i hi
    obtain ⟨w1, K, w2, w3, w4, w5⟩ := hJ.out hf hw k hk hi
    obtain ⟨x1, x2, x3⟩ := k4 (by rw [ha.file]; exact hf) w1
    have hlt : N < (K + 1) * k := by
      have := hJ.inv.next .output
      rw [w2, hJ.time, ha.dt] at this
      exact (grid_lt hne).mp this
    rw [outputTimes_eq hne hk w4 hlt, List.tail_cons, x3, w5, List.append_assoc, List.flatMap_append]
    congr 2
    · rw [List.flatMap_map]
    · rw [w3]
      by_cases c : K * k = N
      · rw [if_pos c, if_pos (by rw [c])]; rfl
      · rw [if_neg c, if_neg (fun e => c (grid_inj hne (Option.some.inj e)))]
        simp

theorem execute_bad {D R : Prop} {f : Scheme V} {π : V' → V} {I : V' → Prop} {o : Opts} {S : ℚ} {N : ℕ} {ps : List (TP V')}
    (h : Regular o S N (ps.map (mapP π))) {exec : Grids → Exec V'} {Good : Grids → ℕ → Ext → Prop} (hs : Serves D R f π I S o.dt N exec Good)
    {gs gs1 : Grids} {nx : Option ℚ} (hF : First S o.dt gs gs1 nx Good) (hI : ∀ q ∈ ps, I q.2.vars)
    (hu : R) (hbad : ∃ q ∈ ps.map (mapP π), trajectory f o.dt (S + N * o.dt) q = none) (fuel : ℕ) (file : Output.PFile) (r : Run V' × Grids)
    (hr : execute o exec fuel file gs ps = some r) : ∃ s, r.1 = .raised s := by
  have hne := ne_zero_of h.step
  have ha := args_plain h
  obtain ⟨s1, e1, e2, e3, hJ1⟩ := start (f := f) h hF hI file
  unfold execute at hr
  rw [← startTime_map π, h.startTime] at hr
  dsimp only at hr
  rw [e1] at hr
  dsimp only at hr
  rw [ha.dt, hF.1] at hr
  dsimp only at hr
  rw [ha.dt] at e3 hJ1
  cases hl : loop (args o S) exec fuel gs1 { s1 with sched := Schedule.init (withInput (args o S) (ext o.dt nx)) } with
  | none => rw [hl] at hr; cases hr
  | some r1 =>
    obtain ⟨s2, er⟩ := loop_bad h ha hs hu hbad fuel 0 gs1 _ r1 (Or.inl e3) hJ1 e2 (fun q hq => by
      obtain ⟨j, hj⟩ := h.starts q hq
      rw [trajectory_idle f hne q (by rw [hj]; exact (grid_le hne).mpr (Nat.zero_le j))]
      rfl) hl
    obtain ⟨r11, r12⟩ := r1
    dsimp only at er
    subst er
    rw [hl] at hr
    exact ⟨s2, by rw [← Option.some.inj hr]⟩

theorem execute_total {D R : Prop} {f : Scheme V} {π : V' → V} {I : V' → Prop} {o : Opts} {S : ℚ} {N : ℕ} {ps : List (TP V')}
    (h : Regular o S N (ps.map (mapP π))) {exec : Grids → Exec V'} {Good : Grids → ℕ → Ext → Prop} (hs : Serves D R f π I S o.dt N exec Good)
    {gs gs1 : Grids} {nx : Option ℚ} (hF : First S o.dt gs gs1 nx Good) (hI : ∀ q ∈ ps, I q.2.vars)
    (htot : ∀ gs n ps, n ≤ N → (∀ q ∈ ps, q.2.dt = o.dt ∧ ∃ j : ℕ, q.2.time = S + j * o.dt) → (exec gs (S + n * o.dt) o.dt ps).isSome)
    (hok : D ∨ R) (file : Output.PFile) : (execute o exec (N + 1) file gs ps).isSome := by
  have ha := args_plain h
  obtain ⟨s1, e1, e2, e3, hJ1⟩ := start (f := f) h hF hI file
  unfold execute
  rw [← startTime_map π, h.startTime]
  dsimp only
  rw [e1]
  dsimp only
  rw [ha.dt, hF.1]
  dsimp only
  rw [ha.dt] at e3 hJ1
  obtain ⟨⟨r, gr⟩, hr⟩ := Option.isSome_iff_exists.mp (loop_total h ha hs htot hok (N + 1) 0 gs1 _ (Or.inl e3) hJ1 e2 (by omega))
  rw [hr]
  cases r with
  | done s =>
    dsimp only
    cases write (args o S).hasFile s s.sched.time <;> rfl
  | raised s => rfl
  | crash s => rfl

end Parcels.DeferRun
