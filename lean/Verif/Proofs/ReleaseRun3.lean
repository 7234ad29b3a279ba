import Verif.Proofs.ReleaseRun2
import Verif.Proofs.WholeRun4

namespace Parcels.ReleaseRun

open KernelLoop (Kern)
open Recovery (TP RMap)
open Schedule (Args Ext After AfterExt NotBefore)
open WholeRun (Exec St Run Opts write startTime Scheme trajectory record core Regular Deletes Raises records outputTimes OnGrid ne_zero_of sgn_abs mul_sgn_self
  grid_le grid_lt grid_inj At GridInv GridExt Starts Plain OutInv Effect Fits firstRecords kernel)

variable {V : Type}

theorem IsMode.exec {K : Kern Unit V} {user : RMap Unit V} {exec : Exec V} {pass : Pass V} (h : IsMode K user exec pass) : WholeRun.IsMode K user exec := by
  obtain ⟨fuel, n, h | h⟩ := h
  · exact ⟨fuel, n, Or.inl h.1⟩
  · exact ⟨fuel, n, Or.inr h.1⟩

/-! ### The first run -/

/-- The first pass, if all trajectories go on. -/
theorem pass_good {f : Scheme V} {user : RMap Unit V} {exec : Exec V} {pass : Pass V} (hm : IsMode (kernel f) user exec pass) {dt T : ℚ}
    (hdt : 1 / 100000000 < |dt|) {ps qs : List (TP V)} (hps : ∀ q ∈ ps, q.2.dt = dt ∧ Fits dt T q) (hall : ∀ q ∈ ps, (trajectory f dt T q).isSome)
    (h : pass T dt ps = some qs) : qs.map core = ps.filterMap (trajectory f dt T) := by
  have hne := ne_zero_of hdt
  have hready := WholeRun.ready hps
  have key : List.Forall₂ (WholeRun.Ran f dt T) (ps.map fun q : TP V => (q.1, { q.2 with state := Code.evaluate })) qs := by
    obtain ⟨fuel, nRounds, ⟨-, rfl⟩ | ⟨-, rfl⟩⟩ := hm
    · unfold scipyPass at h
      rw [Option.map_eq_some_iff] at h
      obtain ⟨⟨w, qs', cs⟩, hp, rfl⟩ := h
      exact WholeRun.runPass_forall (kernel f) T dt fuel (WholeRun.Ran f dt T) _ _ () w cs
        (fun i p w b s hm hs => WholeRun.ran_of f dt T hdt fuel w b i p (hready _ hm).1 (hready _ hm).2.1 (hready _ hm).2.2 s hs) hp
    · unfold jitPass at h
      rw [Option.map_eq_some_iff] at h
      obtain ⟨⟨w, qs'⟩, hp, rfl⟩ := h
      obtain ⟨-, cs, hp⟩ := WholeRun.jrunPass f dt T hdt fuel _ _ () w (fun q hq => by rw [(hready q hq).2.1]; exact hne) hp
      exact WholeRun.runPass_forall (kernel f) T dt (fuel + 1) (WholeRun.Ran f dt T) _ _ () () cs
        (fun i p w b s hm hs => WholeRun.ran_of f dt T hdt (fuel + 1) w b i p (hready _ hm).1 (hready _ hm).2.1 (hready _ hm).2.2 s hs) hp
  rw [← WholeRun.filterMap_state, ← WholeRun.filter_core key, List.filter_eq_self.mpr]
  intro r hr
  obtain ⟨q, hq, hR⟩ := WholeRun.forall₂_right key r hr
  obtain ⟨q0, hq0, rfl⟩ := List.mem_map.mp hq
  simp only [decide_eq_true_eq]
  intro he
  have := (WholeRun.ran_code hR).1.mp he
  have h2 := hall q0 hq0
  rw [WholeRun.trajectory_state] at this
  rw [this] at h2
  cases h2

/-- If the kernel was executed, then so was its first pass. -/
theorem pass_some {K : Kern Unit V} {user : RMap Unit V} {exec : Exec V} {pass : Pass V} (hm : IsMode K user exec pass) {dt T : ℚ} {ps : List (TP V)}
    (h : (exec T dt ps).isSome) : (pass T dt ps).isSome := by
  obtain ⟨fuel, nRounds, ⟨rfl, rfl⟩ | ⟨rfl, rfl⟩⟩ := hm
  · unfold WholeRun.scipyExec at h
    unfold scipyPass
    rw [Option.isSome_map] at h ⊢
    unfold Recovery.execute at h
    split at h
    · cases h
    · rename_i e; rw [e]; rfl
  · unfold WholeRun.jitExec at h
    unfold jitPass
    rw [Option.isSome_map] at h ⊢
    unfold JitExec.execute at h
    split at h
    · cases h
    · rename_i e
      rw [show (id () , (none : Option ℚ)) = ((), none) from rfl] at e
      rw [e]; rfl

/-- Whether the arrays are those of the particles makes no difference after the first pass. -/
theorem loop_first (a : Args) (exec : Exec V) (pass : Pass V) (fresh : V → V) (n : ℕ) (rep : Repeat V) (s : St V) (t : ℚ) (vs : List V)
    (hc : Schedule.continues a s.sched) (hs : Schedule.nextStop a s.sched = .fin t) (hv : hold pass fresh t a.dt s.ps rep.held = some vs) :
    loop a exec pass fresh (n + 1) rep s = loop a exec pass fresh (n + 1) { rep with held := some vs } s := by
  rw [loop_succ a exec pass fresh n rep s t vs hc hs hv, loop_succ a exec pass fresh n { rep with held := some vs } s t vs hc hs rfl]
  rfl

/-- The first stop. -/
theorem first_stop {o : Opts} {S : ℚ} {N : ℕ} {ps0 : List (TP V)} {vs : List V} {id k z : ℕ} {a : Args} (h : Setup o S N a ps0 vs id k z) :
    Schedule.continues a (Schedule.init a) ∧ ∃ n : ℕ, Schedule.nextStop a (Schedule.init a) = .fin (S + n * o.dt) ∧ 0 < n ∧ n ≤ N ∧
      (n : ℚ) * |o.dt| ≤ k * |o.dt| ∧ ∀ i, o.hasFile = true → o.outputdt = some i → (n : ℚ) * |o.dt| ≤ i := by
  have hne := ne_zero_of h.reg.step
  have hp := abs_pos.mpr hne
  have hN : 0 < N := by
    have := h.reg.length
    rcases Nat.eq_zero_or_pos N with e | e
    · rw [e] at this; norm_num at this
    · exact e
  have hI := Schedule.inv_init (WholeRun.plain_ordinary h.reg h.plain)
  have ht : (Schedule.init a).time = S + ((0 : ℕ) : ℚ) * o.dt := by rw [WholeRun.zero_steps]; exact h.plain.start
  have hc : Schedule.continues a (Schedule.init a) := by
    rw [Schedule.continues_iff (by rw [h.plain.dt]; exact hne)]
    unfold After
    rw [ht, h.plain.E, h.plain.dt]
    exact (grid_lt hne).mpr hN
  refine ⟨hc, ?_⟩
  obtain ⟨n, e1, e2, e3, e4, e5⟩ := WholeRun.stop_grid h.reg h.plain hI (WholeRun.grid_init h.reg h.plain) 0 ht hc
  refine ⟨n, e1, e2, e3, ?_, ?_⟩
  · obtain ⟨s1, w, hJ⟩ := start_JR (fun _ _ v => .ok v) (vs := vs) h (Output.newFile false false) ⟨0, none, some vs, id⟩ rfl rfl
    have hsched : s1.sched = Schedule.init a := by
      unfold write at w
      cases hf : a.hasFile with
      | true =>
        rw [hf, cond_true] at w
        split at w
        · cases w
        · obtain rfl := Option.some.inj w; rfl
      | false =>
        rw [hf, cond_false] at w
        obtain rfl := Option.some.inj w
        rfl
    obtain ⟨n1, r1, -, -, r4⟩ := hJ.rel
    rw [hsched] at r1
    have h5 := e5 .release
    rw [r1, h.plain.dt] at h5
    have := (grid_le hne).mp h5
    have h6 : (n : ℚ) ≤ k := by exact_mod_cast (by omega : n ≤ k)
    exact mul_le_mul_of_nonneg_right h6 hp.le
  · intro i hf hi
    obtain ⟨k', hk', rfl⟩ := h.reg.output i hi
    have hint : Schedule.interval a .output = some (k' * |o.dt|) := by simp [Schedule.interval, h.plain.file, hf, h.plain.outputdt, hi]
    have h5 := e5 .output
    have e : (Schedule.init a).next .output = .fin (S + k' * o.dt) := by
      simp only [Schedule.init, Schedule.initNext, hint, Schedule.firstEvent]
      congr 1
      rw [h.plain.dt, h.plain.start]
      rcases Schedule.pos_or_neg hne with ⟨hp, e⟩ | ⟨hp, e⟩
      · rw [if_pos hp, abs_of_pos hp]
      · rw [if_neg (by linarith), abs_of_neg hp]; ring
    rw [e, h.plain.dt] at h5
    have h6 : (n : ℚ) ≤ k' := by exact_mod_cast (grid_le hne).mp h5
    exact mul_le_mul_of_nonneg_right h6 hp.le

theorem write_same {hasFile : Bool} {s s1 : St V} {t : ℚ} (h : write hasFile s t = some s1) : s1.sched = s.sched ∧ s1.ps = s.ps := by
  unfold write at h
  cases hasFile with
  | true =>
    rw [cond_true] at h
    split at h
    · cases h
    · obtain rfl := Option.some.inj h; exact ⟨rfl, rfl⟩
  | false =>
    rw [cond_false] at h
    obtain rfl := Option.some.inj h
    exact ⟨rfl, rfl⟩

/-- The first run is like one in which the values that the arrays have after the first pass were kept from the start. -/
theorem execute_first (f : Scheme V) {o : Opts} {S : ℚ} {N : ℕ} {ps : List (TP V)} (h : Regular o S N ps) {exec : Exec V} {pass : Pass V} {fresh : V → V}
    {rep : Repeat V} (hrep : Repeats o S rep) :
    ∃ n : ℕ, 0 < n ∧ n ≤ N ∧ (n : ℚ) * |o.dt| ≤ rep.repeatdt ∧ (∀ i, o.hasFile = true → o.outputdt = some i → (n : ℚ) * |o.dt| ≤ i) ∧
      Schedule.nextStop (args o S rep.repeatdt (rep.start.getD S)) (Schedule.init (args o S rep.repeatdt (rep.start.getD S))) = .fin (S + n * o.dt) ∧
      (∀ fuel file vs, hold pass fresh (S + n * o.dt) o.dt (ps.map fun q => (q.1, { q.2 with dt := o.dt })) rep.held = some vs →
        execute o exec pass fresh (fuel + 1) file rep ps = execute o exec pass fresh (fuel + 1) file { rep with held := some vs } ps) ∧
      (∀ fuel file r, execute o exec pass fresh fuel file rep ps = some r →
        (hold pass fresh (S + n * o.dt) o.dt (ps.map fun q => (q.1, { q.2 with dt := o.dt })) rep.held).isSome) := by
  obtain ⟨⟨k, hk, hr1⟩, z, hz⟩ := hrep
  have hs := args_setup h ([] : List V) rep.nextId (z := z) hk
  obtain ⟨hc, n, e1, e2, e3, e4, e5⟩ := first_stop hs
  refine ⟨n, e2, e3, by rw [hr1]; exact e4, e5, by rw [hr1, hz]; exact e1, ?_, ?_⟩
  · intro fuel file vs hv
    unfold execute
    rw [h.startTime]
    dsimp only
    rw [hz, hr1]
    obtain ⟨s1, w1, -⟩ := WholeRun.start_J f h hs.plain file
    obtain ⟨w2, w3⟩ := write_same w1
    rw [w1]
    dsimp only
    rw [loop_first _ exec pass fresh fuel _ s1 (S + n * o.dt) vs (by rw [w2]; exact hc) (by rw [w2]; exact e1)]
    rw [w3, hs.plain.dt]
    exact hv
  · intro fuel file r hr
    unfold execute at hr
    rw [h.startTime] at hr
    dsimp only at hr
    rw [hz, hr1] at hr
    obtain ⟨s1, w1, -⟩ := WholeRun.start_J f h hs.plain file
    obtain ⟨w2, w3⟩ := write_same w1
    rw [w1] at hr
    dsimp only at hr
    cases fuel with
    | zero => rw [loop] at hr; cases hr
    | succ fuel =>
      cases hv : hold pass fresh (S + n * o.dt) o.dt (ps.map fun q => (q.1, { q.2 with dt := o.dt })) rep.held with
      | some vs => rfl
      | none =>
        exfalso
        rw [loop, if_pos (by rw [w2]; exact hc), w2, e1] at hr
        dsimp only at hr
        rw [w3, hs.plain.dt] at hr
        dsimp only at hr
        rw [hv] at hr
        cases hx : exec (S + n * o.dt) o.dt (ps.map fun q => (q.1, { q.2 with dt := o.dt })) with
        | none => rw [hx] at hr; cases hr
        | some x => rw [hx] at hr; cases hr

/-! ### Two runs -/

theorem times_split {rs S dt r : ℚ} (N M : ℕ) :
    releaseTimes rs S dt r (N + M) = releaseTimes rs S dt r N ++ releaseTimes rs (S + N * dt) dt r M := by
  unfold releaseTimes
  rw [List.range_add, List.map_append, List.filter_append, List.map_map]
  congr 2
  apply List.map_congr_left
  intro n _
  simp only [Function.comp]
  push_cast
  ring

theorem releases_split (dt : ℚ) (vs : List V) : ∀ (ts us : List ℚ) (id : ℕ),
    releases dt vs id (ts ++ us) = releases dt vs id ts ++ releases dt vs (id + ts.length * vs.length) us
  | [], us, id => by simp [releases]
  | t :: ts, us, id => by
    rw [List.cons_append, releases, releases, releases_split dt vs ts, List.append_assoc]
    congr 3
    rw [List.length_cons]
    ring

end Parcels.ReleaseRun
