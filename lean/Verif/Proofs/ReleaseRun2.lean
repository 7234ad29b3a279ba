import Verif.Proofs.ReleaseRun

namespace Parcels.ReleaseRun

open KernelLoop (Kern)
open Recovery (TP RMap)
open Schedule (Args Ext After AfterExt NotBefore)
open WholeRun (Exec St Run Opts write startTime Scheme trajectory record core Regular Deletes Raises records outputTimes OnGrid ne_zero_of sgn_abs mul_sgn_self
  grid_le grid_lt grid_inj At GridInv GridExt Starts Plain OutInv Effect Fits firstRecords)

variable {V : Type}

theorem ended {f : Scheme V} {o : Opts} {S : ℚ} {N : ℕ} {ps0 : List (TP V)} {vs : List V} {id k z : ℕ} {a : Args} (h : Setup o S N a ps0 vs id k z)
    {R0 : List (Nat × ℚ × V)} {wod : Bool} {m : ℕ} {rep : Repeat V} {s : St V} (hJ : JR f o S N a ps0 vs id k z R0 wod m rep s)
    (hc : ¬ Schedule.continues a s.sched) : m = N := by
  have hne := ne_zero_of h.reg.step
  rw [Schedule.continues_iff (by rw [h.plain.dt]; exact hne)] at hc
  unfold After at hc
  rw [hJ.time, h.plain.E, h.plain.dt, grid_lt hne] at hc
  have := hJ.le
  omega

theorem hold_some {pass : Pass V} {fresh : V → V} {t dt : ℚ} {ps : List (TP V)} {held : Option (List V)} {vs : List V} (h : held = some vs) :
    hold pass fresh t dt ps held = some vs := by rw [h]; rfl

/-- The run goes on as long as no trajectory ends, or if the recovery functions delete. -/
theorem loop_good {f : Scheme V} {user : RMap Unit V} {o : Opts} {S : ℚ} {N : ℕ} {ps0 : List (TP V)} {vs : List V} {id k z : ℕ} {a : Args}
    (h : Setup o S N a ps0 vs id k z) {exec : Exec V} {pass : Pass V} {fresh : V → V}
    (hex : ∀ T ps e ps', (∀ q ∈ ps, q.2.dt = o.dt ∧ Fits o.dt T q) → exec T o.dt ps = some (e, ps') → Effect user f o.dt T ps e ps')
    {R0 : List (Nat × ℚ × V)} {wod : Bool} (hok : Deletes user ∨ ∀ q ∈ upTo o S ps0 vs id k z N, (trajectory f o.dt (S + N * o.dt) q).isSome) :
    ∀ (fuel : ℕ) (m : ℕ) (rep : Repeat V) (s : St V) (r : Run V × Repeat V), JR f o S N a ps0 vs id k z R0 wod m rep s →
      loop a exec pass fresh fuel rep s = some r →
      ∃ s' rep', r = (.done s', rep') ∧ JR f o S N a ps0 vs id k z R0 wod N rep' s' ∧ rep'.repeatdt = rep.repeatdt ∧ rep'.start = rep.start := by
  have hne := ne_zero_of h.reg.step
  intro fuel
  induction fuel with
  | zero => intro m rep s r _ h; cases h
  | succ fuel ih =>
    intro m rep s r hJ hr
    by_cases hc : Schedule.continues a s.sched
    · obtain ⟨n, e1, e2, e3, e4, e5⟩ := WholeRun.stop_grid h.reg h.plain hJ.inv hJ.grid m hJ.time hc
      rw [loop_succ a exec pass fresh fuel rep s _ vs hc e1 (hold_some hJ.held), h.plain.dt] at hr
      have h0 := upTo_starts h m
      cases hx : exec (S + n * o.dt) o.dt s.ps with
      | none => rw [hx] at hr; cases hr
      | some x =>
        obtain ⟨e, ps'⟩ := x
        have heff := hex _ _ _ _ (hJ.at_.fits hne h0 n) hx
        have hg : e = .normal ∧ ps'.map core = s.ps.filterMap (trajectory f o.dt (S + n * o.dt)) ∧ ∀ q ∈ ps', q.2.dt = o.dt := by
          refine heff.good ?_
          rcases hok with hd | hall
          · exact Or.inl hd
          · right
            refine hJ.at_.some hne h0 e2.le ?_
            intro q hq
            obtain ⟨j, hj⟩ := h0 q hq
            exact WholeRun.traj_isSome f hne (core q) j n N hj e3 (hall q (upTo_sub h hJ.le q hq))
        obtain ⟨rfl, g2, g3⟩ := hg
        rw [hJ.at_.next hne h0 e2.le] at g2
        rw [hx] at hr
        dsimp only at hr
        obtain ⟨s2, k1, k2, -⟩ := turn h hJ e2 e3 e4 e5 ps' ⟨g2, g3⟩
        rw [k1] at hr
        dsimp only at hr
        rw [if_neg (by rw [h.plain.fieldset]; simp), if_neg hne] at hr
        obtain ⟨s', rep', u1, u2, u3, u4⟩ := ih n _ _ r k2 hr
        exact ⟨s', rep', u1, u2, u3, u4⟩
    · rw [loop, if_neg hc] at hr
      obtain rfl := Option.some.inj hr
      exact ⟨s, rep, rfl, ended h hJ hc ▸ hJ, rfl, rfl⟩

/-- With recovery functions that raise, a trajectory that ends makes the run raise. -/
theorem loop_bad {f : Scheme V} {user : RMap Unit V} {o : Opts} {S : ℚ} {N : ℕ} {ps0 : List (TP V)} {vs : List V} {id k z : ℕ} {a : Args}
    (h : Setup o S N a ps0 vs id k z) {exec : Exec V} {pass : Pass V} {fresh : V → V}
    (hex : ∀ T ps e ps', (∀ q ∈ ps, q.2.dt = o.dt ∧ Fits o.dt T q) → exec T o.dt ps = some (e, ps') → Effect user f o.dt T ps e ps')
    {R0 : List (Nat × ℚ × V)} {wod : Bool} (hu : Raises user) (hbad : ∃ q ∈ upTo o S ps0 vs id k z N, trajectory f o.dt (S + N * o.dt) q = none) :
    ∀ (fuel : ℕ) (m : ℕ) (rep : Repeat V) (s : St V) (r : Run V × Repeat V), JR f o S N a ps0 vs id k z R0 wod m rep s →
      (∀ q ∈ upTo o S ps0 vs id k z m, (trajectory f o.dt (S + m * o.dt) q).isSome) →
      loop a exec pass fresh fuel rep s = some r → ∃ s', r.1 = .raised s' := by
  have hne := ne_zero_of h.reg.step
  intro fuel
  induction fuel with
  | zero => intro m rep s r _ _ h; cases h
  | succ fuel ih =>
    intro m rep s r hJ hm hr
    by_cases hc : Schedule.continues a s.sched
    · obtain ⟨n, e1, e2, e3, e4, e5⟩ := WholeRun.stop_grid h.reg h.plain hJ.inv hJ.grid m hJ.time hc
      rw [loop_succ a exec pass fresh fuel rep s _ vs hc e1 (hold_some hJ.held), h.plain.dt] at hr
      have h0 := upTo_starts h m
      cases hx : exec (S + n * o.dt) o.dt s.ps with
      | none => rw [hx] at hr; cases hr
      | some x =>
        obtain ⟨e, ps'⟩ := x
        have heff := hex _ _ _ _ (hJ.at_.fits hne h0 n) hx
        rw [hx] at hr
        by_cases hall : ∀ q ∈ upTo o S ps0 vs id k z m, (trajectory f o.dt (S + n * o.dt) q).isSome
        · obtain ⟨rfl, g2, g3⟩ := heff.good (Or.inr (hJ.at_.some hne h0 e2.le hall))
          rw [hJ.at_.next hne h0 e2.le] at g2
          dsimp only at hr
          obtain ⟨s2, k1, k2, k3⟩ := turn h hJ e2 e3 e4 e5 ps' ⟨g2, g3⟩
          rw [k1] at hr
          dsimp only at hr
          rw [if_neg (by rw [h.plain.fieldset]; simp), if_neg hne] at hr
          exact ih n _ _ r k2 (k3 hall) hr
        · have : ∃ q ∈ upTo o S ps0 vs id k z m, trajectory f o.dt (S + n * o.dt) q = none := by
            push Not at hall
            obtain ⟨q, hq, hq'⟩ := hall
            exact ⟨q, hq, by simpa using hq'⟩
          have he := heff.bad hu (hJ.at_.none hne h0 e2.le hm this)
          rw [he] at hr
          exact ⟨_, by rw [← Option.some.inj hr]⟩
    · exfalso
      obtain ⟨q, hq, hq'⟩ := hbad
      rw [ended h hJ hc] at hm
      have := hm q hq
      rw [hq'] at this
      cases this

theorem loop_total {f : Scheme V} {user : RMap Unit V} {o : Opts} {S : ℚ} {N : ℕ} {ps0 : List (TP V)} {vs : List V} {id k z : ℕ} {a : Args}
    (h : Setup o S N a ps0 vs id k z) {exec : Exec V} {pass : Pass V} {fresh : V → V}
    (hex : ∀ T ps e ps', (∀ q ∈ ps, q.2.dt = o.dt ∧ Fits o.dt T q) → exec T o.dt ps = some (e, ps') → Effect user f o.dt T ps e ps')
    (htot : ∀ n ps, n ≤ N → (∀ q ∈ ps, q.2.dt = o.dt ∧ ∃ j : ℕ, q.2.time = S + j * o.dt) → (exec (S + n * o.dt) o.dt ps).isSome)
    {R0 : List (Nat × ℚ × V)} {wod : Bool} (hok : Deletes user ∨ Raises user) :
    ∀ (fuel : ℕ) (m : ℕ) (rep : Repeat V) (s : St V), JR f o S N a ps0 vs id k z R0 wod m rep s → N < m + fuel →
      (loop a exec pass fresh fuel rep s).isSome := by
  have hne := ne_zero_of h.reg.step
  intro fuel
  induction fuel with
  | zero => intro m rep s hJ hlt; have := hJ.le; omega
  | succ fuel ih =>
    intro m rep s hJ hlt
    by_cases hc : Schedule.continues a s.sched
    · obtain ⟨n, e1, e2, e3, e4, e5⟩ := WholeRun.stop_grid h.reg h.plain hJ.inv hJ.grid m hJ.time hc
      rw [loop_succ a exec pass fresh fuel rep s _ vs hc e1 (hold_some hJ.held), h.plain.dt]
      have h0 := upTo_starts h m
      obtain ⟨⟨e, ps'⟩, hx⟩ := Option.isSome_iff_exists.mp (htot n s.ps e3 (fun q hq => ⟨hJ.at_.step q hq, by
        obtain ⟨j, -, hj⟩ := hJ.at_.mem hne h0 q hq
        exact ⟨j, hj⟩⟩))
      rw [hx]
      have heff := hex _ _ _ _ (hJ.at_.fits hne h0 n) hx
      have hcase : e = .raised ∨ (e = .normal ∧ ps'.map core = s.ps.filterMap (trajectory f o.dt (S + n * o.dt)) ∧ ∀ q ∈ ps', q.2.dt = o.dt) := by
        by_cases hall : ∀ q ∈ s.ps, (trajectory f o.dt (S + n * o.dt) q).isSome
        · exact Or.inr (heff.good (Or.inr hall))
        · rcases hok with hd | hd
          · exact Or.inr (heff.good (Or.inl hd))
          · left
            apply heff.bad hd
            push Not at hall
            obtain ⟨q, hq, hq'⟩ := hall
            exact ⟨q, hq, by simpa using hq'⟩
      rcases hcase with rfl | ⟨rfl, g2, g3⟩
      · rfl
      · dsimp only
        rw [hJ.at_.next hne h0 e2.le] at g2
        obtain ⟨s2, k1, k2, -⟩ := turn h hJ e2 e3 e4 e5 ps' ⟨g2, g3⟩
        rw [k1]
        dsimp only
        rw [if_neg (by rw [h.plain.fieldset]; simp), if_neg hne]
        exact ih n _ _ k2 (by omega)
    · rw [loop, if_neg hc]
      rfl

/-! ### The whole run -/

theorem args_setup {o : Opts} {S : ℚ} {N : ℕ} {ps : List (TP V)} (h : Regular o S N ps) (vs : List V) (id : ℕ) {k z : ℕ} (hk : 0 < k) :
    Setup o S N (args o S (k * |o.dt|) (S - z * o.dt)) ps vs id k z := by
  have hp := WholeRun.args_plain h
  refine ⟨h, ?_, hk, rfl, rfl⟩
  unfold args
  refine ⟨hp.start, hp.E, hp.dt, hp.file, hp.fieldset, hp.outputdt, hp.moviedt, hp.callbackdt, ?_, ⟨-z, by push_cast; ring⟩, hp.input⟩
  intro r hr
  exact ⟨k, hk, (Option.some.inj hr).symm⟩

/-- The state before the loop. -/
theorem start_JR (f : Scheme V) {o : Opts} {S : ℚ} {N : ℕ} {ps0 : List (TP V)} {vs : List V} {id k z : ℕ} {a : Args} (h : Setup o S N a ps0 vs id k z)
    (file : Output.PFile) (rep : Repeat V) (hh : rep.held = some vs) (hid : rep.nextId = id) :
    ∃ s1, write a.hasFile ⟨Schedule.init a, ps0.map fun q => (q.1, { q.2 with dt := a.dt }), file, []⟩ S = some s1 ∧
      JR f o S N a ps0 vs id k z (firstRecords f o.dt S file ps0) file.writeOndelete 0 rep s1 := by
  have hne := ne_zero_of h.reg.step
  have hp := abs_pos.mpr hne
  have hk' : (0 : ℚ) < k := by exact_mod_cast h.hk
  obtain ⟨s1, e1, hJ⟩ := WholeRun.start_J f h.reg h.plain file
  have hsched : s1.sched = Schedule.init a := by
    unfold write at e1
    cases hf : a.hasFile with
    | true =>
      rw [hf, cond_true] at e1
      split at e1
      · cases e1
      · obtain rfl := Option.some.inj e1; rfl
    | false =>
      rw [hf, cond_false] at e1
      obtain rfl := Option.some.inj e1
      rfl
  refine ⟨s1, e1, hJ.inv, hJ.grid, hJ.time, hJ.le, by rw [upTo_zero]; exact hJ.at_, ?_, hh, by simp [releaseTimes, hid], ?_⟩
  · have hrint : Schedule.interval a .release = some (k * |o.dt|) := by
      have : (k * |o.dt| : ℚ) ≠ 0 := by positivity
      simp only [Schedule.interval, h.rdt]
      rw [if_neg (fun e => this (Option.some.inj e))]
    rw [hsched]
    simp only [Schedule.init, Schedule.initNext, hrint]
    have hfl : ⌊|a.S - a.rs| / (k * |o.dt|)⌋ = ((z / k : ℕ) : ℤ) := by
      rw [h.rs, h.plain.start, sub_sub_cancel, abs_mul, abs_of_nonneg (Nat.cast_nonneg z), mul_div_mul_right _ _ hp.ne']
      exact Rat.floor_natCast_div_natCast z k
    have hmod := Nat.div_add_mod z k
    have hlt := Nat.mod_lt z h.hk
    refine ⟨k - z % k, ?_, ?_, by omega, by omega⟩
    · rw [hfl, h.rs, h.plain.dt, mul_assoc, mul_assoc (k : ℚ), mul_comm |o.dt|, sgn_abs, Nat.cast_sub hlt.le]
      congr 1
      have : (z : ℚ) = k * ((z / k : ℕ) : ℚ) + ((z % k : ℕ) : ℚ) := by exact_mod_cast hmod.symm
      generalize z / k = d at this ⊢
      generalize z % k = e at this ⊢
      rw [this]
      push_cast
      ring
    · exact ⟨z / k + 1, by
        have : k * (z / k + 1) = k * (z / k) + k := by ring
        omega⟩
  · intro hf hw k' hk' ho
    obtain ⟨w1, K, w2, w3, w4, w5⟩ := hJ.out hf hw k' hk' ho
    have hK : K = 0 := by
      rcases Nat.eq_zero_or_pos K with e | e
      · exact e
      · have := Nat.mul_pos e hk'
        omega
    subst hK
    exact ⟨w1, 0, w2, w3, w4, by rw [w5]; rfl⟩

/-- The run returned, with the particles and the records as they should be. -/
theorem execute_good {f : Scheme V} {user : RMap Unit V} {o : Opts} {S : ℚ} {N : ℕ} {ps : List (TP V)} (h : Regular o S N ps) {exec : Exec V} {pass : Pass V}
    {fresh : V → V} {rep : Repeat V} (hrep : Repeats o S rep) {vs : List V} (hh : rep.held = some vs)
    (hex : ∀ T ps e ps', (∀ q ∈ ps, q.2.dt = o.dt ∧ Fits o.dt T q) → exec T o.dt ps = some (e, ps') → Effect user f o.dt T ps e ps')
    (hok : Deletes user ∨ ∀ q ∈ everyone o S rep vs N ps, (trajectory f o.dt (S + N * o.dt) q).isSome) (fuel : ℕ) (file : Output.PFile) (r : Run V × Repeat V)
    (hr : execute o exec pass fresh fuel file rep ps = some r) :
    ∃ s, r = (.done s, ⟨rep.repeatdt, some (rep.start.getD S), some vs,
        rep.nextId + (releaseTimes (rep.start.getD S) S o.dt rep.repeatdt N).length * vs.length⟩) ∧
      s.ps.map core = (everyone o S rep vs N ps).filterMap (trajectory f o.dt (S + N * o.dt)) ∧
      (o.hasFile = true → file.writeOndelete = false → ∀ i, o.outputdt = some i →
        records s = firstRecords f o.dt S file ps ++ (outputTimes S o.dt i N).tail.flatMap fun t => (everyone o S rep vs N ps).filterMap (record f o.dt t)) := by
  have hne := ne_zero_of h.step
  obtain ⟨⟨k, hk, hr1⟩, z, hz⟩ := hrep
  unfold everyone at *
  unfold execute at hr
  rw [h.startTime] at hr
  dsimp only at hr
  rw [hz, hr1] at hr hok ⊢
  have hs := args_setup h vs rep.nextId (z := z) hk
  have ha := hs.plain
  obtain ⟨s1, e1, hJ1⟩ := start_JR f hs file { repeatdt := k * |o.dt|, start := some (S - z * o.dt), held := rep.held, nextId := rep.nextId } hh rfl
  rw [e1] at hr
  dsimp only at hr
  cases hl : loop (args o S (k * |o.dt|) (S - z * o.dt)) exec pass fresh fuel
    { repeatdt := k * |o.dt|, start := some (S - z * o.dt), held := rep.held, nextId := rep.nextId } s1 with
  | none => rw [hl] at hr; cases hr
  | some r1 =>
    obtain ⟨s2, rep2, rfl, hJ, q1, q2⟩ := loop_good hs hex hok fuel 0 _ s1 r1 hJ1 hl
    rw [hl] at hr
    dsimp only at hr
    obtain ⟨s3, k1, k2, k3, k4⟩ := WholeRun.write_at hne (upTo_starts hs N) (args o S (k * |o.dt|) (S - z * o.dt)).hasFile s2 N hJ.at_
    rw [hJ.time, k1] at hr
    obtain rfl := Option.some.inj hr
    refine ⟨s3, ?_, by rw [k2]; exact hJ.at_.core, ?_⟩
    · obtain ⟨a1, a2, a3, a4⟩ := rep2
      have n1 := hJ.nid
      have n2 := hJ.held
      dsimp only at q1 q2 n1 n2
      rw [q1, q2, n1, n2]
    intro hf hw i hi
    obtain ⟨k', hk', rfl⟩ := h.output i hi
    obtain ⟨w1, K, w2, w3, w4, w5⟩ := hJ.out hf hw k' hk' hi
    obtain ⟨x1, x2, x3⟩ := k4 (by rw [ha.file]; exact hf) w1
    have hlt : N < (K + 1) * k' := by
      have := hJ.inv.next .output
      rw [w2, hJ.time, ha.dt] at this
      exact (grid_lt hne).mp this
    rw [WholeRun.outputTimes_eq hne hk' w4 hlt, List.tail_cons, x3, w5, List.append_assoc, List.flatMap_append]
    congr 2
    · rw [List.flatMap_map]; rfl
    · rw [w3]
      by_cases c : K * k' = N
      · rw [if_pos c, if_pos (by rw [c])]; rfl
      · rw [if_neg c, if_neg (fun e => c (grid_inj hne (Option.some.inj e)))]
        simp [upTo]

theorem execute_bad {f : Scheme V} {user : RMap Unit V} {o : Opts} {S : ℚ} {N : ℕ} {ps : List (TP V)} (h : Regular o S N ps) {exec : Exec V} {pass : Pass V}
    {fresh : V → V} {rep : Repeat V} (hrep : Repeats o S rep) {vs : List V} (hh : rep.held = some vs)
    (hex : ∀ T ps e ps', (∀ q ∈ ps, q.2.dt = o.dt ∧ Fits o.dt T q) → exec T o.dt ps = some (e, ps') → Effect user f o.dt T ps e ps')
    (hu : Raises user) (hbad : ∃ q ∈ everyone o S rep vs N ps, trajectory f o.dt (S + N * o.dt) q = none) (fuel : ℕ) (file : Output.PFile)
    (r : Run V × Repeat V) (hr : execute o exec pass fresh fuel file rep ps = some r) : ∃ s, r.1 = .raised s := by
  have hne := ne_zero_of h.step
  obtain ⟨⟨k, hk, hr1⟩, z, hz⟩ := hrep
  unfold everyone at *
  unfold execute at hr
  rw [h.startTime] at hr
  dsimp only at hr
  rw [hz, hr1] at hr hbad
  have hs := args_setup h vs rep.nextId (z := z) hk
  obtain ⟨s1, e1, hJ1⟩ := start_JR f hs file { repeatdt := k * |o.dt|, start := some (S - z * o.dt), held := rep.held, nextId := rep.nextId } hh rfl
  rw [e1] at hr
  dsimp only at hr
  cases hl : loop (args o S (k * |o.dt|) (S - z * o.dt)) exec pass fresh fuel
    { repeatdt := k * |o.dt|, start := some (S - z * o.dt), held := rep.held, nextId := rep.nextId } s1 with
  | none => rw [hl] at hr; cases hr
  | some r1 =>
    obtain ⟨s2, hs2⟩ := loop_bad hs hex hu hbad fuel 0 _ s1 r1 hJ1 (fun q hq => by
      rw [upTo_zero] at hq
      obtain ⟨j, hj⟩ := h.starts q hq
      rw [WholeRun.trajectory_idle f hne q (by rw [hj]; exact (grid_le hne).mpr (Nat.zero_le j))]
      rfl) hl
    rw [hl] at hr
    obtain ⟨r1a, r1b⟩ := r1
    dsimp only at hs2
    subst hs2
    exact ⟨s2, by rw [← Option.some.inj hr]⟩

theorem execute_total {f : Scheme V} {user : RMap Unit V} {o : Opts} {S : ℚ} {N : ℕ} {ps : List (TP V)} (h : Regular o S N ps) {exec : Exec V} {pass : Pass V}
    {fresh : V → V} {rep : Repeat V} (hrep : Repeats o S rep) {vs : List V} (hh : rep.held = some vs)
    (hex : ∀ T ps e ps', (∀ q ∈ ps, q.2.dt = o.dt ∧ Fits o.dt T q) → exec T o.dt ps = some (e, ps') → Effect user f o.dt T ps e ps')
    (htot : ∀ n ps, n ≤ N → (∀ q ∈ ps, q.2.dt = o.dt ∧ ∃ j : ℕ, q.2.time = S + j * o.dt) → (exec (S + n * o.dt) o.dt ps).isSome)
    (hok : Deletes user ∨ Raises user) (file : Output.PFile) : (execute o exec pass fresh (N + 1) file rep ps).isSome := by
  obtain ⟨⟨k, hk, hr1⟩, z, hz⟩ := hrep
  unfold execute
  rw [h.startTime]
  dsimp only
  rw [hz, hr1]
  have hs := args_setup h vs rep.nextId (z := z) hk
  obtain ⟨s1, e1, hJ1⟩ := start_JR f hs file { repeatdt := k * |o.dt|, start := some (S - z * o.dt), held := rep.held, nextId := rep.nextId } hh rfl
  rw [e1]
  dsimp only
  obtain ⟨r, hr⟩ := Option.isSome_iff_exists.mp (loop_total (pass := pass) (fresh := fresh) hs hex htot hok (N + 1) 0 _ s1 hJ1 (by omega))
  rw [hr]
  obtain ⟨r, rep'⟩ := r
  cases r with
  | done s =>
    dsimp only
    cases write (args o S (k * |o.dt|) (S - z * o.dt)).hasFile s s.sched.time <;> rfl
  | raised s => rfl
  | crash s => rfl

end Parcels.ReleaseRun
