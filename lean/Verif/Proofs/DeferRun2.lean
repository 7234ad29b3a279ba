import Verif.Proofs.DeferRun

namespace Parcels.DeferRun

open WholeRun
open Recovery (TP)
open Schedule (Args Ext After AfterExt NotBefore NB)

variable {V V' : Type}

/-! ### The loop -/

/-- The oracle that answers `e` at time `t`. -/
def orc (dt t : ℚ) (e : Ext) : Nat → ℚ → Ext := fun _ u => if u = t then e else if 0 < dt then .pinf else .ninf

theorem regular_orc {o : Opts} {S : ℚ} {N : ℕ} {ps : List (TP V)} (h : Regular o S N ps) {t : ℚ} {e : Ext} (h1 : AfterExt o.dt t e)
    (h2 : GridExt S o.dt e) : Regular { o with input := orc o.dt t e } S N ps := by
  have hne := ne_zero_of h.step
  refine ⟨h.start, h.step, h.length, h.end_, h.output, h.movie, h.callback, ?_, ?_, h.starts⟩
  · intro i u
    show AfterExt o.dt u (orc o.dt t e i u)
    unfold orc
    split_ifs with c c'
    · rw [c]; exact h1
    · exact c'
    · exact lt_of_le_of_ne (not_lt.mp c') hne
  · intro i u q hq
    have hq : orc o.dt t e i u = .fin q := hq
    unfold orc at hq
    split_ifs at hq with c c'
    rw [hq] at h2
    exact h2

theorem plain_orc {o : Opts} {S : ℚ} {N : ℕ} {a : Args} (ha : Plain o S N a) (i : Nat → ℚ → Ext) :
    Plain { o with input := i } S N { a with input := i } :=
  ⟨ha.start, ha.E, ha.dt, ha.file, ha.fieldset, ha.outputdt, ha.moviedt, ha.callbackdt, ha.repeatdt, ha.rs, rfl⟩

theorem J_input {f : Scheme V} {o : Opts} {S : ℚ} {N : ℕ} {a : Args} {ps0 : List (TP V)} {R0 : List (Nat × ℚ × V)} {wod : Bool} {m : ℕ} {s : St V}
    (hJ : J f o S N a ps0 R0 wod m s) (i j : Nat → ℚ → Ext) : J f { o with input := i } S N { a with input := j } ps0 R0 wod m s :=
  ⟨⟨hJ.inv.next, hJ.inv.fin, hJ.inv.nextIn, hJ.inv.le⟩, hJ.grid, hJ.time, hJ.le, hJ.at_, hJ.out⟩

theorem J_of_input {f : Scheme V} {o : Opts} {S : ℚ} {N : ℕ} {a : Args} {ps0 : List (TP V)} {R0 : List (Nat × ℚ × V)} {wod : Bool} {m : ℕ} {s : St V}
    {i j : Nat → ℚ → Ext} (hJ : J f { o with input := i } S N { a with input := j } ps0 R0 wod m s) : J f o S N a ps0 R0 wod m s :=
  ⟨⟨hJ.inv.next, hJ.inv.fin, hJ.inv.nextIn, hJ.inv.le⟩, hJ.grid, hJ.time, hJ.le, hJ.at_, hJ.out⟩

theorem fire_orc (a : Args) (s : Schedule.St) (t dt : ℚ) (e : Ext) :
    Schedule.fire { a with input := orc dt t e } s t = Schedule.fire (withInput a e) s t := by
  have : orc dt t e s.calls t = e := if_pos rfl
  unfold Schedule.fire withInput
  simp only [this]
  rfl

/-- What the kernel does between two stops, without some of the variables. -/
structure EffectD (D R : Prop) (f : Scheme V) (π : V' → V) (I : V' → Prop) (dt T : ℚ) (ps : List (TP V')) (x : Recovery.Ending) (ps' : List (TP V')) : Prop where
  good : D ∨ (∀ q ∈ ps, (trajectory f dt T (mapP π q)).isSome) →
    x = .normal ∧ (ps'.map (mapP π)).map core = (ps.map (mapP π)).filterMap (trajectory f dt T) ∧ ∀ q ∈ ps', q.2.dt = dt ∧ I q.2.vars
  bad : R → (∃ q ∈ ps, trajectory f dt T (mapP π q) = none) → x = .raised

/-- What is needed of the kernel and of the field set. -/
structure Serves (D R : Prop) (f : Scheme V) (π : V' → V) (I : V' → Prop) (S dt : ℚ) (N : ℕ) (exec : Grids → Exec V') (Good : Grids → ℕ → Ext → Prop) : Prop where
  chunk : ∀ gs m e n, Good gs m e → m < n → n < N → NB dt (S + n * dt) e → ∃ gs' nx, TimeChunk.computeTimeChunk gs (S + n * dt) dt = .ok (gs', nx) ∧
    Good gs' n (ext dt nx) ∧ AfterExt dt (S + n * dt) (ext dt nx) ∧ GridExt S dt (ext dt nx)
  eff : ∀ gs m e n ps x ps', Good gs m e → m < n → n ≤ N → NB dt (S + n * dt) e →
    (∀ q ∈ ps, q.2.dt = dt ∧ (∃ j : ℕ, m ≤ j ∧ q.2.time = S + j * dt) ∧ I q.2.vars) → exec gs (S + n * dt) dt ps = some (x, ps') →
    EffectD D R f π I dt (S + n * dt) ps x ps'

/-- One turn of the loop, after a stop at step `n`. -/
theorem turnD {D R : Prop} {f : Scheme V} {π : V' → V} {I : V' → Prop} {o : Opts} {S : ℚ} {N : ℕ} {ps0 : List (TP V)} (h : Regular o S N ps0) {a : Args}
    (ha : Plain o S N a) {exec : Grids → Exec V'} {Good : Grids → ℕ → Ext → Prop} (hs : Serves D R f π I S o.dt N exec Good)
    {R0 : List (Nat × ℚ × V)} {wod : Bool} {m n : ℕ} {gs : Grids} {s : St V'} (hG : Good gs m s.sched.nextIn) (hJ : J f o S N a ps0 R0 wod m (mapS π s))
    (hmn : m < n) (hnN : n ≤ N) (hin : NB o.dt (S + n * o.dt) s.sched.nextIn) (hnb : ∀ x, NB o.dt (S + n * o.dt) (s.sched.next x)) (ps' : List (TP V'))
    (hps : At f S o.dt ps0 n (ps'.map (mapP π))) :
    ∃ s2 gs' nx, (bif Schedule.near (S + n * o.dt) (s.sched.next .output) then write a.hasFile { s with ps := ps' } (S + n * o.dt) else some { s with ps := ps' }) = some s2 ∧
      s2.ps = ps' ∧ request a gs (S + n * o.dt) = .ok (gs', nx) ∧
      (Good gs' n (Schedule.fire (withInput a (ext o.dt nx)) s.sched (S + n * o.dt)).nextIn ∨ n = N) ∧
      J f o S N a ps0 R0 wod n (mapS π { s2 with sched := Schedule.fire (withInput a (ext o.dt nx)) s.sched (S + n * o.dt) }) := by
  have hne := ne_zero_of h.step
  -- the request
  have hreq : ∃ gs' nx, request a gs (S + n * o.dt) = .ok (gs', nx) ∧ AfterExt o.dt (S + n * o.dt) (ext o.dt nx) ∧ GridExt S o.dt (ext o.dt nx) ∧
      (Good gs' n (ext o.dt nx) ∨ n = N) ∧ (S + n * o.dt = a.E ↔ n = N) := by
    have hE : S + n * o.dt = a.E ↔ n = N := by
      rw [ha.E]
      exact ⟨fun e => grid_inj hne e, fun e => by rw [e]⟩
    unfold request
    by_cases c : n = N
    · rw [if_pos (hE.mpr c)]
      refine ⟨gs, none, rfl, ?_, ?_, Or.inr c, hE⟩
      · unfold ext
        dsimp only
        split_ifs with c'
        · exact c'
        · exact lt_of_le_of_ne (not_lt.mp c') hne
      · unfold ext; dsimp only; split_ifs <;> trivial
    · rw [if_neg (fun e => c (hE.mp e)), ha.dt]
      obtain ⟨gs', nx, e1, e2, e3, e4⟩ := hs.chunk gs m _ n hG hmn (by omega) hin
      exact ⟨gs', nx, e1, e3, e4, Or.inl e2, hE⟩
  obtain ⟨gs', nx, r1, r2, r3, r4, r5⟩ := hreq
  have h' := regular_orc h r2 r3
  have ha' := plain_orc ha (orc o.dt (S + n * o.dt) (ext o.dt nx))
  have hJ' := J_input hJ (orc o.dt (S + n * o.dt) (ext o.dt nx)) (orc o.dt (S + n * o.dt) (ext o.dt nx))
  have hle : NotBefore o.dt (S + n * o.dt) (S + N * o.dt) := (grid_le hne).mpr hnN
  have hI : Schedule.Inv { a with input := orc o.dt (S + n * o.dt) (ext o.dt nx) } (Schedule.fire { a with input := orc o.dt (S + n * o.dt) (ext o.dt nx) } s.sched (S + n * o.dt)) := by
    refine Schedule.inv_fire (plain_ordinary h' ha') hJ'.inv ?_ ?_
    · show NotBefore a.dt (S + n * o.dt) a.E
      rw [ha.dt, ha.E]; exact hle
    · intro x
      show NB a.dt (S + n * o.dt) (s.sched.next x)
      rw [ha.dt]; exact hnb x
  obtain ⟨t2, k1, k2⟩ := turn h' ha' hJ' hmn hnN hI (by
    intro x
    show NB a.dt (S + n * o.dt) (s.sched.next x)
    rw [ha.dt]; exact hnb x) (ps'.map (mapP π)) hps
  -- the write
  have hw : (bif Schedule.near (S + n * o.dt) (s.sched.next .output) then write a.hasFile (mapS π { s with ps := ps' }) (S + n * o.dt) else some (mapS π { s with ps := ps' })) =
      (bif Schedule.near (S + n * o.dt) (s.sched.next .output) then write a.hasFile { s with ps := ps' } (S + n * o.dt) else some { s with ps := ps' }).map (mapS π) := by
    cases Schedule.near (S + n * o.dt) (s.sched.next .output) with
    | false => rfl
    | true => exact write_map π _ _ _
  have k1' : (bif Schedule.near (S + n * o.dt) (s.sched.next .output) then write a.hasFile (mapS π { s with ps := ps' }) (S + n * o.dt) else some (mapS π { s with ps := ps' })) = some t2 := k1
  rw [hw] at k1'
  obtain ⟨s2, w1, rfl⟩ := Option.map_eq_some_iff.mp k1'
  refine ⟨s2, gs', nx, w1, ?_, r1, ?_, ?_⟩
  · cases hn : Schedule.near (S + n * o.dt) (s.sched.next .output) with
    | false => rw [hn] at w1; rw [← Option.some.inj w1]
    | true =>
      rw [hn, cond_true] at w1
      unfold write at w1
      cases hf : a.hasFile with
      | false => rw [hf] at w1; rw [← Option.some.inj w1]
      | true =>
        rw [hf, cond_true] at w1
        split at w1
        · cases w1
        · rw [← Option.some.inj w1]
  · by_cases c : n = N
    · exact Or.inr c
    · refine Or.inl ?_
      have : (Schedule.fire (withInput a (ext o.dt nx)) s.sched (S + n * o.dt)).nextIn = ext o.dt nx := by
        unfold Schedule.fire
        dsimp only
        exact if_pos (fun e => c (r5.mp e))
      rw [this]
      exact r4.resolve_right c
  · rw [fire_orc] at k2
    exact J_of_input k2

theorem stopD {f : Scheme V} {π : V' → V} {o : Opts} {S : ℚ} {N : ℕ} {ps0 : List (TP V)} (h : Regular o S N ps0) {a : Args}
    (ha : Plain o S N a) {R0 : List (Nat × ℚ × V)} {wod : Bool} {m : ℕ} {s : St V'} (hJ : J f o S N a ps0 R0 wod m (mapS π s))
    (hc : Schedule.continues a s.sched) : ∃ n : ℕ, Schedule.nextStop a s.sched = .fin (S + n * o.dt) ∧ m < n ∧ n ≤ N ∧
      NB o.dt (S + n * o.dt) s.sched.nextIn ∧ ∀ x, NB o.dt (S + n * o.dt) (s.sched.next x) := by
  have hne := ne_zero_of h.step
  obtain ⟨n, e1, e2, e3, -, e5⟩ := stop_grid h ha hJ.inv hJ.grid m hJ.time hc
  have e1' : Schedule.nextStop a s.sched = .fin (S + n * o.dt) := e1
  have hall := (Schedule.nextStop_nb (by rw [ha.dt]; exact hne) s.sched (S + n * o.dt)).mp (by rw [e1']; simp [NB, NotBefore])
  refine ⟨n, e1', e2, e3, ?_, ?_⟩
  · rw [← ha.dt]
    have := hall.2.1
    rw [ha.dt] at this ⊢
    exact this
  · intro x
    have := hall.1 x
    rw [ha.dt] at this
    exact this

theorem ended {f : Scheme V} {π : V' → V} {o : Opts} {S : ℚ} {N : ℕ} {ps0 : List (TP V)} (h : Regular o S N ps0) {a : Args}
    (ha : Plain o S N a) {R0 : List (Nat × ℚ × V)} {wod : Bool} {m : ℕ} {s : St V'} (hJ : J f o S N a ps0 R0 wod m (mapS π s)) :
    Schedule.continues a s.sched ↔ m < N := by
  have hne := ne_zero_of h.step
  rw [Schedule.continues_iff (by rw [ha.dt]; exact hne)]
  unfold After
  have ht : s.sched.time = S + m * o.dt := hJ.time
  rw [ht, ha.E, ha.dt, grid_lt hne]

theorem members {f : Scheme V} {π : V' → V} {I : V' → Prop} {o : Opts} {S : ℚ} {N : ℕ} {ps0 : List (TP V)} (h : Regular o S N ps0) {a : Args}
    {R0 : List (Nat × ℚ × V)} {wod : Bool} {m : ℕ} {s : St V'} (hJ : J f o S N a ps0 R0 wod m (mapS π s)) (hI : ∀ q ∈ s.ps, I q.2.vars) :
    ∀ q ∈ s.ps, q.2.dt = o.dt ∧ (∃ j : ℕ, m ≤ j ∧ q.2.time = S + j * o.dt) ∧ I q.2.vars := by
  have hne := ne_zero_of h.step
  intro q hq
  have hq' : mapP π q ∈ (mapS π s).ps := List.mem_map_of_mem hq
  exact ⟨hJ.at_.step _ hq', hJ.at_.mem hne h.starts _ hq', hI q hq⟩

theorem loop_good {D R : Prop} {f : Scheme V} {π : V' → V} {I : V' → Prop} {o : Opts} {S : ℚ} {N : ℕ} {ps0 : List (TP V)} (h : Regular o S N ps0) {a : Args}
    (ha : Plain o S N a) {exec : Grids → Exec V'} {Good : Grids → ℕ → Ext → Prop} (hs : Serves D R f π I S o.dt N exec Good)
    {R0 : List (Nat × ℚ × V)} {wod : Bool} (hok : D ∨ ∀ q ∈ ps0, (trajectory f o.dt (S + N * o.dt) q).isSome) :
    ∀ (fuel : ℕ) (m : ℕ) (gs : Grids) (s : St V') (r : Run V' × Grids), (Good gs m s.sched.nextIn ∨ m = N) → J f o S N a ps0 R0 wod m (mapS π s) →
      (∀ q ∈ s.ps, I q.2.vars) → loop a exec fuel gs s = some r → ∃ s', r.1 = .done s' ∧ J f o S N a ps0 R0 wod N (mapS π s') := by
  have hne := ne_zero_of h.step
  intro fuel
  induction fuel with
  | zero => intro m gs s r _ _ _ h; cases h
  | succ fuel ih =>
    intro m gs s r hG hJ hI hr
    rw [loop] at hr
    by_cases hc : Schedule.continues a s.sched
    · rw [if_pos hc] at hr
      have hmN := (ended h ha hJ).mp hc
      replace hG := hG.resolve_right (by omega)
      obtain ⟨n, e1, e2, e3, e4, e5⟩ := stopD h ha hJ hc
      rw [e1] at hr
      dsimp only at hr
      rw [ha.dt] at hr
      cases hx : exec gs (S + n * o.dt) o.dt s.ps with
      | none => rw [hx] at hr; cases hr
      | some x =>
        obtain ⟨e, ps'⟩ := x
        have heff := hs.eff gs m _ n s.ps e ps' hG e2 e3 e4 (members h hJ hI) hx
        obtain ⟨rfl, g2, g3⟩ := heff.good (by
          rcases hok with hd | hall
          · exact Or.inl hd
          · right
            intro q hq
            refine hJ.at_.some hne h.starts e2.le ?_ (mapP π q) (List.mem_map_of_mem hq)
            intro q hq
            obtain ⟨j, hj⟩ := h.starts q hq
            exact traj_isSome f hne (core q) j n N hj e3 (hall q hq))
        have g2' := hJ.at_.next hne h.starts e2.le
        rw [show (mapS π s).ps = s.ps.map (mapP π) from rfl] at g2'
        rw [g2'] at g2
        rw [hx] at hr
        dsimp only at hr
        obtain ⟨s2, gs', nx, k1, k2, k3, k4, k5⟩ := turnD h ha hs hG hJ e2 e3 e4 e5 ps' ⟨g2, fun q hq => by
          obtain ⟨p, hp, rfl⟩ := List.mem_map.mp hq
          exact (g3 p hp).1⟩
        rw [k1] at hr
        dsimp only at hr
        rw [k3] at hr
        dsimp only at hr
        rw [if_neg hne] at hr
        exact ih n gs' _ r k4 k5 (fun q hq => (g3 q (by rw [← k2]; exact hq)).2) hr
    · rw [if_neg hc] at hr
      obtain rfl := Option.some.inj hr
      have hmN : m = N := by
        rw [ended h ha hJ] at hc
        have := hJ.le
        omega
      exact ⟨s, rfl, hmN ▸ hJ⟩

theorem loop_bad {D R : Prop} {f : Scheme V} {π : V' → V} {I : V' → Prop} {o : Opts} {S : ℚ} {N : ℕ} {ps0 : List (TP V)} (h : Regular o S N ps0) {a : Args}
    (ha : Plain o S N a) {exec : Grids → Exec V'} {Good : Grids → ℕ → Ext → Prop} (hs : Serves D R f π I S o.dt N exec Good)
    {R0 : List (Nat × ℚ × V)} {wod : Bool} (hu : R) (hbad : ∃ q ∈ ps0, trajectory f o.dt (S + N * o.dt) q = none) :
    ∀ (fuel : ℕ) (m : ℕ) (gs : Grids) (s : St V') (r : Run V' × Grids), (Good gs m s.sched.nextIn ∨ m = N) → J f o S N a ps0 R0 wod m (mapS π s) →
      (∀ q ∈ s.ps, I q.2.vars) → (∀ q ∈ ps0, (trajectory f o.dt (S + m * o.dt) q).isSome) →
      loop a exec fuel gs s = some r → ∃ s', r.1 = .raised s' := by
  have hne := ne_zero_of h.step
  intro fuel
  induction fuel with
  | zero => intro m gs s r _ _ _ _ h; cases h
  | succ fuel ih =>
    intro m gs s r hG hJ hI hm hr
    rw [loop] at hr
    by_cases hc : Schedule.continues a s.sched
    · rw [if_pos hc] at hr
      have hmN := (ended h ha hJ).mp hc
      replace hG := hG.resolve_right (by omega)
      obtain ⟨n, e1, e2, e3, e4, e5⟩ := stopD h ha hJ hc
      rw [e1] at hr
      dsimp only at hr
      rw [ha.dt] at hr
      cases hx : exec gs (S + n * o.dt) o.dt s.ps with
      | none => rw [hx] at hr; cases hr
      | some x =>
        obtain ⟨e, ps'⟩ := x
        have heff := hs.eff gs m _ n s.ps e ps' hG e2 e3 e4 (members h hJ hI) hx
        rw [hx] at hr
        by_cases hall : ∀ q ∈ ps0, (trajectory f o.dt (S + n * o.dt) q).isSome
        · obtain ⟨rfl, g2, g3⟩ := heff.good (Or.inr fun q hq => hJ.at_.some hne h.starts e2.le hall (mapP π q) (List.mem_map_of_mem hq))
          have g2' := hJ.at_.next hne h.starts e2.le
          rw [show (mapS π s).ps = s.ps.map (mapP π) from rfl] at g2'
          rw [g2'] at g2
          dsimp only at hr
          obtain ⟨s2, gs', nx, k1, k2, k3, k4, k5⟩ := turnD h ha hs hG hJ e2 e3 e4 e5 ps' ⟨g2, fun q hq => by
            obtain ⟨p, hp, rfl⟩ := List.mem_map.mp hq
            exact (g3 p hp).1⟩
          rw [k1] at hr
          dsimp only at hr
          rw [k3] at hr
          dsimp only at hr
          rw [if_neg hne] at hr
          exact ih n gs' _ r k4 k5 (fun q hq => (g3 q (by rw [← k2]; exact hq)).2) hall hr
        · have : ∃ q ∈ ps0, trajectory f o.dt (S + n * o.dt) q = none := by
            push Not at hall
            obtain ⟨q, hq, hq'⟩ := hall
            exact ⟨q, hq, by simpa using hq'⟩
          have he := heff.bad hu (by
            obtain ⟨q, hq, hq'⟩ := hJ.at_.none hne h.starts e2.le hm this
            obtain ⟨p, hp, rfl⟩ := List.mem_map.mp hq
            exact ⟨p, hp, hq'⟩)
          rw [he] at hr
          exact ⟨_, by rw [← Option.some.inj hr]⟩
    · exfalso
      have hmN : m = N := by
        rw [ended h ha hJ] at hc
        have := hJ.le
        omega
      obtain ⟨q, hq, hq'⟩ := hbad
      have := hm q hq
      rw [hmN, hq'] at this
      cases this

theorem loop_total {D R : Prop} {f : Scheme V} {π : V' → V} {I : V' → Prop} {o : Opts} {S : ℚ} {N : ℕ} {ps0 : List (TP V)} (h : Regular o S N ps0) {a : Args}
    (ha : Plain o S N a) {exec : Grids → Exec V'} {Good : Grids → ℕ → Ext → Prop} (hs : Serves D R f π I S o.dt N exec Good)
    (htot : ∀ gs n ps, n ≤ N → (∀ q ∈ ps, q.2.dt = o.dt ∧ ∃ j : ℕ, q.2.time = S + j * o.dt) → (exec gs (S + n * o.dt) o.dt ps).isSome)
    {R0 : List (Nat × ℚ × V)} {wod : Bool} (hok : D ∨ R) :
    ∀ (fuel : ℕ) (m : ℕ) (gs : Grids) (s : St V'), (Good gs m s.sched.nextIn ∨ m = N) → J f o S N a ps0 R0 wod m (mapS π s) →
      (∀ q ∈ s.ps, I q.2.vars) → N < m + fuel → (loop a exec fuel gs s).isSome := by
  have hne := ne_zero_of h.step
  intro fuel
  induction fuel with
  | zero => intro m gs s _ hJ _ hlt; have := hJ.le; omega
  | succ fuel ih =>
    intro m gs s hG hJ hI hlt
    rw [loop]
    by_cases hc : Schedule.continues a s.sched
    · rw [if_pos hc]
      have hmN := (ended h ha hJ).mp hc
      replace hG := hG.resolve_right (by omega)
      obtain ⟨n, e1, e2, e3, e4, e5⟩ := stopD h ha hJ hc
      rw [e1]
      dsimp only
      rw [ha.dt]
      obtain ⟨⟨e, ps'⟩, hx⟩ := Option.isSome_iff_exists.mp (htot gs n s.ps e3 (fun q hq => by
        obtain ⟨a1, ⟨j, -, hj⟩, -⟩ := members h hJ hI q hq
        exact ⟨a1, j, hj⟩))
      rw [hx]
      have heff := hs.eff gs m _ n s.ps e ps' hG e2 e3 e4 (members h hJ hI) hx
      have hcase : e = .raised ∨ (e = .normal ∧ (ps'.map (mapP π)).map core = (s.ps.map (mapP π)).filterMap (trajectory f o.dt (S + n * o.dt)) ∧
          ∀ q ∈ ps', q.2.dt = o.dt ∧ I q.2.vars) := by
        by_cases hall : ∀ q ∈ s.ps, (trajectory f o.dt (S + n * o.dt) (mapP π q)).isSome
        · exact Or.inr (heff.good (Or.inr hall))
        · rcases hok with hd | hd
          · exact Or.inr (heff.good (Or.inl hd))
          · left
            apply heff.bad hd
            push Not at hall
            obtain ⟨q, hq, hq'⟩ := hall
            exact ⟨q, hq, by simpa using hq'⟩
      rcases hcase with rfl | ⟨rfl, g2, g3⟩
      · rfl
      · dsimp only
        have g2' := hJ.at_.next hne h.starts e2.le
        rw [show (mapS π s).ps = s.ps.map (mapP π) from rfl] at g2'
        rw [g2'] at g2
        obtain ⟨s2, gs', nx, k1, k2, k3, k4, k5⟩ := turnD h ha hs hG hJ e2 e3 e4 e5 ps' ⟨g2, fun q hq => by
          obtain ⟨p, hp, rfl⟩ := List.mem_map.mp hq
          exact (g3 p hp).1⟩
        rw [k1]
        dsimp only
        rw [k3]
        dsimp only
        rw [if_neg hne]
        exact ih n gs' _ k4 k5 (fun q hq => (g3 q (by rw [← k2]; exact hq)).2) (by omega)
    · rw [if_neg hc]
      rfl

end Parcels.DeferRun
