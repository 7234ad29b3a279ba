import Verif.Proofs.RandomRun2

namespace Parcels.RandomRun

open KernelLoop (Particle Kern Exc LS)
open Recovery (TP RMap)
open Schedule (Args Ext)
open WholeRun (St Run Opts Regular Plain args args_plain write startTime records core Fits GridInv grid_le grid_lt grid_inj ne_zero_of outputTimes stop_grid
  grid_fire grid_init plain_ordinary zero_steps kept_all kept_mark)

variable {W V : Type}

/-! ### The loop -/

/-- What was written when the run is at step `m`; the last output is still missing if the end is not a multiple of `outputdt`. -/
structure OutInv (f : Scheme W V) (o : Opts) (S : ℚ) (N : ℕ) (w0 : W) (cs0 R0 : List (Nat × ℚ × V)) (k m : ℕ) (s : St V) : Prop where
  wod : s.file.writeOndelete = false
  last : ∃ K : ℕ, s.file.lasttime = some (S + ((K * k : ℕ) : ℚ) * o.dt) ∧ K * k ≤ m ∧ m < (K + 1) * k
  recs : records s ++ (if m = N ∧ ¬ k ∣ N then (s.ps.map core).filter fun c => decide (c.2.1 = S + m * o.dt) else []) =
    R0 ++ log f o.dt (fun t => t ∈ outputTimes S o.dt (k * |o.dt|) N) (upTo o S N m) w0 cs0

structure J (f : Scheme W V) (o : Opts) (S : ℚ) (N : ℕ) (a : Args) (w0 : W) (cs0 R0 : List (Nat × ℚ × V)) (wod : Bool) (m : ℕ) (w : W) (s : St V) : Prop where
  inv : Schedule.Inv a s.sched
  grid : GridInv S o.dt s.sched
  streams : Streams o S N a m s.sched
  time : s.sched.time = S + m * o.dt
  le : m ≤ N
  ahead : Ahead S o.dt m s.ps
  state : (w, s.ps.map core) = journey f o.dt (upTo o S N m) w0 cs0
  out : o.hasFile = true → wod = false → ∀ k : ℕ, 0 < k → o.outputdt = some (k * |o.dt|) → OutInv f o S N w0 cs0 R0 k m s

theorem upTo_fire {o : Opts} {S : ℚ} {N : ℕ} {a : Args} {m n : ℕ} {s : Schedule.St} (h1 : Streams o S N a m s)
    (h2 : Streams o S N a n (Schedule.fire a s (S + n * o.dt))) : upTo o S N n = upTo o S N m ++ [S + n * o.dt] := by
  rw [← h2.stops, ← h1.stops]
  rfl

/-- One turn of the loop after the kernel was executed. -/
theorem turn {f : Scheme W V} {o : Opts} {S : ℚ} {N : ℕ} {ps0 : List (TP V)} (h : Regular o S N ps0) (hl : Loaded o) {a : Args} (ha : Plain o S N a)
    (hr : a.repeatdt = none) {w0 : W} {cs0 R0 : List (Nat × ℚ × V)} {wod : Bool} {m n : ℕ} {w w' : W} {s : St V} (hJ : J f o S N a w0 cs0 R0 wod m w s)
    (hmn : m < n) (hnN : n ≤ N) (hstop : Schedule.nextStop a s.sched = .fin (S + n * o.dt))
    (hI : Schedule.Inv a (Schedule.fire a s.sched (S + n * o.dt)))
    (hnb : ∀ x, Schedule.NB a.dt (S + n * o.dt) (s.sched.next x)) (ps' : List (TP V)) (hd : ∀ q ∈ ps', q.2.dt = o.dt)
    (hsw : (w', ps'.map core) = sweep f o.dt (S + n * o.dt) w (s.ps.map core)) :
    ∃ s2, (bif Schedule.near (S + n * o.dt) (s.sched.next .output) then write a.hasFile { s with ps := ps' } (S + n * o.dt) else some { s with ps := ps' }) = some s2 ∧
      J f o S N a w0 cs0 R0 wod n w' { s2 with sched := Schedule.fire a s.sched (S + n * o.dt) } := by
  have hne := ne_zero_of h.step
  have hg := grid_fire h ha hJ.grid (S + n * o.dt)
  have hst := streams_fire h hl ha hr hJ.inv hJ.grid hJ.streams hmn hnN hstop hnb
  have hup := upTo_fire hJ.streams hst
  have hah : Ahead S o.dt n ps' := hJ.ahead.sweep hne hd hsw
  have hjour : (w', ps'.map core) = journey f o.dt (upTo o S N n) w0 cs0 := by
    rw [hup, journey_append, ← hJ.state, hsw]
    rfl
  have hlog : ∀ k : ℕ, 0 < k → log f o.dt (fun t => t ∈ outputTimes S o.dt (k * |o.dt|) N) (upTo o S N n) w0 cs0 =
      log f o.dt (fun t => t ∈ outputTimes S o.dt (k * |o.dt|) N) (upTo o S N m) w0 cs0 ++
        if k ∣ n ∨ n = N then (ps'.map core).filter fun c => decide (c.2.1 = S + n * o.dt) else [] := by
    intro k hk
    rw [hup, log_append, ← hJ.state]
    congr 1
    simp only [log, List.append_nil]
    rw [← hsw]
    by_cases c : k ∣ n ∨ n = N
    · rw [if_pos c, if_pos ((mem_outputTimes hne hk hnN (by omega)).mpr c)]
    · rw [if_neg c, if_neg (fun x => c ((mem_outputTimes hne hk hnN (by omega)).mp x))]
  have hmid : ∀ k : ℕ, OutInv f o S N w0 cs0 R0 k m s → records s = R0 ++ log f o.dt (fun t => t ∈ outputTimes S o.dt (k * |o.dt|) N) (upTo o S N m) w0 cs0 := by
    intro k hk
    have := hk.recs
    rw [if_neg (by omega), List.append_nil] at this
    exact this
  have hnear : ∀ k K : ℕ, 0 < k → o.hasFile = true → o.outputdt = some (k * |o.dt|) → K * k ≤ m → m < (K + 1) * k →
      (Schedule.near (S + n * o.dt) (s.sched.next .output) = true ↔ n = (K + 1) * k) ∧ n ≤ (K + 1) * k := by
    intro k K hk hf ho h1 h2
    have hi : Schedule.interval a .output = some (k * |o.dt|) := by simp [Schedule.interval, ha.file, hf, ha.outputdt, ho]
    obtain ⟨K', e1, e2, e3⟩ := hJ.streams.next .output (by decide) k hk hi
    have hKK : K' = K := by
      have a1 : K' < K + 1 := lt_of_mul_lt_mul_right (lt_of_le_of_lt e2 h2) (Nat.zero_le k)
      have a2 : K < K' + 1 := lt_of_mul_lt_mul_right (lt_of_le_of_lt h1 e3) (Nat.zero_le k)
      omega
    subst hKK
    constructor
    · rw [WholeRun.near_grid h.step n _ (hJ.grid.next .output), e1]
      constructor
      · intro e; exact (grid_inj hne (Ext.fin.inj e)).symm
      · intro e; rw [e]
    · have := hnb .output
      rw [e1, ha.dt] at this
      exact (grid_le hne).mp this
  have hdvd : ∀ k K : ℕ, 0 < k → K * k ≤ m → n ≤ (K + 1) * k → (k ∣ n ↔ n = (K + 1) * k) := by
    intro k K hk h1 h2
    constructor
    · rintro ⟨c, rfl⟩
      have : K < c := by
        by_contra hc
        have := Nat.mul_le_mul_left k (not_lt.mp hc)
        rw [Nat.mul_comm k K] at this
        omega
      have := Nat.mul_le_mul_left k (Nat.succ_le_of_lt this)
      rw [Nat.succ_eq_add_one, Nat.mul_comm k (K + 1)] at this
      omega
    · intro e; exact ⟨K + 1, by rw [e, Nat.mul_comm]⟩
  cases hnr : Schedule.near (S + n * o.dt) (s.sched.next .output) with
  | false =>
    refine ⟨_, rfl, hI, hg, hst, rfl, hnN, hah, hjour, ?_⟩
    intro hf hw k hk ho
    have hO := hJ.out hf hw k hk ho
    obtain ⟨w1, ⟨K, w2, w3, w4⟩, w5⟩ := id hO
    obtain ⟨n1, n2⟩ := hnear k K hk hf ho w3 w4
    have hnot : n ≠ (K + 1) * k := fun e => by have := n1.mpr e; rw [hnr] at this; cases this
    have hnd : ¬ k ∣ n := fun e => hnot ((hdvd k K hk w3 n2).mp e)
    refine ⟨w1, ⟨K, w2, by omega, by omega⟩, ?_⟩
    rw [hlog k hk, ← List.append_assoc, ← hmid k hO]
    show records s ++ _ = _
    congr 1
    by_cases c : n = N
    · rw [if_pos ⟨c, by rw [← c]; exact hnd⟩, if_pos (Or.inr c)]
    · rw [if_neg (fun x => c x.1), if_neg (by rintro (x | x); exacts [hnd x, c x])]
  | true =>
    obtain ⟨s', e1, e2, e3, e4⟩ := write_ahead hne a.hasFile { s with ps := ps' } n hah
    refine ⟨s', by rw [cond_true]; exact e1, hI, hg, hst, rfl, hnN, by dsimp only; rw [e2]; exact hah, by dsimp only; rw [e2]; exact hjour, ?_⟩
    intro hf hw k hk ho
    have hO := hJ.out hf hw k hk ho
    obtain ⟨w1, ⟨K, w2, w3, w4⟩, w5⟩ := id hO
    obtain ⟨x1, x2, x3⟩ := e4 (by rw [ha.file]; exact hf) w1
    obtain ⟨n1, n2⟩ := hnear k K hk hf ho w3 w4
    have hK := n1.mp hnr
    have hd' : k ∣ n := (hdvd k K hk w3 n2).mpr hK
    refine ⟨x1, ⟨K + 1, by dsimp only; rw [x2, hK], hK.ge, by rw [hK]; exact Nat.mul_lt_mul_of_pos_right (Nat.lt_succ_self _) hk⟩, ?_⟩
    rw [if_neg (by rintro ⟨rfl, c⟩; exact c hd'), List.append_nil, hlog k hk, ← List.append_assoc, ← hmid k hO, if_pos (Or.inl hd')]
    have : records { s' with sched := Schedule.fire a s.sched (S + n * o.dt) } = records s' := rfl
    rw [this, x3, if_neg]
    · rfl
    · dsimp only
      rw [w2]
      intro e
      have := grid_inj hne (Option.some.inj e)
      omega

theorem prefix_length (f : Scheme W V) (o : Opts) (S : ℚ) (N n : ℕ) (hn : n ≤ N) (w0 : W) (cs0 : List (Nat × ℚ × V)) :
    (journey f o.dt (upTo o S N N) w0 cs0).2.length ≤ (journey f o.dt (upTo o S N n) w0 cs0).2.length := by
  obtain ⟨us, e⟩ := upTo_prefix o S N n N hn
  rw [e, journey_append]
  exact journey_length _ _ _ _ _

theorem J.lengths {f : Scheme W V} {o : Opts} {S : ℚ} {N : ℕ} {a : Args} {w0 : W} {cs0 R0 : List (Nat × ℚ × V)} {wod : Bool} {m : ℕ} {w : W} {s : St V}
    (hJ : J f o S N a w0 cs0 R0 wod m w s) : (journey f o.dt (upTo o S N m) w0 cs0).2.length = s.ps.length := by
  rw [← hJ.state]
  simp

/-- The run goes on as long as no particle fails, or if the recovery functions delete. -/
theorem loop_good {f : Scheme W V} {user : RMap W V} {o : Opts} {S : ℚ} {N : ℕ} {ps0 : List (TP V)} (h : Regular o S N ps0) (hl : Loaded o) {a : Args}
    (ha : Plain o S N a) (hrep : a.repeatdt = none) {exec : Exec W V}
    (hex : ∀ T w w' ps ps' e, (∀ q ∈ ps, q.2.dt = o.dt ∧ Fits o.dt T q) → exec T o.dt w ps = some (e, w', ps') → Effect user f o.dt T w ps e w' ps')
    {w0 : W} {cs0 R0 : List (Nat × ℚ × V)} {wod : Bool} (hok : Deletes user ∨ (journey f o.dt (upTo o S N N) w0 cs0).2.length = cs0.length) :
    ∀ (fuel : ℕ) (m : ℕ) (w : W) (s : St V) (r : Run V × W), J f o S N a w0 cs0 R0 wod m w s → loop a exec fuel w s = some r →
      ∃ s' w', r = (.done s', w') ∧ J f o S N a w0 cs0 R0 wod N w' s' := by
  have hne := ne_zero_of h.step
  intro fuel
  induction fuel with
  | zero => intro m w s r _ h; cases h
  | succ fuel ih =>
    intro m w s r hJ hr
    rw [loop] at hr
    by_cases hc : Schedule.continues a s.sched
    · rw [if_pos hc] at hr
      obtain ⟨n, e1, e2, e3, e4, e5⟩ := stop_grid h ha hJ.inv hJ.grid m hJ.time hc
      rw [e1] at hr
      dsimp only at hr
      rw [ha.dt] at hr
      cases hx : exec (S + n * o.dt) o.dt w s.ps with
      | none => rw [hx] at hr; cases hr
      | some x =>
        obtain ⟨e, w', ps'⟩ := x
        have heff := hex _ _ _ _ _ _ (hJ.ahead.fits hne n) hx
        have hg : e = .normal ∧ (w', ps'.map core) = sweep f o.dt (S + n * o.dt) w (s.ps.map core) ∧ ∀ q ∈ ps', q.2.dt = o.dt := by
          refine heff.good ?_
          rcases hok with hd | hall
          · exact Or.inl hd
          · right
            have hup := upTo_fire hJ.streams (streams_fire h hl ha hrep hJ.inv hJ.grid hJ.streams e2 e3 e1 e5)
            have k1 := prefix_length f o S N n e3 w0 cs0
            rw [hup, journey_append, ← hJ.state, hall] at k1
            have k2 := sweep_length f o.dt (S + n * o.dt) w (s.ps.map core)
            have k3 := journey_length f o.dt (upTo o S N m) w0 cs0
            rw [hJ.lengths] at k3
            rw [List.length_map] at k2
            simp only [journey] at k1
            omega
        obtain ⟨rfl, g2, g3⟩ := hg
        rw [hx] at hr
        dsimp only at hr
        obtain ⟨s2, k1, k2⟩ := turn h hl ha hrep hJ e2 e3 e1 e4 e5 ps' g3 g2
        rw [k1] at hr
        dsimp only at hr
        rw [if_neg (by rw [ha.fieldset]; simp), if_neg hne] at hr
        exact ih n _ _ r k2 hr
    · rw [if_neg hc] at hr
      obtain rfl := Option.some.inj hr
      have hmN : m = N := by
        rw [Schedule.continues_iff (by rw [ha.dt]; exact hne)] at hc
        unfold Schedule.After at hc
        rw [hJ.time, ha.E, ha.dt, grid_lt hne] at hc
        have := hJ.le
        omega
      exact ⟨s, w, rfl, hmN ▸ hJ⟩

/-- The run raised on the way to one of its stops, the first at which a particle fails. -/
def Broke (f : Scheme W V) (o : Opts) (S : ℚ) (N : ℕ) (w0 : W) (cs0 : List (Nat × ℚ × V)) (w' : W) (ps' : List (TP V)) : Prop :=
  ∃ (m n : ℕ) (us : List ℚ) (w : W) (ps : List (TP V)), m < n ∧ n ≤ N ∧ upTo o S N N = upTo o S N m ++ (S + n * o.dt) :: us ∧
    (w, ps.map core) = journey f o.dt (upTo o S N m) w0 cs0 ∧ ps.length = cs0.length ∧ Ahead S o.dt m ps ∧
    Swept f o.dt (S + n * o.dt) w (ps.map fun q => (q.1, { q.2 with state := Code.evaluate })) w' ps' ∧
    (sweep f o.dt (S + n * o.dt) w (ps.map core)).2.length < ps.length

/-- With recovery functions that raise, a particle that fails makes the run raise. -/
theorem loop_bad {f : Scheme W V} {user : RMap W V} {o : Opts} {S : ℚ} {N : ℕ} {ps0 : List (TP V)} (h : Regular o S N ps0) (hl : Loaded o) {a : Args}
    (ha : Plain o S N a) (hrep : a.repeatdt = none) {exec : Exec W V}
    (hex : ∀ T w w' ps ps' e, (∀ q ∈ ps, q.2.dt = o.dt ∧ Fits o.dt T q) → exec T o.dt w ps = some (e, w', ps') → Effect user f o.dt T w ps e w' ps')
    {w0 : W} {cs0 R0 : List (Nat × ℚ × V)} {wod : Bool} (hu : Raises user) (hbad : (journey f o.dt (upTo o S N N) w0 cs0).2.length < cs0.length) :
    ∀ (fuel : ℕ) (m : ℕ) (w : W) (s : St V) (r : Run V × W), J f o S N a w0 cs0 R0 wod m w s → s.ps.length = cs0.length → loop a exec fuel w s = some r →
      ∃ s' w', r = (.raised s', w') ∧ Broke f o S N w0 cs0 w' s'.ps := by
  have hne := ne_zero_of h.step
  intro fuel
  induction fuel with
  | zero => intro m w s r _ _ h; cases h
  | succ fuel ih =>
    intro m w s r hJ hm hr
    rw [loop] at hr
    by_cases hc : Schedule.continues a s.sched
    · rw [if_pos hc] at hr
      obtain ⟨n, e1, e2, e3, e4, e5⟩ := stop_grid h ha hJ.inv hJ.grid m hJ.time hc
      rw [e1] at hr
      dsimp only at hr
      rw [ha.dt] at hr
      cases hx : exec (S + n * o.dt) o.dt w s.ps with
      | none => rw [hx] at hr; cases hr
      | some x =>
        obtain ⟨e, w', ps'⟩ := x
        have heff := hex _ _ _ _ _ _ (hJ.ahead.fits hne n) hx
        rw [hx] at hr
        have k2 := sweep_length f o.dt (S + n * o.dt) w (s.ps.map core)
        rw [List.length_map] at k2
        rcases Nat.lt_or_eq_of_le k2 with hlt | heq
        · obtain ⟨he, hsw⟩ := heff.bad hu hlt
          rw [he] at hr
          have hup := upTo_fire hJ.streams (streams_fire h hl ha hrep hJ.inv hJ.grid hJ.streams e2 e3 e1 e5)
          obtain ⟨us, hus⟩ := upTo_prefix o S N n N e3
          exact ⟨_, _, (Option.some.inj hr).symm, m, n, us, w, s.ps, e2, e3, by rw [hus, hup, List.append_assoc]; rfl, hJ.state, hm, hJ.ahead, hsw, hlt⟩
        · obtain ⟨rfl, g2, g3⟩ := heff.good (Or.inr heq)
          dsimp only at hr
          obtain ⟨s2, k1, k2⟩ := turn h hl ha hrep hJ e2 e3 e1 e4 e5 ps' g3 g2
          rw [k1] at hr
          dsimp only at hr
          rw [if_neg (by rw [ha.fieldset]; simp), if_neg hne] at hr
          refine ih n _ _ r k2 ?_ hr
          have hup := upTo_fire hJ.streams (streams_fire h hl ha hrep hJ.inv hJ.grid hJ.streams e2 e3 e1 e5)
          have := k2.lengths
          rw [hup, journey_append, ← hJ.state] at this
          simp only [journey] at this
          rw [heq] at this
          rw [← this, hm]
    · exfalso
      have hmN : m = N := by
        rw [Schedule.continues_iff (by rw [ha.dt]; exact hne)] at hc
        unfold Schedule.After at hc
        rw [hJ.time, ha.E, ha.dt, grid_lt hne] at hc
        have := hJ.le
        omega
      have := hJ.lengths
      rw [hmN] at this
      omega

/-! ### The whole run -/

theorem start_ahead {o : Opts} {S : ℚ} {N : ℕ} {ps0 : List (TP V)} (h : Regular o S N ps0) :
    Ahead S o.dt 0 (ps0.map fun q => (q.1, { q.2 with dt := o.dt })) := by
  intro q hq
  obtain ⟨r, hr, rfl⟩ := List.mem_map.mp hq
  obtain ⟨j, hj⟩ := h.starts r hr
  exact ⟨rfl, j, Nat.zero_le _, hj⟩

/-- The records of the start. -/
def firstRecords (S : ℚ) (file : Output.PFile) (ps : List (TP V)) : List (Nat × ℚ × V) :=
  if file.lasttime = some S then [] else (ps.map core).filter fun c => decide (c.2.1 = S)

/-- The state before the loop. -/
theorem start_J (f : Scheme W V) {o : Opts} {S : ℚ} {N : ℕ} {ps0 : List (TP V)} (h : Regular o S N ps0) (hl : Loaded o) {a : Args} (ha : Plain o S N a)
    (hr : a.repeatdt = none) (w0 : W) (file : Output.PFile) :
    ∃ s1, write a.hasFile ⟨Schedule.init a, ps0.map fun q => (q.1, { q.2 with dt := a.dt }), file, []⟩ S = some s1 ∧
      J f o S N a w0 (ps0.map core) (firstRecords S file ps0) file.writeOndelete 0 w0 s1 ∧ s1.ps.length = (ps0.map core).length := by
  have hne := ne_zero_of h.step
  have hah := start_ahead h
  rw [ha.dt]
  obtain ⟨s1, e1, e2, e3, e4⟩ := write_ahead hne a.hasFile
    (⟨Schedule.init a, ps0.map fun q => (q.1, { q.2 with dt := o.dt }), file, []⟩ : St V) 0 hah
  rw [zero_steps] at e1 e4
  have hcore : (ps0.map fun q : TP V => (q.1, { q.2 with dt := o.dt })).map core = ps0.map core := by
    rw [List.map_map]
    rfl
  have hN : N ≠ 0 := by
    rintro rfl
    have := h.length
    norm_num at this
  refine ⟨s1, e1, ⟨?_, ?_, ?_, ?_, Nat.zero_le _, ?_, ?_, ?_⟩, ?_⟩
  · rw [e3]; exact Schedule.inv_init (plain_ordinary h ha)
  · rw [e3]; exact grid_init h ha
  · rw [e3]; exact streams_init h hl ha hr
  · rw [e3, zero_steps]; exact ha.start
  · rw [e2]; exact hah
  · rw [e2]
    dsimp only
    rw [hcore]
    rfl
  · intro hf hw k hk ho
    obtain ⟨w1, w2, w3⟩ := e4 (by rw [ha.file]; exact hf) hw
    refine ⟨w1, ⟨0, ?_, by simp, by simpa using hk⟩, ?_⟩
    · rw [w2, Nat.zero_mul, zero_steps]
    · rw [if_neg (fun c => hN c.1.symm), w3]
      dsimp only
      rw [hcore]
      simp [firstRecords, records, upTo, log]
  · rw [e2]
    simp

/-- The run returned, with generator, particles and records as they should be. -/
theorem execute_good {f : Scheme W V} {user : RMap W V} {o : Opts} {S : ℚ} {N : ℕ} {ps : List (TP V)} (h : Regular o S N ps) (hl : Loaded o) {exec : Exec W V}
    (hex : ∀ T w w' ps ps' e, (∀ q ∈ ps, q.2.dt = o.dt ∧ Fits o.dt T q) → exec T o.dt w ps = some (e, w', ps') → Effect user f o.dt T w ps e w' ps')
    (w : W) (hok : Deletes user ∨ (journey f o.dt (stops o S N) w (ps.map core)).2.length = ps.length) (fuel : ℕ) (file : Output.PFile) (r : Run V × W)
    (hr : execute o exec fuel w file ps = some r) :
    ∃ s w', r = (.done s, w') ∧ (w', s.ps.map core) = journey f o.dt (stops o S N) w (ps.map core) ∧ Ahead S o.dt N s.ps ∧
      (o.hasFile = true → file.writeOndelete = false → ∀ i, o.outputdt = some i →
        s.file.lasttime = some (S + N * o.dt) ∧ s.file.writeOndelete = false ∧
        records s = firstRecords S file ps ++ log f o.dt (fun t => t ∈ outputTimes S o.dt i N) (stops o S N) w (ps.map core)) := by
  have hne := ne_zero_of h.step
  have ha := args_plain h
  unfold execute at hr
  rw [h.startTime] at hr
  dsimp only at hr
  obtain ⟨s1, e1, hJ1, -⟩ := start_J f h hl ha (args_repeat o S) w file
  rw [e1] at hr
  dsimp only at hr
  have hok' : Deletes user ∨ (journey f o.dt (upTo o S N N) w (ps.map core)).2.length = (ps.map core).length := by
    rw [List.length_map]; exact hok
  cases hlp : loop (args o S) exec fuel w s1 with
  | none => rw [hlp] at hr; cases hr
  | some r1 =>
    obtain ⟨s2, w2, rfl, hJ⟩ := loop_good h hl ha (args_repeat o S) hex hok' fuel 0 w s1 r1 hJ1 hlp
    rw [hlp] at hr
    dsimp only at hr
    obtain ⟨s3, k1, k2, k3, k4⟩ := write_ahead hne (args o S).hasFile s2 N hJ.ahead
    rw [hJ.time, k1] at hr
    obtain rfl := Option.some.inj hr
    refine ⟨s3, w2, rfl, by rw [k2]; exact hJ.state, by rw [k2]; exact hJ.ahead, ?_⟩
    intro hf hw i hi
    obtain ⟨k, hk, rfl⟩ := h.output i hi
    obtain ⟨w1, ⟨K, w3, w4, w5⟩, w6⟩ := hJ.out hf hw k hk hi
    obtain ⟨x1, x2, x3⟩ := k4 (by rw [ha.file]; exact hf) w1
    refine ⟨x2, x1, ?_⟩
    show _ = _ ++ log f o.dt _ (upTo o S N N) w (ps.map core)
    rw [← w6, x3, w3]
    congr 1
    have hiff : k ∣ N ↔ K * k = N := by
      constructor
      · rintro ⟨c, rfl⟩
        have a1 : K ≤ c := by
          have : K * k ≤ c * k := by rw [Nat.mul_comm c k]; exact w4
          exact Nat.le_of_mul_le_mul_right this hk
        have a2 : c < K + 1 := by
          have : c * k < (K + 1) * k := by rw [Nat.mul_comm c k]; exact w5
          exact Nat.lt_of_mul_lt_mul_right this
        have : c = K := by omega
        rw [this, Nat.mul_comm]
      · intro e; exact ⟨K, by rw [← e, Nat.mul_comm]⟩
    by_cases c : K * k = N
    · rw [if_pos (by rw [c]), if_neg (fun x => x.2 (hiff.mpr c))]
    · rw [if_neg (fun e => c (grid_inj hne (Option.some.inj e))), if_pos ⟨rfl, fun x => c (hiff.mp x)⟩]

theorem execute_bad {f : Scheme W V} {user : RMap W V} {o : Opts} {S : ℚ} {N : ℕ} {ps : List (TP V)} (h : Regular o S N ps) (hl : Loaded o) {exec : Exec W V}
    (hex : ∀ T w w' ps ps' e, (∀ q ∈ ps, q.2.dt = o.dt ∧ Fits o.dt T q) → exec T o.dt w ps = some (e, w', ps') → Effect user f o.dt T w ps e w' ps')
    (w : W) (hu : Raises user) (hbad : (journey f o.dt (stops o S N) w (ps.map core)).2.length < ps.length) (fuel : ℕ) (file : Output.PFile) (r : Run V × W)
    (hr : execute o exec fuel w file ps = some r) : ∃ s w', r = (.raised s, w') ∧ Broke f o S N w (ps.map core) w' s.ps := by
  have ha := args_plain h
  unfold execute at hr
  rw [h.startTime] at hr
  dsimp only at hr
  obtain ⟨s1, e1, hJ1, hlen⟩ := start_J f h hl ha (args_repeat o S) w file
  rw [e1] at hr
  dsimp only at hr
  have hbad' : (journey f o.dt (upTo o S N N) w (ps.map core)).2.length < (ps.map core).length := by
    rw [List.length_map]; exact hbad
  cases hlp : loop (args o S) exec fuel w s1 with
  | none => rw [hlp] at hr; cases hr
  | some r1 =>
    obtain ⟨s2, w2, rfl, hb⟩ := loop_bad h hl ha (args_repeat o S) hex hu hbad' fuel 0 w s1 r1 hJ1 hlen hlp
    rw [hlp] at hr
    exact ⟨s2, w2, (Option.some.inj hr).symm, hb⟩

/-! ### The run ends -/

theorem loop_total {f : Scheme W V} {user : RMap W V} {o : Opts} {S : ℚ} {N : ℕ} {ps0 : List (TP V)} (h : Regular o S N ps0) (hl : Loaded o) {a : Args}
    (ha : Plain o S N a) (hrep : a.repeatdt = none) {exec : Exec W V}
    (hex : ∀ T w w' ps ps' e, (∀ q ∈ ps, q.2.dt = o.dt ∧ Fits o.dt T q) → exec T o.dt w ps = some (e, w', ps') → Effect user f o.dt T w ps e w' ps')
    (htot : ∀ n w ps, n ≤ N → (∀ q ∈ ps, q.2.dt = o.dt ∧ ∃ j : ℕ, q.2.time = S + j * o.dt) → (exec (S + n * o.dt) o.dt w ps).isSome)
    {w0 : W} {cs0 R0 : List (Nat × ℚ × V)} {wod : Bool} (hok : Deletes user ∨ Raises user) :
    ∀ (fuel : ℕ) (m : ℕ) (w : W) (s : St V), J f o S N a w0 cs0 R0 wod m w s → N < m + fuel → (loop a exec fuel w s).isSome := by
  have hne := ne_zero_of h.step
  intro fuel
  induction fuel with
  | zero => intro m w s hJ hlt; have := hJ.le; omega
  | succ fuel ih =>
    intro m w s hJ hlt
    rw [loop]
    by_cases hc : Schedule.continues a s.sched
    · rw [if_pos hc]
      obtain ⟨n, e1, e2, e3, e4, e5⟩ := stop_grid h ha hJ.inv hJ.grid m hJ.time hc
      rw [e1]
      dsimp only
      rw [ha.dt]
      obtain ⟨⟨e, w', ps'⟩, hx⟩ := Option.isSome_iff_exists.mp (htot n w s.ps e3 (fun q hq => by
        obtain ⟨h1, j, -, hj⟩ := hJ.ahead q hq
        exact ⟨h1, j, hj⟩))
      rw [hx]
      have heff := hex _ _ _ _ _ _ (hJ.ahead.fits hne n) hx
      have k2 := sweep_length f o.dt (S + n * o.dt) w (s.ps.map core)
      rw [List.length_map] at k2
      have hcase : e = .raised ∨ (e = .normal ∧ (w', ps'.map core) = sweep f o.dt (S + n * o.dt) w (s.ps.map core) ∧ ∀ q ∈ ps', q.2.dt = o.dt) := by
        rcases Nat.lt_or_eq_of_le k2 with hlt | heq
        · rcases hok with hd | hd
          · exact Or.inr (heff.good (Or.inl hd))
          · exact Or.inl (heff.bad hd hlt).1
        · exact Or.inr (heff.good (Or.inr heq))
      rcases hcase with rfl | ⟨rfl, g2, g3⟩
      · rfl
      · dsimp only
        obtain ⟨s2, k1, k2⟩ := turn h hl ha hrep hJ e2 e3 e1 e4 e5 ps' g3 g2
        rw [k1]
        dsimp only
        rw [if_neg (by rw [ha.fieldset]; simp), if_neg hne]
        exact ih n _ _ k2 (by omega)
    · rw [if_neg hc]
      rfl

theorem execute_total {f : Scheme W V} {user : RMap W V} {o : Opts} {S : ℚ} {N : ℕ} {ps : List (TP V)} (h : Regular o S N ps) (hl : Loaded o) {exec : Exec W V}
    (hex : ∀ T w w' ps ps' e, (∀ q ∈ ps, q.2.dt = o.dt ∧ Fits o.dt T q) → exec T o.dt w ps = some (e, w', ps') → Effect user f o.dt T w ps e w' ps')
    (htot : ∀ n w ps, n ≤ N → (∀ q ∈ ps, q.2.dt = o.dt ∧ ∃ j : ℕ, q.2.time = S + j * o.dt) → (exec (S + n * o.dt) o.dt w ps).isSome)
    (hok : Deletes user ∨ Raises user) (w : W) (file : Output.PFile) : (execute o exec (N + 1) w file ps).isSome := by
  have ha := args_plain h
  unfold execute
  rw [h.startTime]
  dsimp only
  obtain ⟨s1, e1, hJ1, -⟩ := start_J f h hl ha (args_repeat o S) w file
  rw [e1]
  dsimp only
  obtain ⟨⟨r, w'⟩, hr⟩ := Option.isSome_iff_exists.mp (loop_total h hl ha (args_repeat o S) hex htot hok (N + 1) 0 w s1 hJ1 (by omega))
  rw [hr]
  cases r with
  | done s =>
    dsimp only
    cases write (args o S).hasFile s s.sched.time <;> rfl
  | raised s => rfl
  | crash s => rfl

/-! ### Executing the kernel ends -/

theorem pass_total (K : Kern W V) (T dt : ℚ) (fuel : Nat) : ∀ (ps : List (Particle V)) (w : W) (b : Option (Particle V)),
    (∀ p ∈ ps, ∀ w b, (KernelLoop.exec1 K T dt fuel w b p).isSome) → (KernelLoop.pass K T dt fuel w b ps).isSome := by
  intro ps
  induction ps with
  | nil => intro w b _; rfl
  | cons p ps ih =>
    intro w b h
    unfold KernelLoop.pass
    obtain ⟨s, hs⟩ := Option.isSome_iff_exists.mp (h p List.mem_cons_self w b)
    rw [hs]
    dsimp only
    obtain ⟨r, hr⟩ := Option.isSome_iff_exists.mp (ih s.w s.back (fun q hq => h q (List.mem_cons_of_mem _ hq)))
    rw [hr]
    rfl

theorem kernel_dt (f : Scheme W V) : KernelLoop.LeavesDtAlone (kernel f) := by
  intro w p
  unfold kernel
  dsimp only
  split <;> exact ⟨rfl, rfl, rfl⟩

theorem exec1_total (f : Scheme W V) {S dt : ℚ} (hdt : 1 / 100000000 < |dt|) {n N : ℕ} (hn : n ≤ N) (w : W) (b : Option (Particle V)) (p : Particle V)
    (hd : p.dt = dt) (hp : ∃ j : ℕ, p.time = S + j * dt) : (KernelLoop.exec1 (kernel f) (S + n * dt) dt (N + 1) w b p).isSome := by
  have hne := ne_zero_of hdt
  obtain ⟨j, hj⟩ := hp
  rcases Nat.lt_or_ge j n with c | c
  · apply KernelLoop.exec1_terminates (kernel f) (kernel_dt f) _ dt (WholeRun.not_close hdt) N w b p
    · rw [hd]; exact abs_pos.mpr hne
    · unfold KernelLoop.NotBefore
      rw [hj]
      exact (grid_le hne).mpr c.le
    · rw [hd, hj, show S + (n : ℚ) * dt - (S + j * dt) = ((n : ℚ) - j) * dt by ring, abs_mul]
      have h1 : (j : ℚ) ≤ n := by exact_mod_cast c.le
      have h2 : (n : ℚ) ≤ N := by exact_mod_cast hn
      have h3 : (0 : ℚ) ≤ j := Nat.cast_nonneg j
      rw [abs_of_nonneg (by linarith)]
      exact mul_le_mul_of_nonneg_right (by linarith) (abs_nonneg dt)
  · obtain ⟨s, hs, -⟩ := exec1_idle (kernel f) (S + n * dt) dt hdt (N + 1) w b p (by rw [hj]; exact (grid_le hne).mpr c)
    rw [hs]
    rfl

/-- A pass that ends when all particles are on the grid. -/
def Total (S dt : ℚ) (N : ℕ) (pass : Pass W V) : Prop :=
  ∀ n w ps, n ≤ N → (∀ q ∈ ps, q.2.dt = dt ∧ ∃ j : ℕ, q.2.time = S + j * dt) → (pass (S + n * dt) dt w ps).isSome

theorem scipy_total (f : Scheme W V) {S dt : ℚ} (hdt : 1 / 100000000 < |dt|) (N : ℕ) : Total S dt N (scipyPass (kernel f) (N + 1)) := by
  intro n w ps hn hps
  unfold scipyPass Recovery.runPass
  obtain ⟨⟨w', b, rs⟩, hr⟩ := Option.isSome_iff_exists.mp (pass_total (kernel f) (S + n * dt) dt (N + 1) (ps.map Prod.snd) w none (fun p hp => by
    obtain ⟨q, hq, rfl⟩ := List.mem_map.mp hp
    exact fun w b => exec1_total f hdt hn w b q.2 (hps q hq).1 (hps q hq).2))
  rw [hr]
  rfl

theorem scipy_jit (f : Scheme W V) {dt : ℚ} (hdt : 1 / 100000000 < |dt|) (fuel : Nat) (T : ℚ) (w w' : W) (ps ps' : List (TP V)) (hps : ∀ q ∈ ps, q.2.dt = dt)
    (h : scipyPass (kernel f) fuel T dt w ps = some (w', ps')) : jitPass (kernel f) fuel T dt w ps = some (w', ps') := by
  unfold scipyPass at h
  rw [Option.map_eq_some_iff] at h
  obtain ⟨⟨w1, ps1, cs⟩, h, hr⟩ := h
  obtain ⟨rfl, rfl⟩ := Prod.mk.inj hr
  unfold Recovery.runPass at h
  split at h
  · cases h
  rename_i w1 b1 rs hp
  simp only [Option.some.injEq, Prod.mk.injEq] at h
  obtain ⟨rfl, rfl, -⟩ := h
  have := JitLoop.pass_same (kernel f) (kernel_steady f) T dt (WholeRun.not_close hdt) fuel _ _ _ none _ _
    (fun p hp => by obtain ⟨q, hq, rfl⟩ := List.mem_map.mp hp; rw [hps q hq]; exact ne_zero_of hdt) hp
  unfold jitPass JitExec.runPass
  dsimp only [id]
  rw [this]
  rfl

theorem jit_total (f : Scheme W V) {S dt : ℚ} (hdt : 1 / 100000000 < |dt|) (N : ℕ) : Total S dt N (jitPass (kernel f) (N + 1)) := by
  intro n w ps hn hps
  obtain ⟨⟨w', ps'⟩, h⟩ := Option.isSome_iff_exists.mp (scipy_total f hdt N n w ps hn hps)
  rw [scipy_jit f hdt (N + 1) _ w w' ps ps' (fun q hq => (hps q hq).1) h]
  rfl

theorem exec_total {f : Scheme W V} {S dt : ℚ} (hne : dt ≠ 0) {N : ℕ} {pass : Pass W V} (hp : Good f dt pass) (ht : Total S dt N pass) (user : RMap W V)
    (hok : Deletes user ∨ Raises user) (n : ℕ) (w : W) (ps : List (TP V)) (hn : n ≤ N)
    (hps : ∀ q ∈ ps, q.2.dt = dt ∧ ∃ j : ℕ, q.2.time = S + j * dt) : (kernelExecute pass user 2 (S + n * dt) dt w ps).isSome := by
  have hfits : ∀ q ∈ ps, q.2.dt = dt ∧ Fits dt (S + n * dt) q := by
    intro q hq
    refine ⟨(hps q hq).1, ?_⟩
    obtain ⟨j, hj⟩ := (hps q hq).2
    rcases Nat.lt_or_ge j n with c | c
    · exact Or.inr ⟨n - j - 1, by rw [hj, Nat.cast_sub (by omega : 1 ≤ n - j), Nat.cast_sub c.le]; push_cast; ring⟩
    · exact Or.inl (by rw [hj]; exact (grid_le hne).mpr c)
  have hready := WholeRun.ready hfits
  obtain ⟨⟨w1, ps1⟩, hp1⟩ := Option.isSome_iff_exists.mp (ht n w (ps.map fun q : TP V => (q.1, { q.2 with state := Code.evaluate })) hn (fun q hq => by
    obtain ⟨r, hr, rfl⟩ := List.mem_map.mp hq
    exact hps r hr))
  unfold kernelExecute
  rw [hp1]
  dsimp only
  have hran := hp.run (S + n * dt) w _ w1 ps1 hready hp1
  obtain ⟨-, kf, k1, k2, k3, -, -⟩ := swept_facts hran
  have haft := swept_after hne hran (fun q hq => (hready q hq).2.2)
  rw [kept_all ps1 k1, rounds]
  by_cases herr : ∃ q ∈ ps1, Recovery.isError q.2
  · rw [if_pos ((any_error ps1).mpr herr)]
    rcases hok with hu | hu
    · rw [handleAll_deletes hu ps1 w1 k2]
      dsimp only
      rw [kept_mark ps1 k1]
      have hgrid : ∀ q ∈ ps1.filter (fun r : TP V => decide (¬ Recovery.isError r.2)), q.2.dt = dt ∧ ∃ j : ℕ, q.2.time = S + j * dt := by
        intro q hq
        refine ⟨k3 q (List.mem_filter.mp hq).1, ?_⟩
        have hmem : core q ∈ (sweep f dt (S + n * dt) w (ps.map core)).2 := by
          rw [map_core_state] at kf
          rw [← kf]
          exact List.mem_map_of_mem hq
        rcases sweep_mem f dt _ w _ _ hmem with e | ⟨e, -⟩
        · exact ⟨n, e⟩
        · obtain ⟨q0, hq0, e⟩ := List.mem_map.mp e
          obtain ⟨j, hj⟩ := (hps q0 hq0).2
          exact ⟨j, by rw [← hj]; exact (congrArg (fun x => x.2.1) e).symm⟩
      obtain ⟨⟨w2, ps2⟩, hp2⟩ := Option.isSome_iff_exists.mp (ht n w1 _ hn hgrid)
      rw [hp2]
      dsimp only
      obtain ⟨-, hrest⟩ := hp.idle (S + n * dt) w1 _ w2 ps2 (fun q hq => by
        rw [List.mem_filter] at hq
        exact ⟨k3 q hq.1, haft q hq.1 (by simpa using hq.2)⟩) hp2
      have hno : ¬ ∃ q ∈ ps2, Recovery.isError q.2 := by
        rintro ⟨q, hq, x1, x2⟩
        obtain ⟨a, ha1, ha2⟩ := WholeRun.forall₂_right hrest q hq
        rw [List.mem_filter] at ha1
        have hna : ¬ Recovery.isError a.2 := by simpa using ha1.2
        rcases ha2.2.2 with e | e
        · exact hna ⟨by rw [← e]; exact x1, by rw [← e]; exact x2⟩
        · exact x1 e
      rw [rounds, if_neg (fun h => hno ((any_error ps2).mp h))]
      rfl
    · rw [handleAll_raises hu ps1 w1 k2 herr]
      rfl
  · rw [if_neg (fun h => herr ((any_error ps1).mp h))]
    rfl

end Parcels.RandomRun
