import Verif.Proofs.WholeRun2

namespace Parcels.WholeRun

open KernelLoop (Particle Kern Exc LS)
open Recovery (TP RMap)
open Schedule (Args Ext After AfterExt NotBefore)

variable {V : Type}

/-! ### The start of a run -/

theorem foldl_min {α : Type} (g : α → ℚ) (M : ℚ) : ∀ (l : List α) (x : ℚ), M ≤ x → (∀ y ∈ l, M ≤ g y) → (x = M ∨ ∃ y ∈ l, g y = M) →
    l.foldl (fun m r => min m (g r)) x = M := by
  intro l
  induction l with
  | nil =>
    rintro x - - (h | ⟨y, hy, -⟩)
    · exact h
    · cases hy
  | cons y l ih =>
    intro x hx hl h
    rw [List.foldl_cons]
    refine ih _ (le_min hx (hl y List.mem_cons_self)) (fun z hz => hl z (List.mem_cons_of_mem _ hz)) ?_
    rcases h with h | ⟨z, hz, h⟩
    · left; rw [h]; exact min_eq_left (hl y List.mem_cons_self)
    · rcases List.mem_cons.mp hz with rfl | hz
      · left; rw [h]; exact min_eq_right hx
      · exact Or.inr ⟨z, hz, h⟩

theorem foldl_max {α : Type} (g : α → ℚ) (M : ℚ) : ∀ (l : List α) (x : ℚ), x ≤ M → (∀ y ∈ l, g y ≤ M) → (x = M ∨ ∃ y ∈ l, g y = M) →
    l.foldl (fun m r => max m (g r)) x = M := by
  intro l
  induction l with
  | nil =>
    rintro x - - (h | ⟨y, hy, -⟩)
    · exact h
    · cases hy
  | cons y l ih =>
    intro x hx hl h
    rw [List.foldl_cons]
    refine ih _ (max_le hx (hl y List.mem_cons_self)) (fun z hz => hl z (List.mem_cons_of_mem _ hz)) ?_
    rcases h with h | ⟨z, hz, h⟩
    · left; rw [h]; exact max_eq_left (hl y List.mem_cons_self)
    · rcases List.mem_cons.mp hz with rfl | hz
      · left; rw [h]; exact max_eq_right hx
      · exact Or.inr ⟨z, hz, h⟩

/-- The first particle gives the start of a run. -/
theorem startTime_eq {dt M : ℚ} (hdt : dt ≠ 0) (ps : List (TP V)) (hall : ∀ q ∈ ps, 0 ≤ (q.2.time - M) * sgn dt) (hex : ∃ q ∈ ps, q.2.time = M) :
    startTime dt ps = some M := by
  cases ps with
  | nil => obtain ⟨q, hq, -⟩ := hex; cases hq
  | cons q qs =>
    have hex' : q.2.time = M ∨ ∃ y ∈ qs, y.2.time = M := by
      obtain ⟨r, hr, h⟩ := hex
      rcases List.mem_cons.mp hr with rfl | hr
      · exact Or.inl h
      · exact Or.inr ⟨r, hr, h⟩
    rw [startTime]
    rcases Schedule.pos_or_neg hdt with ⟨hp, e⟩ | ⟨hp, e⟩
    · rw [if_pos hp.le]
      rw [e] at hall
      congr 1
      exact foldl_min (fun r : TP V => r.2.time) M qs _ (by linarith [hall q List.mem_cons_self])
        (fun y hy => by linarith [hall y (List.mem_cons_of_mem _ hy)]) hex'
    · rw [if_neg (by linarith)]
      rw [e] at hall
      congr 1
      exact foldl_max (fun r : TP V => r.2.time) M qs _ (by linarith [hall q List.mem_cons_self])
        (fun y hy => by linarith [hall y (List.mem_cons_of_mem _ hy)]) hex'

theorem Regular.startTime {o : Opts} {S : ℚ} {N : ℕ} {ps : List (TP V)} (h : Regular o S N ps) : startTime o.dt ps = some S := by
  have hne := ne_zero_of h.step
  refine startTime_eq hne ps (fun q hq => ?_) h.start
  obtain ⟨j, hj⟩ := h.starts q hq
  have := (grid_le (S := S) hne (j := j) (m := 0)).mpr (Nat.zero_le _)
  rw [hj]
  simpa using this

/-! ### The arguments of the loop -/

/-- A whole number of steps. -/
def Whole (dt i : ℚ) : Prop := ∃ k : ℕ, 0 < k ∧ i = k * |dt|

structure Plain (o : Opts) (S : ℚ) (N : ℕ) (a : Args) : Prop where
  start : a.S = S
  E : a.E = S + N * o.dt
  dt : a.dt = o.dt
  file : a.hasFile = o.hasFile
  fieldset : a.hasFieldset = true
  outputdt : a.outputdt = o.outputdt
  moviedt : a.moviedt = o.moviedt
  callbackdt : a.callbackdt = o.callbackdt
  repeatdt : ∀ r, a.repeatdt = some r → Whole o.dt r
  rs : OnGrid S o.dt a.rs
  input : a.input = o.input

theorem end_eq {o : Opts} {S : ℚ} {N : ℕ} {ps : List (TP V)} (h : Regular o S N ps) :
    (match o.until_ with | .runtime r => S + r * sgn o.dt | .endtime e => e) = S + N * o.dt := by
  have he := h.end_
  cases hu : o.until_ with
  | runtime r =>
    rw [hu] at he
    dsimp only at he ⊢
    rw [he, mul_assoc, mul_comm |o.dt|, sgn_abs]
  | endtime e =>
    rw [hu] at he
    exact he

theorem args_plain {o : Opts} {S : ℚ} {N : ℕ} {ps : List (TP V)} (h : Regular o S N ps) : Plain o S N (args o S) := by
  have hne := ne_zero_of h.step
  have hz : o.until_.zero = false := by
    have he := h.end_
    cases hu : o.until_ with
    | runtime r =>
      rw [hu] at he
      dsimp only at he
      have := h.length
      simp only [Until.zero, decide_eq_false_iff_not]
      intro hr
      rw [← he, hr] at this
      norm_num at this
    | endtime e => rfl
  have hE := end_eq h
  have hc : ¬ (|(match o.until_ with | .runtime r => S + r * sgn o.dt | .endtime e => e) - S| < 1 / 100000 ∨ o.dt = 0 ∨ o.until_.zero = true) := by
    rintro (c | c | c)
    · rw [hE, add_sub_cancel_left, abs_mul, abs_of_nonneg (Nat.cast_nonneg N)] at c
      linarith [h.length]
    · exact hne c
    · rw [hz] at c; cases c
  have e : args o S = { S := S, E := match o.until_ with | .runtime r => S + r * sgn o.dt | .endtime e => e
                        dt := o.dt, hasFile := o.hasFile, outputdt := o.outputdt, moviedt := o.moviedt, callbackdt := o.callbackdt, repeatdt := none
                        rs := S, hasFieldset := true, input := o.input } := by
    unfold args Schedule.normalise
    exact if_neg hc
  rw [e]
  exact ⟨rfl, hE, rfl, rfl, rfl, rfl, rfl, rfl, (fun r hr => by cases hr), ⟨0, by push_cast; ring⟩, rfl⟩

theorem plain_ordinary {o : Opts} {S : ℚ} {N : ℕ} {ps : List (TP V)} (h : Regular o S N ps) {a : Args} (ha : Plain o S N a) : Schedule.Ordinary a := by
  have hne := ne_zero_of h.step
  have hp := abs_pos.mpr hne
  have pos : ∀ i : ℚ, (∃ k : ℕ, 0 < k ∧ i = k * |o.dt|) → 0 < i := by
    rintro i ⟨k, hk, rfl⟩
    have : (0 : ℚ) < k := by exact_mod_cast hk
    positivity
  refine ⟨by rw [ha.dt]; exact hne, ?_, ha.fieldset, ?_, ?_, ?_, ?_, ?_⟩
  · unfold NotBefore
    rw [ha.E, ha.start, ha.dt, add_sub_cancel_left, mul_assoc, mul_sgn_self]
    positivity
  · rw [ha.dt, ha.input]; exact h.ahead
  · rw [ha.outputdt]; exact fun i hi => pos i (h.output i hi)
  · rw [ha.moviedt]; exact fun i hi => pos i (h.movie i hi)
  · rw [ha.callbackdt]; exact fun i hi => pos i (h.callback i hi)
  · exact fun i hi => pos i (ha.repeatdt i hi)

theorem minOpt_whole {dt : ℚ} (x y : Option ℚ) (hx : ∀ r, x = some r → Whole dt r) (hy : ∀ r, y = some r → Whole dt r) :
    ∀ r, Schedule.minOpt x y = some r → Whole dt r := by
  intro r hr
  cases x <;> cases y <;> simp only [Schedule.minOpt] at hr
  · cases hr
  · exact hy r hr
  · exact hx r hr
  · rename_i a b
    obtain rfl := Option.some.inj hr
    rcases min_choice a b with e | e <;> rw [e]
    · exact hx a rfl
    · exact hy b rfl

theorem interval_whole {o : Opts} {S : ℚ} {N : ℕ} {ps : List (TP V)} (h : Regular o S N ps) {a : Args} (ha : Plain o S N a) (x : Schedule.Stream) (r : ℚ)
    (hr : Schedule.interval a x = some r) : Whole o.dt r := by
  have hout : ∀ r, (if a.hasFile then a.outputdt else none) = some r → Whole o.dt r := by
    intro r hr
    split at hr
    · rw [ha.outputdt] at hr; exact h.output r hr
    · cases hr
  cases x with
  | release =>
    simp only [Schedule.interval] at hr
    split at hr
    · cases hr
    · exact ha.repeatdt r hr
  | output => exact hout r hr
  | movie =>
    simp only [Schedule.interval, ha.moviedt] at hr
    exact h.movie r hr
  | callback =>
    simp only [Schedule.interval] at hr
    split at hr
    · rename_i c hc
      rw [ha.callbackdt] at hc
      exact h.callback r (by rw [hc, ← hr])
    · refine minOpt_whole _ _ (minOpt_whole _ _ ?_ hout) ?_ r hr
      · rw [ha.moviedt]; exact h.movie
      · exact ha.repeatdt

/-! ### The grid -/

def GridExt (S dt : ℚ) : Ext → Prop
  | .fin q => OnGrid S dt q
  | _ => True

structure GridInv (S dt : ℚ) (s : Schedule.St) : Prop where
  next : ∀ x, GridExt S dt (s.next x)
  nextIn : GridExt S dt s.nextIn

theorem whole_sgn {S dt q r : ℚ} (hq : OnGrid S dt q) (hr : Whole dt r) : OnGrid S dt (q + r * sgn dt) := by
  obtain ⟨z, rfl⟩ := hq
  obtain ⟨k, -, rfl⟩ := hr
  refine ⟨z + k, ?_⟩
  rw [mul_assoc, mul_comm |dt|, sgn_abs]
  push_cast
  ring

theorem first_grid {S dt : ℚ} (i : Option ℚ) (hi : ∀ r, i = some r → Whole dt r) (hdt : dt ≠ 0) : GridExt S dt (Schedule.firstEvent dt S i) := by
  cases i with
  | none => unfold Schedule.firstEvent; dsimp only; split <;> trivial
  | some r =>
    have h := whole_sgn (S := S) (dt := dt) (q := S) ⟨0, by push_cast; ring⟩ (hi r rfl)
    have e : (if 0 < dt then S + r else S - r) = S + r * sgn dt := by
      rcases Schedule.pos_or_neg hdt with ⟨hp, e⟩ | ⟨hp, e⟩
      · rw [if_pos hp, e, mul_one]
      · rw [if_neg (by linarith), e]; ring
    simp only [Schedule.firstEvent, GridExt, e]
    exact h

theorem grid_init {o : Opts} {S : ℚ} {N : ℕ} {ps : List (TP V)} (h : Regular o S N ps) {a : Args} (ha : Plain o S N a) :
    GridInv S o.dt (Schedule.init a) := by
  have hne := ne_zero_of h.step
  constructor
  · intro x
    have hw := interval_whole h ha x
    cases x with
    | release =>
      simp only [Schedule.init, Schedule.initNext]
      cases hi : Schedule.interval a .release with
      | none => dsimp only; split <;> trivial
      | some r =>
        obtain ⟨k, -, rfl⟩ := hw r hi
        obtain ⟨z, hz⟩ := ha.rs
        refine ⟨z + (⌊|a.S - a.rs| / (k * |o.dt|)⌋ + 1) * k, ?_⟩
        rw [ha.dt, hz, mul_assoc _ (_ * _), mul_assoc (k : ℚ), mul_comm |o.dt|, sgn_abs]
        push_cast
        ring
    | output => simp only [Schedule.init, Schedule.initNext]; rw [ha.dt, ha.start]; exact first_grid _ hw hne
    | movie => simp only [Schedule.init, Schedule.initNext]; rw [ha.dt, ha.start]; exact first_grid _ hw hne
    | callback => simp only [Schedule.init, Schedule.initNext]; rw [ha.dt, ha.start]; exact first_grid _ hw hne
  · simp only [Schedule.init, ha.fieldset, if_true]
    rw [ha.input]
    cases hq : o.input 0 a.S with
    | fin q => exact h.input _ _ _ hq
    | pinf => trivial
    | ninf => trivial

theorem grid_fire {o : Opts} {S : ℚ} {N : ℕ} {ps : List (TP V)} (h : Regular o S N ps) {a : Args} (ha : Plain o S N a) {s : Schedule.St}
    (hg : GridInv S o.dt s) (t : ℚ) : GridInv S o.dt (Schedule.fire a s t) := by
  constructor
  · intro x
    simp only [Schedule.fire]
    have hx := hg.next x
    split
    · cases hq : s.next x with
      | fin q =>
        rw [hq] at hx
        simp only [Schedule.bump]
        cases hr : Schedule.interval a x with
        | none => dsimp only; split <;> trivial
        | some r =>
          dsimp only
          rw [ha.dt]
          exact whole_sgn hx (interval_whole h ha x r hr)
      | pinf => trivial
      | ninf => trivial
    · exact hx
  · simp only [Schedule.fire]
    split
    · rw [ha.input]
      cases hq : o.input s.calls t with
      | fin q => exact h.input _ _ _ hq
      | pinf => trivial
      | ninf => trivial
    · exact hg.nextIn

/-- The next stop is some whole number of steps ahead. -/
theorem stop_grid {o : Opts} {S : ℚ} {N : ℕ} {ps : List (TP V)} (h : Regular o S N ps) {a : Args} (ha : Plain o S N a) {s : Schedule.St}
    (hI : Schedule.Inv a s) (hg : GridInv S o.dt s) (m : ℕ) (ht : s.time = S + m * o.dt) (hc : Schedule.continues a s) :
    ∃ n : ℕ, Schedule.nextStop a s = .fin (S + n * o.dt) ∧ m < n ∧ n ≤ N ∧ Schedule.Inv a (Schedule.fire a s (S + n * o.dt)) ∧
      ∀ x, Schedule.NB a.dt (S + n * o.dt) (s.next x) := by
  have hne := ne_zero_of h.step
  have hord := plain_ordinary h ha
  obtain ⟨t, e1, e2, e3, e4, e5⟩ := Schedule.stop_spec hord hI hc
  have hon : OnGrid S o.dt t := by
    rcases e5 with ⟨x, hx⟩ | hx | hx
    · have := hg.next x; rw [hx] at this; exact this
    · have := hg.nextIn; rw [hx] at this; exact this
    · exact ⟨N, by rw [hx, ha.E]; push_cast; ring⟩
  obtain ⟨z, hz⟩ := hon
  have hp := abs_pos.mpr hne
  have h2 : (m : ℚ) < z := by
    unfold After at e2
    rw [hz, ht, ha.dt, show (S + (z : ℚ) * o.dt - (S + m * o.dt)) * sgn o.dt = ((z : ℚ) - m) * (o.dt * sgn o.dt) by ring, mul_sgn_self] at e2
    have := (mul_pos_iff_of_pos_right hp).mp e2
    linarith
  have hz0 : (m : ℤ) < z := by exact_mod_cast h2
  obtain ⟨n, rfl⟩ := Int.eq_ofNat_of_zero_le (show 0 ≤ z by omega)
  have htn : t = S + n * o.dt := by rw [hz]; push_cast; ring
  have hnN : n ≤ N := by
    have : 0 ≤ ((S + N * o.dt) - (S + n * o.dt)) * sgn o.dt := by
      have := e3
      unfold NotBefore at this
      rw [ha.E, htn, ha.dt] at this
      exact this
    exact (grid_le hne).mp this
  refine ⟨n, by rw [e1, htn], by exact_mod_cast hz0, hnN, ?_, ?_⟩
  · rw [← htn]; exact Schedule.inv_fire hord hI e3 e4
  · rw [← htn]; exact e4

theorem near_grid {S dt : ℚ} (hdt : 1 / 100000000 < |dt|) (n : ℕ) (e : Ext) (he : GridExt S dt e) :
    Schedule.near (S + n * dt) e = true ↔ e = .fin (S + n * dt) := by
  rw [Schedule.near_iff]
  constructor
  · rintro ⟨q, rfl, hq⟩
    obtain ⟨z, rfl⟩ := he
    have hz : z = n := by
      by_contra hc
      have h1 : (1 : ℤ) ≤ |(n : ℤ) - z| := Int.one_le_abs (by omega)
      have h2 : (1 : ℚ) ≤ |(n : ℚ) - z| := by
        have h5 : ((1 : ℤ) : ℚ) ≤ ((|(n : ℤ) - z| : ℤ) : ℚ) := by exact_mod_cast h1
        simpa using h5
      rw [show S + (n : ℚ) * dt - (S + z * dt) = ((n : ℚ) - z) * dt by ring, abs_mul] at hq
      have : Schedule.tol < 1 / 100000000 := by unfold Schedule.tol; norm_num
      nlinarith [abs_nonneg dt]
    rw [hz]
    push_cast
    rfl
  · rintro rfl
    exact ⟨_, rfl, by rw [sub_self, abs_zero]; exact Schedule.tol_pos⟩

/-! ### The loop -/

/-- What was written: `K` outputs after the first. -/
structure OutInv (f : Scheme V) (S dt : ℚ) (ps0 : List (TP V)) (R0 : List (Nat × ℚ × V)) (k m : ℕ) (s : St V) : Prop where
  wod : s.file.writeOndelete = false
  count : ∃ K : ℕ, s.sched.next .output = .fin (S + (((K + 1) * k : ℕ) : ℚ) * dt) ∧ s.file.lasttime = some (S + ((K * k : ℕ) : ℚ) * dt) ∧ K * k ≤ m ∧
    records s = R0 ++ (List.range K).flatMap fun j => ps0.filterMap (record f dt (S + (((j + 1) * k : ℕ) : ℚ) * dt))

structure J (f : Scheme V) (o : Opts) (S : ℚ) (N : ℕ) (a : Args) (ps0 : List (TP V)) (R0 : List (Nat × ℚ × V)) (wod : Bool) (m : ℕ) (s : St V) : Prop where
  inv : Schedule.Inv a s.sched
  grid : GridInv S o.dt s.sched
  time : s.sched.time = S + m * o.dt
  le : m ≤ N
  at_ : At f S o.dt ps0 m s.ps
  out : o.hasFile = true → wod = false → ∀ k : ℕ, 0 < k → o.outputdt = some (k * |o.dt|) → OutInv f S o.dt ps0 R0 k m s

theorem fire_next {o : Opts} {S : ℚ} {N : ℕ} {a : Args} (ha : Plain o S N a) (s : Schedule.St) (t : ℚ) (k : ℕ) (hf : o.hasFile = true)
    (ho : o.outputdt = some (k * |o.dt|)) (n : ℕ) (hn : s.next .output = .fin (S + n * o.dt)) :
    (Schedule.fire a s t).next .output = if Schedule.near t (s.next .output) then .fin (S + ((n + k : ℕ) : ℚ) * o.dt) else .fin (S + n * o.dt) := by
  simp only [Schedule.fire]
  split
  · have hi : Schedule.interval a .output = some (k * |o.dt|) := by simp [Schedule.interval, ha.file, hf, ha.outputdt, ho]
    rw [hi, hn]
    simp only [Schedule.bump]
    congr 1
    rw [ha.dt, mul_assoc (k : ℚ), mul_comm |o.dt|, sgn_abs]
    push_cast
    ring
  · exact hn

/-- One turn of the loop after the kernel was executed. -/
theorem turn {f : Scheme V} {o : Opts} {S : ℚ} {N : ℕ} {ps0 : List (TP V)} (h : Regular o S N ps0) {a : Args} (ha : Plain o S N a)
    {R0 : List (Nat × ℚ × V)} {wod : Bool} {m n : ℕ} {s : St V} (hJ : J f o S N a ps0 R0 wod m s) (hmn : m < n) (hnN : n ≤ N)
    (hI : Schedule.Inv a (Schedule.fire a s.sched (S + n * o.dt)))
    (hnb : ∀ x, Schedule.NB a.dt (S + n * o.dt) (s.sched.next x)) (ps' : List (TP V)) (hps : At f S o.dt ps0 n ps') :
    ∃ s2, (bif Schedule.near (S + n * o.dt) (s.sched.next .output) then write a.hasFile { s with ps := ps' } (S + n * o.dt) else some { s with ps := ps' }) = some s2 ∧
      J f o S N a ps0 R0 wod n { s2 with sched := Schedule.fire a s.sched (S + n * o.dt) } := by
  have hne := ne_zero_of h.step
  have hg := grid_fire h ha hJ.grid (S + n * o.dt)
  cases hnear : Schedule.near (S + n * o.dt) (s.sched.next .output) with
  | false =>
    refine ⟨_, rfl, hI, hg, rfl, hnN, hps, ?_⟩
    intro hf hw k hk ho
    obtain ⟨w1, K, w2, w3, w4, w5⟩ := hJ.out hf hw k hk ho
    refine ⟨w1, K, ?_, w3, by omega, w5⟩
    dsimp only
    rw [fire_next ha s.sched _ k hf ho _ w2, if_neg (by rw [hnear]; simp)]
  | true =>
    obtain ⟨s', e1, e2, e3, e4⟩ := write_at hne h.starts a.hasFile { s with ps := ps' } n hps
    refine ⟨s', by rw [cond_true]; exact e1, hI, hg, rfl, hnN, by dsimp only; rw [e2]; exact hps, ?_⟩
    intro hf hw k hk ho
    obtain ⟨w1, K, w2, w3, w4, w5⟩ := hJ.out hf hw k hk ho
    obtain ⟨x1, x2, x3⟩ := e4 (by rw [ha.file]; exact hf) w1
    have hK : (K + 1) * k = n := by
      have := (near_grid h.step n _ (hJ.grid.next .output)).mp hnear
      rw [w2] at this
      exact grid_inj hne (Ext.fin.inj this)
    refine ⟨x1, K + 1, ?_, ?_, by omega, ?_⟩
    · dsimp only
      rw [fire_next ha s.sched _ k hf ho _ w2, if_pos hnear]
      congr 3
      push_cast
      ring
    · dsimp only
      rw [x2, hK]
    · have hlt : K * k ≠ n := by
        intro e
        rw [← hK] at e
        have : (K + 1) * k = K * k + k := by ring
        omega
      have : records { s' with sched := Schedule.fire a s.sched (S + n * o.dt) } = records s' := rfl
      rw [this, x3, if_neg, List.range_succ, List.flatMap_append, ← List.append_assoc]
      · congr 1
        simp only [List.flatMap_cons, List.flatMap_nil, List.append_nil]
        rw [hK]
      · dsimp only
        rw [w3]
        intro e
        exact hlt (grid_inj hne (Option.some.inj e))

/-- The run goes on as long as no trajectory ends, or if the recovery functions delete. -/
theorem loop_good {f : Scheme V} {user : RMap Unit V} {o : Opts} {S : ℚ} {N : ℕ} {ps0 : List (TP V)} (h : Regular o S N ps0) {a : Args}
    (ha : Plain o S N a) {exec : Exec V}
    (hex : ∀ T ps e ps', (∀ q ∈ ps, q.2.dt = o.dt ∧ Fits o.dt T q) → exec T o.dt ps = some (e, ps') → Effect user f o.dt T ps e ps')
    {R0 : List (Nat × ℚ × V)} {wod : Bool} (hok : Deletes user ∨ ∀ q ∈ ps0, (trajectory f o.dt (S + N * o.dt) q).isSome) :
    ∀ (fuel : ℕ) (m : ℕ) (s : St V) (r : Run V), J f o S N a ps0 R0 wod m s → loop a exec fuel s = some r →
      ∃ s', r = .done s' ∧ J f o S N a ps0 R0 wod N s' := by
  have hne := ne_zero_of h.step
  intro fuel
  induction fuel with
  | zero => intro m s r _ h; cases h
  | succ fuel ih =>
    intro m s r hJ hr
    rw [loop] at hr
    by_cases hc : Schedule.continues a s.sched
    · rw [if_pos hc] at hr
      obtain ⟨n, e1, e2, e3, e4, e5⟩ := stop_grid h ha hJ.inv hJ.grid m hJ.time hc
      rw [e1] at hr
      dsimp only at hr
      rw [ha.dt] at hr
      cases hx : exec (S + n * o.dt) o.dt s.ps with
      | none => rw [hx] at hr; cases hr
      | some x =>
        obtain ⟨e, ps'⟩ := x
        have heff := hex _ _ _ _ (hJ.at_.fits hne h.starts n) hx
        have hg : e = .normal ∧ ps'.map core = s.ps.filterMap (trajectory f o.dt (S + n * o.dt)) ∧ ∀ q ∈ ps', q.2.dt = o.dt := by
          refine heff.good ?_
          rcases hok with hd | hall
          · exact Or.inl hd
          · right
            refine hJ.at_.some hne h.starts e2.le ?_
            intro q hq
            obtain ⟨j, hj⟩ := h.starts q hq
            exact traj_isSome f hne (core q) j n N hj e3 (hall q hq)
        obtain ⟨rfl, g2, g3⟩ := hg
        rw [hJ.at_.next hne h.starts e2.le] at g2
        rw [hx] at hr
        dsimp only at hr
        obtain ⟨s2, k1, k2⟩ := turn h ha hJ e2 e3 e4 e5 ps' ⟨g2, g3⟩
        rw [k1] at hr
        dsimp only at hr
        rw [if_neg (by rw [ha.fieldset]; simp), if_neg hne] at hr
        exact ih n _ r k2 hr
    · rw [if_neg hc] at hr
      obtain rfl := Option.some.inj hr
      have hmN : m = N := by
        rw [Schedule.continues_iff (by rw [ha.dt]; exact hne)] at hc
        unfold After at hc
        rw [hJ.time, ha.E, ha.dt, grid_lt hne] at hc
        have := hJ.le
        omega
      exact ⟨s, rfl, hmN ▸ hJ⟩

/-- With recovery functions that raise, a trajectory that ends makes the run raise. -/
theorem loop_bad {f : Scheme V} {user : RMap Unit V} {o : Opts} {S : ℚ} {N : ℕ} {ps0 : List (TP V)} (h : Regular o S N ps0) {a : Args}
    (ha : Plain o S N a) {exec : Exec V}
    (hex : ∀ T ps e ps', (∀ q ∈ ps, q.2.dt = o.dt ∧ Fits o.dt T q) → exec T o.dt ps = some (e, ps') → Effect user f o.dt T ps e ps')
    {R0 : List (Nat × ℚ × V)} {wod : Bool} (hu : Raises user) (hbad : ∃ q ∈ ps0, trajectory f o.dt (S + N * o.dt) q = none) :
    ∀ (fuel : ℕ) (m : ℕ) (s : St V) (r : Run V), J f o S N a ps0 R0 wod m s → (∀ q ∈ ps0, (trajectory f o.dt (S + m * o.dt) q).isSome) →
      loop a exec fuel s = some r → ∃ s', r = .raised s' := by
  have hne := ne_zero_of h.step
  intro fuel
  induction fuel with
  | zero => intro m s r _ _ h; cases h
  | succ fuel ih =>
    intro m s r hJ hm hr
    rw [loop] at hr
    by_cases hc : Schedule.continues a s.sched
    · rw [if_pos hc] at hr
      obtain ⟨n, e1, e2, e3, e4, e5⟩ := stop_grid h ha hJ.inv hJ.grid m hJ.time hc
      rw [e1] at hr
      dsimp only at hr
      rw [ha.dt] at hr
      cases hx : exec (S + n * o.dt) o.dt s.ps with
      | none => rw [hx] at hr; cases hr
      | some x =>
        obtain ⟨e, ps'⟩ := x
        have heff := hex _ _ _ _ (hJ.at_.fits hne h.starts n) hx
        rw [hx] at hr
        by_cases hall : ∀ q ∈ ps0, (trajectory f o.dt (S + n * o.dt) q).isSome
        · obtain ⟨rfl, g2, g3⟩ := heff.good (Or.inr (hJ.at_.some hne h.starts e2.le hall))
          rw [hJ.at_.next hne h.starts e2.le] at g2
          dsimp only at hr
          obtain ⟨s2, k1, k2⟩ := turn h ha hJ e2 e3 e4 e5 ps' ⟨g2, g3⟩
          rw [k1] at hr
          dsimp only at hr
          rw [if_neg (by rw [ha.fieldset]; simp), if_neg hne] at hr
          exact ih n _ r k2 hall hr
        · have : ∃ q ∈ ps0, trajectory f o.dt (S + n * o.dt) q = none := by
            push Not at hall
            obtain ⟨q, hq, hq'⟩ := hall
            exact ⟨q, hq, by simpa using hq'⟩
          have he := heff.bad hu (hJ.at_.none hne h.starts e2.le hm this)
          rw [he] at hr
          exact ⟨_, (Option.some.inj hr).symm⟩
    · exfalso
      have hmN : m = N := by
        rw [Schedule.continues_iff (by rw [ha.dt]; exact hne)] at hc
        unfold After at hc
        rw [hJ.time, ha.E, ha.dt, grid_lt hne] at hc
        have := hJ.le
        omega
      obtain ⟨q, hq, hq'⟩ := hbad
      have := hm q hq
      rw [hmN, hq'] at this
      cases this

/-! ### The whole run -/

theorem start_at (f : Scheme V) {o : Opts} {S : ℚ} {N : ℕ} {ps0 : List (TP V)} (h : Regular o S N ps0) :
    At f S o.dt ps0 0 (ps0.map fun q => (q.1, { q.2 with dt := o.dt })) := by
  have hne := ne_zero_of h.step
  constructor
  · rw [List.map_map]
    symm
    rw [← List.filterMap_eq_map']
    apply List.filterMap_congr
    intro q hq
    obtain ⟨j, hj⟩ := h.starts q hq
    exact trajectory_idle f hne q (by rw [hj]; exact (grid_le hne).mpr (Nat.zero_le j))
  · intro q hq
    obtain ⟨r, -, rfl⟩ := List.mem_map.mp hq
    rfl

theorem zero_steps (S dt : ℚ) : S + ((0 : ℕ) : ℚ) * dt = S := by push_cast; ring

/-- The first records. -/
def firstRecords (f : Scheme V) (dt S : ℚ) (file : Output.PFile) (ps : List (TP V)) : List (Nat × ℚ × V) :=
  if file.lasttime = some S then [] else ps.filterMap (record f dt S)

/-- The state before the loop. -/
theorem start_J (f : Scheme V) {o : Opts} {S : ℚ} {N : ℕ} {ps0 : List (TP V)} (h : Regular o S N ps0) {a : Args} (ha : Plain o S N a) (file : Output.PFile) :
    ∃ s1, write a.hasFile ⟨Schedule.init a, ps0.map fun q => (q.1, { q.2 with dt := a.dt }), file, []⟩ S = some s1 ∧
      J f o S N a ps0 (firstRecords f o.dt S file ps0) file.writeOndelete 0 s1 := by
  have hne := ne_zero_of h.step
  have hat := start_at f h
  rw [ha.dt]
  obtain ⟨s1, e1, e2, e3, e4⟩ := write_at hne h.starts a.hasFile
    (⟨Schedule.init a, ps0.map fun q => (q.1, { q.2 with dt := o.dt }), file, []⟩ : St V) 0 hat
  rw [zero_steps] at e1 e4
  refine ⟨s1, e1, ?_, ?_, ?_, Nat.zero_le _, ?_, ?_⟩
  · rw [e3]; exact Schedule.inv_init (plain_ordinary h ha)
  · rw [e3]; exact grid_init h ha
  · rw [e3, zero_steps]; exact ha.start
  · rw [e2]; exact hat
  · intro hf hw k hk ho
    obtain ⟨w1, w2, w3⟩ := e4 (by rw [ha.file]; exact hf) hw
    refine ⟨w1, 0, ?_, ?_, by simp, ?_⟩
    · rw [e3]
      have hi : Schedule.interval a .output = some (k * |o.dt|) := by simp [Schedule.interval, ha.file, hf, ha.outputdt, ho]
      simp only [Schedule.init, Schedule.initNext, hi, Schedule.firstEvent]
      congr 1
      rw [ha.dt, ha.start]
      rcases Schedule.pos_or_neg hne with ⟨hp, e⟩ | ⟨hp, e⟩
      · rw [if_pos hp, abs_of_pos hp]; push_cast; ring
      · rw [if_neg (by linarith), abs_of_neg hp]; push_cast; ring
    · rw [w2, Nat.zero_mul, zero_steps]
    · rw [w3]
      simp [firstRecords, records]

theorem floor_count {k K N : ℕ} (dt : ℚ) (hdt : dt ≠ 0) (hk : 0 < k) (h1 : K * k ≤ N) (h2 : N < (K + 1) * k) :
    ⌊(N : ℚ) * |dt| / (k * |dt|)⌋₊ = K := by
  have hp := abs_pos.mpr hdt
  have hk' : (0 : ℚ) < k := by exact_mod_cast hk
  rw [mul_div_mul_right _ _ hp.ne', Nat.floor_eq_iff (by positivity), le_div_iff₀ hk', div_lt_iff₀ hk']
  exact ⟨by exact_mod_cast h1, by exact_mod_cast h2⟩

theorem outputTimes_eq {S dt : ℚ} {k K N : ℕ} (hdt : dt ≠ 0) (hk : 0 < k) (h1 : K * k ≤ N) (h2 : N < (K + 1) * k) :
    outputTimes S dt (k * |dt|) N = S :: ((List.range K).map (fun j => S + (((j + 1) * k : ℕ) : ℚ) * dt) ++ if K * k = N then [] else [S + N * dt]) := by
  have hp := abs_pos.mpr hdt
  have hmul : ∀ j : ℕ, (j : ℚ) * (k * |dt|) * sgn dt = ((j * k : ℕ) : ℚ) * dt := by
    intro j
    rw [show (j : ℚ) * (k * |dt|) * sgn dt = (j * k) * (sgn dt * |dt|) by ring, sgn_abs]
    push_cast
    ring
  unfold outputTimes
  rw [floor_count dt hdt hk h1 h2, List.range_succ_eq_map, List.map_cons, List.cons_append, List.map_map]
  congr 1
  · push_cast; ring
  · congr 1
    · apply List.map_congr_left
      intro j _
      simp only [Function.comp, Nat.succ_eq_add_one]
      rw [hmul]
    · have : ((K : ℚ) * (k * |dt|) = N * |dt|) ↔ K * k = N := by
        rw [← mul_assoc, mul_left_inj' hp.ne']
        exact_mod_cast Iff.rfl
      by_cases c : K * k = N
      · rw [if_pos c, if_pos (this.mpr c)]
      · rw [if_neg c, if_neg (fun x => c (this.mp x))]

/-- The run returned, with the particles and the records as they should be. -/
theorem execute_good {f : Scheme V} {user : RMap Unit V} {o : Opts} {S : ℚ} {N : ℕ} {ps : List (TP V)} (h : Regular o S N ps) {exec : Exec V}
    (hex : ∀ T ps e ps', (∀ q ∈ ps, q.2.dt = o.dt ∧ Fits o.dt T q) → exec T o.dt ps = some (e, ps') → Effect user f o.dt T ps e ps')
    (hok : Deletes user ∨ ∀ q ∈ ps, (trajectory f o.dt (S + N * o.dt) q).isSome) (fuel : ℕ) (file : Output.PFile) (r : Run V)
    (hr : execute o exec fuel file ps = some r) :
    ∃ s, r = .done s ∧ s.ps.map core = ps.filterMap (trajectory f o.dt (S + N * o.dt)) ∧ (∀ q ∈ s.ps, q.2.dt = o.dt) ∧
      (o.hasFile = true → file.writeOndelete = false → ∀ i, o.outputdt = some i →
        s.file.lasttime = some (S + N * o.dt) ∧ s.file.writeOndelete = false ∧
        records s = firstRecords f o.dt S file ps ++ (outputTimes S o.dt i N).tail.flatMap fun t => ps.filterMap (record f o.dt t)) := by
  have hne := ne_zero_of h.step
  have ha := args_plain h
  unfold execute at hr
  rw [h.startTime] at hr
  dsimp only at hr
  obtain ⟨s1, e1, hJ1⟩ := start_J f h ha file
  rw [e1] at hr
  dsimp only at hr
  cases hl : loop (args o S) exec fuel s1 with
  | none => rw [hl] at hr; cases hr
  | some r1 =>
    obtain ⟨s2, rfl, hJ⟩ := loop_good h ha hex hok fuel 0 s1 r1 hJ1 hl
    rw [hl] at hr
    dsimp only at hr
    obtain ⟨s3, k1, k2, k3, k4⟩ := write_at hne h.starts (args o S).hasFile s2 N hJ.at_
    rw [hJ.time, k1] at hr
    obtain rfl := Option.some.inj hr
    refine ⟨s3, rfl, by rw [k2]; exact hJ.at_.core, by rw [k2]; exact hJ.at_.step, ?_⟩
    intro hf hw i hi
    obtain ⟨k, hk, rfl⟩ := h.output i hi
    obtain ⟨w1, K, w2, w3, w4, w5⟩ := hJ.out hf hw k hk hi
    obtain ⟨x1, x2, x3⟩ := k4 (by rw [ha.file]; exact hf) w1
    refine ⟨x2, x1, ?_⟩
    have hlt : N < (K + 1) * k := by
      have := hJ.inv.next .output
      rw [w2, hJ.time, ha.dt] at this
      exact (grid_lt hne).mp this
    rw [outputTimes_eq hne hk w4 hlt, List.tail_cons, x3, w5, List.append_assoc, List.flatMap_append]
    congr 2
    · rw [List.flatMap_map]
    · rw [w3]
      by_cases c : K * k = N
      · rw [if_pos c, if_pos (by rw [c])]; rfl
      · rw [if_neg c, if_neg (fun e => c (grid_inj hne (Option.some.inj e)))]
        simp

theorem execute_bad {f : Scheme V} {user : RMap Unit V} {o : Opts} {S : ℚ} {N : ℕ} {ps : List (TP V)} (h : Regular o S N ps) {exec : Exec V}
    (hex : ∀ T ps e ps', (∀ q ∈ ps, q.2.dt = o.dt ∧ Fits o.dt T q) → exec T o.dt ps = some (e, ps') → Effect user f o.dt T ps e ps')
    (hu : Raises user) (hbad : ∃ q ∈ ps, trajectory f o.dt (S + N * o.dt) q = none) (fuel : ℕ) (file : Output.PFile) (r : Run V)
    (hr : execute o exec fuel file ps = some r) : ∃ s, r = .raised s := by
  have hne := ne_zero_of h.step
  have ha := args_plain h
  unfold execute at hr
  rw [h.startTime] at hr
  dsimp only at hr
  obtain ⟨s1, e1, hJ1⟩ := start_J f h ha file
  rw [e1] at hr
  dsimp only at hr
  cases hl : loop (args o S) exec fuel s1 with
  | none => rw [hl] at hr; cases hr
  | some r1 =>
    obtain ⟨s2, rfl⟩ := loop_bad h ha hex hu hbad fuel 0 s1 r1 hJ1 (fun q hq => by
      obtain ⟨j, hj⟩ := h.starts q hq
      rw [trajectory_idle f hne q (by rw [hj]; exact (grid_le hne).mpr (Nat.zero_le j))]
      rfl) hl
    rw [hl] at hr
    exact ⟨s2, (Option.some.inj hr).symm⟩

/-! ### The run ends -/

theorem loop_total {f : Scheme V} {user : RMap Unit V} {o : Opts} {S : ℚ} {N : ℕ} {ps0 : List (TP V)} (h : Regular o S N ps0) {a : Args}
    (ha : Plain o S N a) {exec : Exec V}
    (hex : ∀ T ps e ps', (∀ q ∈ ps, q.2.dt = o.dt ∧ Fits o.dt T q) → exec T o.dt ps = some (e, ps') → Effect user f o.dt T ps e ps')
    (htot : ∀ n ps, n ≤ N → (∀ q ∈ ps, q.2.dt = o.dt ∧ ∃ j : ℕ, q.2.time = S + j * o.dt) → (exec (S + n * o.dt) o.dt ps).isSome)
    {R0 : List (Nat × ℚ × V)} {wod : Bool} (hok : Deletes user ∨ Raises user) :
    ∀ (fuel : ℕ) (m : ℕ) (s : St V), J f o S N a ps0 R0 wod m s → N < m + fuel → (loop a exec fuel s).isSome := by
  have hne := ne_zero_of h.step
  intro fuel
  induction fuel with
  | zero => intro m s hJ hlt; have := hJ.le; omega
  | succ fuel ih =>
    intro m s hJ hlt
    rw [loop]
    by_cases hc : Schedule.continues a s.sched
    · rw [if_pos hc]
      obtain ⟨n, e1, e2, e3, e4, e5⟩ := stop_grid h ha hJ.inv hJ.grid m hJ.time hc
      rw [e1]
      dsimp only
      rw [ha.dt]
      obtain ⟨⟨e, ps'⟩, hx⟩ := Option.isSome_iff_exists.mp (htot n s.ps e3 (fun q hq => ⟨hJ.at_.step q hq, by
        obtain ⟨j, -, hj⟩ := hJ.at_.mem hne h.starts q hq
        exact ⟨j, hj⟩⟩))
      rw [hx]
      have heff := hex _ _ _ _ (hJ.at_.fits hne h.starts n) hx
      have hcase : e = .raised ∨ (e = .normal ∧ ps'.map core = s.ps.filterMap (trajectory f o.dt (S + n * o.dt)) ∧ ∀ q ∈ ps', q.2.dt = o.dt) := by
        by_cases hall : ∀ q ∈ s.ps, (trajectory f o.dt (S + n * o.dt) q).isSome
        · exact Or.inr (heff.good (Or.inr hall))
        · rcases hok with hd | hd
          · exact Or.inr (heff.good (Or.inl hd))
          · left
            apply heff.bad hd
            push Not at hall
            obtain ⟨q, hq, hq'⟩ := hall
            exact ⟨q, hq, by simpa using hq'⟩
      rcases hcase with rfl | ⟨rfl, g2, g3⟩
      · rfl
      · dsimp only
        rw [hJ.at_.next hne h.starts e2.le] at g2
        obtain ⟨s2, k1, k2⟩ := turn h ha hJ e2 e3 e4 e5 ps' ⟨g2, g3⟩
        rw [k1]
        dsimp only
        rw [if_neg (by rw [ha.fieldset]; simp), if_neg hne]
        exact ih n _ k2 (by omega)
    · rw [if_neg hc]
      rfl

theorem execute_total {f : Scheme V} {user : RMap Unit V} {o : Opts} {S : ℚ} {N : ℕ} {ps : List (TP V)} (h : Regular o S N ps) {exec : Exec V}
    (hex : ∀ T ps e ps', (∀ q ∈ ps, q.2.dt = o.dt ∧ Fits o.dt T q) → exec T o.dt ps = some (e, ps') → Effect user f o.dt T ps e ps')
    (htot : ∀ n ps, n ≤ N → (∀ q ∈ ps, q.2.dt = o.dt ∧ ∃ j : ℕ, q.2.time = S + j * o.dt) → (exec (S + n * o.dt) o.dt ps).isSome)
    (hok : Deletes user ∨ Raises user) (file : Output.PFile) : (execute o exec (N + 1) file ps).isSome := by
  have ha := args_plain h
  unfold execute
  rw [h.startTime]
  dsimp only
  obtain ⟨s1, e1, hJ1⟩ := start_J f h ha file
  rw [e1]
  dsimp only
  obtain ⟨r, hr⟩ := Option.isSome_iff_exists.mp (loop_total h ha hex htot hok (N + 1) 0 s1 hJ1 (by omega))
  rw [hr]
  cases r with
  | done s =>
    dsimp only
    cases write (args o S).hasFile s s.sched.time <;> rfl
  | raised s => rfl
  | crash s => rfl

end Parcels.WholeRun
