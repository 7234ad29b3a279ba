import Verif.Proofs.RandomRun

namespace Parcels.RandomRun

open KernelLoop (Particle Kern Exc LS)
open Recovery (TP RMap)
open Schedule (Args Ext)
open WholeRun (St Run Opts Regular Plain args write startTime records core Fits GridInv grid_le grid_lt grid_inj ne_zero_of outputTimes)

variable {W V : Type}

/-! ### Journeys -/

theorem journey_append (f : Scheme W V) (dt : ℚ) : ∀ (ts us : List ℚ) (w : W) (cs : List (Nat × ℚ × V)),
    journey f dt (ts ++ us) w cs = journey f dt us (journey f dt ts w cs).1 (journey f dt ts w cs).2
  | [], _, _, _ => rfl
  | t :: ts, us, w, cs => by
    rw [List.cons_append, journey, journey]
    exact journey_append f dt ts us _ _

theorem log_append (f : Scheme W V) (dt : ℚ) (due : ℚ → Prop) [DecidablePred due] : ∀ (ts us : List ℚ) (w : W) (cs : List (Nat × ℚ × V)),
    log f dt due (ts ++ us) w cs = log f dt due ts w cs ++ log f dt due us (journey f dt ts w cs).1 (journey f dt ts w cs).2
  | [], _, _, _ => rfl
  | t :: ts, us, w, cs => by
    rw [List.cons_append, log, log, journey, List.append_assoc]
    rw [log_append f dt due ts us]

theorem log_congr (f : Scheme W V) (dt : ℚ) (due due' : ℚ → Prop) [DecidablePred due] [DecidablePred due'] : ∀ (ts : List ℚ) (w : W) (cs : List (Nat × ℚ × V)),
    (∀ t ∈ ts, due t ↔ due' t) → log f dt due ts w cs = log f dt due' ts w cs
  | [], _, _, _ => rfl
  | t :: ts, w, cs, h => by
    rw [log, log]
    rw [log_congr f dt due due' ts _ _ fun u hu => h u (List.mem_cons_of_mem _ hu)]
    congr 1
    by_cases c : due t
    · rw [if_pos c, if_pos ((h t List.mem_cons_self).mp c)]
    · rw [if_neg c, if_neg (fun x => c ((h t List.mem_cons_self).mpr x))]

theorem sweep_length (f : Scheme W V) (dt t : ℚ) : ∀ (w : W) (cs : List (Nat × ℚ × V)), (sweep f dt t w cs).2.length ≤ cs.length
  | _, [] => le_refl _
  | w, c :: cs => by
    rw [sweep]
    dsimp only
    rw [List.length_append, List.length_cons]
    have h1 := sweep_length f dt t (visit f dt t w c).1 cs
    have h2 : (visit f dt t w c).2.toList.length ≤ 1 := by cases (visit f dt t w c).2 <;> simp
    omega

theorem journey_length (f : Scheme W V) (dt : ℚ) : ∀ (ts : List ℚ) (w : W) (cs : List (Nat × ℚ × V)), (journey f dt ts w cs).2.length ≤ cs.length
  | [], _, _ => le_refl _
  | t :: ts, w, cs => by
    rw [journey]
    exact (journey_length f dt ts _ _).trans (sweep_length f dt t w cs)

theorem sweep_mem (f : Scheme W V) (dt t : ℚ) : ∀ (w : W) (cs : List (Nat × ℚ × V)) (x : Nat × ℚ × V), x ∈ (sweep f dt t w cs).2 →
    x.2.1 = t ∨ (x ∈ cs ∧ 0 < (x.2.1 - t) * sgn dt)
  | _, [], x, h => by cases h
  | w, c :: cs, x, h => by
    rw [sweep] at h
    dsimp only at h
    rcases List.mem_append.mp h with h | h
    · unfold visit at h
      split at h
      · rename_i hc
        simp only [Option.toList_some, List.mem_singleton] at h
        subst h
        exact Or.inr ⟨List.mem_cons_self, hc⟩
      · left
        rw [Option.mem_toList, Option.map_eq_some_iff] at h
        obtain ⟨v, -, rfl⟩ := h
        rfl
    · rcases sweep_mem f dt t _ cs x h with h | ⟨h1, h2⟩
      · exact Or.inl h
      · exact Or.inr ⟨List.mem_cons_of_mem _ h1, h2⟩

/-! ### Writing -/

/-- All particles are at or after step `m`. -/
def Ahead (S dt : ℚ) (m : ℕ) (ps : List (TP V)) : Prop := ∀ q ∈ ps, q.2.dt = dt ∧ ∃ j : ℕ, m ≤ j ∧ q.2.time = S + j * dt

theorem Ahead.fits {S dt : ℚ} (hdt : dt ≠ 0) {m : ℕ} {ps : List (TP V)} (h : Ahead S dt m ps) (n : ℕ) : ∀ q ∈ ps, q.2.dt = dt ∧ Fits dt (S + n * dt) q := by
  intro q hq
  obtain ⟨h1, j, -, hj⟩ := h q hq
  refine ⟨h1, ?_⟩
  rcases Nat.lt_or_ge j n with c | c
  · exact Or.inr ⟨n - j - 1, by rw [hj, Nat.cast_sub (by omega : 1 ≤ n - j), Nat.cast_sub c.le]; push_cast; ring⟩
  · exact Or.inl (by rw [hj]; exact (grid_le hdt).mpr c)

theorem Ahead.sweep {f : Scheme W V} {S dt : ℚ} (hdt : dt ≠ 0) {m n : ℕ} {ps ps' : List (TP V)} {w w' : W} (h : Ahead S dt m ps) (hd : ∀ q ∈ ps', q.2.dt = dt)
    (hs : (w', ps'.map core) = sweep f dt (S + n * dt) w (ps.map core)) : Ahead S dt n ps' := by
  intro q hq
  refine ⟨hd q hq, ?_⟩
  have : core q ∈ (RandomRun.sweep f dt (S + n * dt) w (ps.map core)).2 := by
    rw [← hs]
    exact List.mem_map_of_mem hq
  rcases sweep_mem f dt _ w _ _ this with h1 | ⟨h1, h2⟩
  · exact ⟨n, le_refl _, h1⟩
  · obtain ⟨q0, hq0, e⟩ := List.mem_map.mp h1
    obtain ⟨-, j, -, hj⟩ := h q0 hq0
    have ht : q.2.time = S + j * dt := by rw [← hj]; exact (congrArg (fun x => x.2.1) e).symm
    change 0 < (q.2.time - (S + n * dt)) * sgn dt at h2
    rw [ht] at h2
    exact ⟨j, ((grid_lt hdt).mp h2).le, ht⟩

theorem ahead_at (g : WholeRun.Scheme V) {S dt : ℚ} (hdt : dt ≠ 0) {m : ℕ} {ps : List (TP V)} (h : Ahead S dt m ps) : WholeRun.At g S dt ps m ps := by
  refine ⟨?_, fun q hq => (h q hq).1⟩
  rw [← List.filterMap_eq_map']
  apply List.filterMap_congr
  intro q hq
  obtain ⟨-, j, hj, ht⟩ := h q hq
  exact (WholeRun.trajectory_idle g hdt q (by rw [ht]; exact (grid_le hdt).mpr hj)).symm

theorem write_ahead {S dt : ℚ} (hdt : dt ≠ 0) (hasFile : Bool) (s : St V) (m : ℕ) (h : Ahead S dt m s.ps) :
    ∃ s', write hasFile s (S + m * dt) = some s' ∧ s'.ps = s.ps ∧ s'.sched = s.sched ∧
      (hasFile = true → s.file.writeOndelete = false → s'.file.writeOndelete = false ∧ s'.file.lasttime = some (S + m * dt) ∧
        records s' = records s ++ if s.file.lasttime = some (S + m * dt) then [] else (s.ps.map core).filter fun c => decide (c.2.1 = S + m * dt)) := by
  have hat := ahead_at (fun _ _ v => .ok v) hdt h
  have hst : WholeRun.Starts S dt s.ps := fun q hq => by obtain ⟨-, j, -, hj⟩ := h q hq; exact ⟨j, hj⟩
  obtain ⟨s', e1, e2, e3, e4⟩ := WholeRun.write_at hdt hst hasFile s m hat
  rw [← WholeRun.record_filter _ hdt hst m, ← hat.core] at e4
  exact ⟨s', e1, e2, e3, e4⟩

/-! ### The interruptions -/

theorem normalise_repeat (a : Args) (z : Bool) : (Schedule.normalise a z).repeatdt = a.repeatdt := by
  unfold Schedule.normalise
  split <;> rfl

theorem args_repeat (o : Opts) (S : ℚ) : (args o S).repeatdt = none := normalise_repeat _ _

theorem interval_mem {o : Opts} {S : ℚ} {N : ℕ} {a : Args} (ha : Plain o S N a) (hr : a.repeatdt = none) (x : Schedule.Stream) (i : ℚ)
    (hi : Schedule.interval a x = some i) : i ∈ intervals o := by
  unfold intervals
  have hout : ∀ i, (if a.hasFile then a.outputdt else none) = some i → i ∈ (if o.hasFile then o.outputdt.toList else []) := by
    intro i hi
    rw [ha.file, ha.outputdt] at hi
    cases hf : o.hasFile with
    | true => rw [hf, if_pos rfl] at hi; rw [if_pos rfl, hi]; simp
    | false => rw [hf] at hi; simp at hi
  have hmov : ∀ i, a.moviedt = some i → i ∈ o.moviedt.toList := by
    intro i hi
    rw [ha.moviedt] at hi
    rw [hi]; simp
  rw [List.mem_append, List.mem_append]
  cases x with
  | release => simp [Schedule.interval, hr] at hi
  | output => exact Or.inl (Or.inl (hout i hi))
  | movie => exact Or.inl (Or.inr (hmov i hi))
  | callback =>
    simp only [Schedule.interval] at hi
    split at hi
    · rename_i c hc
      rw [ha.callbackdt] at hc
      right
      rw [hc]
      simpa using hi.symm
    · left
      rw [hr] at hi
      cases h1 : a.moviedt with
      | none =>
        rw [h1] at hi
        cases h2 : (if a.hasFile then a.outputdt else none) with
        | none => rw [h2] at hi; cases hi
        | some y =>
          rw [h2] at hi
          obtain rfl := Option.some.inj hi
          exact Or.inl (hout _ h2)
      | some z =>
        rw [h1] at hi
        cases h2 : (if a.hasFile then a.outputdt else none) with
        | none =>
          rw [h2] at hi
          obtain rfl := Option.some.inj hi
          exact Or.inr (hmov _ h1)
        | some y =>
          rw [h2] at hi
          obtain rfl := Option.some.inj hi
          rcases min_choice z y with e | e <;> rw [e]
          · exact Or.inr (hmov _ h1)
          · exact Or.inl (hout _ h2)

theorem mem_interval {o : Opts} {S : ℚ} {N : ℕ} {a : Args} (ha : Plain o S N a) (i : ℚ) (hi : i ∈ intervals o) : ∃ x, x ≠ .release ∧ Schedule.interval a x = some i := by
  unfold intervals at hi
  rw [List.mem_append, List.mem_append] at hi
  rcases hi with (hi | hi) | hi
  · refine ⟨.output, by decide, ?_⟩
    simp only [Schedule.interval, ha.file, ha.outputdt]
    split at hi
    · rename_i c
      rw [if_pos c]
      simpa using hi
    · cases hi
  · refine ⟨.movie, by decide, ?_⟩
    simp only [Schedule.interval, ha.moviedt]
    simpa using hi
  · refine ⟨.callback, by decide, ?_⟩
    have : o.callbackdt = some i := by simpa using hi
    simp only [Schedule.interval, ha.callbackdt, this]

theorem multiple_iff {dt : ℚ} (hdt : dt ≠ 0) {k : ℕ} (hk : 0 < k) (n : ℕ) : (⌊(n : ℚ) * |dt| / (k * |dt|)⌋₊ : ℚ) * (k * |dt|) = n * |dt| ↔ k ∣ n := by
  have hp := abs_pos.mpr hdt
  have h1 : n / k * k ≤ n := Nat.div_mul_le_self n k
  have h2 : n < (n / k + 1) * k := (Nat.div_lt_iff_lt_mul hk).mp (Nat.lt_succ_self _)
  rw [WholeRun.floor_count dt hdt hk h1 h2, ← mul_assoc, mul_left_inj' hp.ne']
  constructor
  · intro h
    have : n / k * k = n := by exact_mod_cast h
    exact ⟨n / k, by rw [Nat.mul_comm]; exact this.symm⟩
  · rintro ⟨c, rfl⟩
    rw [Nat.mul_div_cancel_left c hk]
    push_cast
    ring

theorem interval_steps {o : Opts} {S : ℚ} {N : ℕ} {ps : List (TP V)} (h : Regular o S N ps) (i : ℚ) (hi : i ∈ intervals o) : ∃ k : ℕ, 0 < k ∧ i = k * |o.dt| := by
  unfold intervals at hi
  rw [List.mem_append, List.mem_append] at hi
  rcases hi with (hi | hi) | hi
  · split at hi
    · exact h.output i (by simpa using hi)
    · cases hi
  · exact h.movie i (by simpa using hi)
  · exact h.callback i (by simpa using hi)

theorem mem_outputTimes {S dt : ℚ} (hdt : dt ≠ 0) {k N n : ℕ} (hk : 0 < k) (hn : n ≤ N) (h0 : 0 < n) :
    S + n * dt ∈ outputTimes S dt (k * |dt|) N ↔ k ∣ n ∨ n = N := by
  have h1 : N / k * k ≤ N := Nat.div_mul_le_self N k
  have h2 : N < (N / k + 1) * k := (Nat.div_lt_iff_lt_mul hk).mp (Nat.lt_succ_self _)
  rw [WholeRun.outputTimes_eq hdt hk h1 h2, List.mem_cons, List.mem_append, List.mem_map]
  constructor
  · rintro (e | ⟨j, -, e⟩ | e)
    · have := grid_inj (S := S) (j := n) (m := 0) hdt (by rw [e]; push_cast; ring)
      omega
    · have := grid_inj (S := S) hdt e
      exact Or.inl ⟨j + 1, by rw [← this, Nat.mul_comm]⟩
    · split at e
      · cases e
      · exact Or.inr (grid_inj hdt (List.mem_singleton.mp e))
  · rintro (⟨c, rfl⟩ | rfl)
    · right; left
      have hc : 0 < c := Nat.pos_of_mul_pos_left h0
      refine ⟨c - 1, ?_, ?_⟩
      · rw [List.mem_range]
        have : c ≤ N / k := by rw [Nat.le_div_iff_mul_le hk, Nat.mul_comm]; exact hn
        omega
      · rw [Nat.sub_add_cancel hc, Nat.mul_comm]
    · right
      by_cases c : n / k * k = n
      · left
        refine ⟨n / k - 1, ?_, ?_⟩
        · have : 0 < n / k := by
            rcases Nat.eq_zero_or_pos (n / k) with e | e
            · rw [e] at c; omega
            · exact e
          rw [List.mem_range]
          omega
        · have : 0 < n / k := by
            rcases Nat.eq_zero_or_pos (n / k) with e | e
            · rw [e] at c; omega
            · exact e
          rw [Nat.sub_add_cancel this, c]
      · right
        rw [if_neg c]
        simp

/-- The interruptions up to step `m`. -/
def upTo (o : Opts) (S : ℚ) (N m : ℕ) : List ℚ := ((List.range' 1 m).filter fun n => decide (Stops o N n)).map fun n : ℕ => S + n * o.dt

theorem upTo_prefix (o : Opts) (S : ℚ) (N m n : ℕ) (h : m ≤ n) : ∃ us, upTo o S N n = upTo o S N m ++ us := by
  unfold upTo
  obtain ⟨d, rfl⟩ := Nat.exists_eq_add_of_le h
  have : List.range' 1 (m + d) = List.range' 1 m ++ List.range' (1 + m) d := by
    rw [List.range'_append_1]
  rw [this, List.filter_append, List.map_append]
  exact ⟨_, rfl⟩

theorem upTo_next (o : Opts) (S : ℚ) (N m n : ℕ) (h : m < n) (hn : Stops o N n) (hno : ∀ l, m < l → l < n → ¬ Stops o N l) :
    upTo o S N n = upTo o S N m ++ [S + n * o.dt] := by
  unfold upTo
  obtain ⟨d, rfl⟩ := Nat.exists_eq_add_of_lt h
  have : List.range' 1 (m + d + 1) = List.range' 1 m ++ (List.range' (1 + m) d ++ [m + d + 1]) := by
    rw [List.range'_1_concat, ← List.range'_append_1 (s := 1) (m := m) (n := d), List.append_assoc]
    congr 3
    omega
  have hnil : (List.range' (1 + m) d).filter (fun n => decide (Stops o N n)) = [] := by
    rw [List.filter_eq_nil_iff]
    intro l hl
    rw [List.mem_range'_1] at hl
    simp only [decide_eq_true_eq]
    exact hno l (by omega) (by omega)
  rw [this, List.filter_append, List.map_append, List.filter_append, hnil, List.nil_append]
  congr 1
  rw [List.filter_cons_of_pos (by simpa using hn)]
  rfl

/-- Where the streams of the loop are after step `m`. -/
structure Streams (o : Opts) (S : ℚ) (N : ℕ) (a : Args) (m : ℕ) (s : Schedule.St) : Prop where
  next : ∀ x, x ≠ .release → ∀ k : ℕ, 0 < k → Schedule.interval a x = some (k * |o.dt|) →
    ∃ K : ℕ, s.next x = .fin (S + (((K + 1) * k : ℕ) : ℚ) * o.dt) ∧ K * k ≤ m ∧ m < (K + 1) * k
  nextIn : ∀ q, s.nextIn ≠ .fin q
  release : ∀ q, s.next .release ≠ .fin q
  stops : s.stops = upTo o S N m

theorem streams_init {o : Opts} {S : ℚ} {N : ℕ} {ps : List (TP V)} (h : Regular o S N ps) (hl : Loaded o) {a : Args} (ha : Plain o S N a)
    (hr : a.repeatdt = none) : Streams o S N a 0 (Schedule.init a) := by
  have hne := ne_zero_of h.step
  refine ⟨?_, ?_, ?_, rfl⟩
  · intro x hx k hk hi
    refine ⟨0, ?_, by simp, by simpa using hk⟩
    have : Schedule.initNext a x = Schedule.firstEvent a.dt a.S (some (k * |o.dt|)) := by
      cases x with
      | release => exact absurd rfl hx
      | output => simp only [Schedule.initNext, hi]
      | movie => simp only [Schedule.initNext, hi]
      | callback => simp only [Schedule.initNext, hi]
    simp only [Schedule.init, this, Schedule.firstEvent]
    congr 1
    rw [ha.dt, ha.start]
    rcases Schedule.pos_or_neg hne with ⟨hp, e⟩ | ⟨hp, e⟩
    · rw [if_pos hp, abs_of_pos hp]; push_cast; ring
    · rw [if_neg (by linarith), abs_of_neg hp]; push_cast; ring
  · intro q
    simp only [Schedule.init, ha.fieldset, if_true, ha.input]
    exact hl _ _ q
  · intro q
    simp only [Schedule.init, Schedule.initNext, Schedule.interval, hr]
    simp
    split <;> simp

theorem streams_fire {o : Opts} {S : ℚ} {N : ℕ} {ps : List (TP V)} (h : Regular o S N ps) (hl : Loaded o) {a : Args} (ha : Plain o S N a)
    (hr : a.repeatdt = none) {m n : ℕ} {s : Schedule.St} (hI : Schedule.Inv a s) (hg : GridInv S o.dt s) (hs : Streams o S N a m s) (hmn : m < n) (hnN : n ≤ N)
    (hstop : Schedule.nextStop a s = .fin (S + n * o.dt)) (hnb : ∀ x, Schedule.NB a.dt (S + n * o.dt) (s.next x)) :
    Streams o S N a n (Schedule.fire a s (S + n * o.dt)) := by
  have hne := ne_zero_of h.step
  have hle : ∀ x (K k : ℕ), s.next x = .fin (S + (((K + 1) * k : ℕ) : ℚ) * o.dt) → n ≤ (K + 1) * k := by
    intro x K k hx
    have := hnb x
    rw [hx, ha.dt] at this
    exact (grid_le hne).mp this
  refine ⟨?_, ?_, ?_, ?_⟩
  · intro x hx k hk hi
    obtain ⟨K, k1, k2, k3⟩ := hs.next x hx k hk hi
    have hn := hle x K k k1
    simp only [Schedule.fire]
    by_cases c : Schedule.near (S + n * o.dt) (s.next x) = true
    · have hK : (K + 1) * k = n := by
        have := (WholeRun.near_grid h.step n _ (hg.next x)).mp c
        rw [k1] at this
        exact grid_inj hne (Ext.fin.inj this)
      refine ⟨K + 1, ?_, hK.le, ?_⟩
      · rw [if_pos c, hi, k1]
        simp only [Schedule.bump]
        congr 1
        rw [ha.dt, mul_assoc (k : ℚ), mul_comm |o.dt|, WholeRun.sgn_abs]
        push_cast
        ring
      · rw [← hK]
        exact Nat.mul_lt_mul_of_pos_right (Nat.lt_succ_self _) hk
    · rw [if_neg c]
      refine ⟨K, k1, by omega, ?_⟩
      rcases Nat.lt_or_ge n ((K + 1) * k) with c' | c'
      · exact c'
      · exfalso
        apply c
        rw [k1, WholeRun.near_grid h.step n _ (by rw [← k1]; exact hg.next x)]
        rw [show (K + 1) * k = n by omega]
  · intro q
    simp only [Schedule.fire]
    split
    · rw [ha.input]; exact hl _ _ q
    · exact hs.nextIn q
  · intro q
    simp only [Schedule.fire]
    have := hs.release
    split
    · cases hx : s.next .release with
      | fin y => exact absurd hx (this y)
      | pinf => simp [Schedule.bump]
      | ninf => simp [Schedule.bump]
    · exact this q
  · simp only [Schedule.fire]
    rw [hs.stops]
    refine (upTo_next o S N m n hmn ?_ ?_).symm
    · rcases Schedule.nextStop_mem a s with ⟨x, hx⟩ | hx | hx
      · rw [hstop] at hx
        right
        have hxr : x ≠ .release := by
          rintro rfl
          exact hs.release _ hx.symm
        obtain ⟨r, hr'⟩ := hI.fin x _ hx.symm
        have hm := interval_mem ha hr x r hr'
        obtain ⟨k, hk, rfl⟩ := interval_steps h r hm
        refine ⟨_, hm, ?_⟩
        rw [multiple_iff hne hk]
        obtain ⟨K, k1, -, -⟩ := hs.next x hxr k hk hr'
        rw [← hx] at k1
        have := grid_inj hne (Ext.fin.inj k1)
        exact ⟨K + 1, by rw [this, Nat.mul_comm]⟩
      · rw [hstop] at hx
        exact absurd hx.symm (hs.nextIn _)
      · rw [hstop, ha.E] at hx
        exact Or.inl (grid_inj hne (Ext.fin.inj hx))
    · rintro l hml hln (c | ⟨i, hi, hl'⟩)
      · omega
      · obtain ⟨x, hxr, hx⟩ := mem_interval ha i hi
        obtain ⟨k, hk, rfl⟩ := interval_steps h i hi
        rw [multiple_iff hne hk] at hl'
        obtain ⟨K, k1, k2, k3⟩ := hs.next x hxr k hk hx
        have h1 := hle x K k k1
        obtain ⟨c, rfl⟩ := hl'
        have h2 : K < c := by
          by_contra hc
          have := Nat.mul_le_mul_right k (not_lt.mp hc)
          rw [Nat.mul_comm c k] at this
          omega
        have := Nat.mul_le_mul_right k (Nat.succ_le_of_lt h2)
        rw [Nat.mul_comm c k] at this
        simp only [Nat.succ_eq_add_one] at this
        omega

end Parcels.RandomRun
