import Verif.Proofs.WholeRun3
import Verif.Spec.ReleaseRun

namespace Parcels.ReleaseRun

open KernelLoop (Kern)
open Recovery (TP RMap)
open Schedule (Args Ext After AfterExt NotBefore)
open WholeRun (Exec St Run Opts write startTime Scheme trajectory record core Regular Deletes Raises records outputTimes OnGrid ne_zero_of sgn_abs mul_sgn_self
  grid_le grid_lt grid_inj At GridInv GridExt Starts Plain OutInv Effect Fits firstRecords)

variable {V : Type}

/-! ### The times of release -/

theorem floor_iff {x r : ℚ} (hr : r ≠ 0) : ((⌊x / r⌋ : ℚ) * r = x) ↔ ∃ w : ℤ, x = w * r := by
  constructor
  · intro h; exact ⟨_, h.symm⟩
  · rintro ⟨w, rfl⟩
    rw [mul_div_assoc, div_self hr, mul_one, Int.floor_intCast]

theorem due_iff {S dt : ℚ} (hdt : dt ≠ 0) {k : ℕ} (hk : 0 < k) (z n : ℕ) :
    ((⌊(S + n * dt - (S - z * dt)) / (k * |dt|)⌋ : ℚ) * (k * |dt|) = S + n * dt - (S - z * dt)) ↔ k ∣ z + n := by
  have hp := abs_pos.mpr hdt
  have hk' : (0 : ℚ) < k := by exact_mod_cast hk
  rw [floor_iff (by positivity), show S + n * dt - (S - z * dt) = ((z + n : ℕ) : ℚ) * dt by push_cast; ring]
  constructor
  · rintro ⟨w, hw⟩
    have h1 : ((z + n : ℕ) : ℚ) * (dt * sgn dt) = (w * k) * |dt| * sgn dt := by rw [← mul_assoc, hw]; ring
    rw [mul_sgn_self] at h1
    rcases Schedule.pos_or_neg hdt with ⟨-, e⟩ | ⟨-, e⟩
    · rw [e, mul_one] at h1
      have h2 := mul_right_cancel₀ hp.ne' h1
      have h3 : ((z + n : ℕ) : ℤ) = w * k := by exact_mod_cast h2
      exact Int.natCast_dvd_natCast.mp ⟨w, by rw [h3]; ring⟩
    · rw [e] at h1
      have h2 : ((z + n : ℕ) : ℚ) * |dt| = (-w * k) * |dt| := by rw [h1]; ring
      have h2 := mul_right_cancel₀ hp.ne' h2
      have h3 : ((z + n : ℕ) : ℤ) = -w * k := by exact_mod_cast h2
      exact Int.natCast_dvd_natCast.mp ⟨-w, by rw [h3]; ring⟩
  · rintro ⟨w, hw⟩
    rw [hw]
    rcases Schedule.pos_or_neg hdt with ⟨hq, e⟩ | ⟨hq, e⟩
    · exact ⟨w, by rw [abs_of_pos hq]; push_cast; ring⟩
    · exact ⟨-w, by rw [abs_of_neg hq]; push_cast; ring⟩

theorem times_succ {S dt : ℚ} (hdt : dt ≠ 0) {k : ℕ} (hk : 0 < k) (z m : ℕ) :
    releaseTimes (S - z * dt) S dt (k * |dt|) (m + 1) =
      releaseTimes (S - z * dt) S dt (k * |dt|) m ++ if k ∣ z + (m + 1) then [S + ((m + 1 : ℕ) : ℚ) * dt] else [] := by
  unfold releaseTimes
  rw [List.range_succ, List.map_append, List.filter_append]
  congr 1
  rw [List.map_cons, List.map_nil]
  by_cases c : k ∣ z + (m + 1)
  · rw [if_pos c, List.filter_cons_of_pos (by simpa only [decide_eq_true_eq] using (due_iff hdt hk z (m + 1)).mpr c), List.filter_nil]
  · rw [if_neg c, List.filter_cons_of_neg (by simpa only [decide_eq_true_eq] using fun x => c ((due_iff hdt hk z (m + 1)).mp x)), List.filter_nil]

/-- Up to the next release nothing is released. -/
theorem times_jump {S dt : ℚ} (hdt : dt ≠ 0) {k : ℕ} (hk : 0 < k) (z : ℕ) {m n1 : ℕ} (hn1 : k ∣ z + n1) (h2 : n1 ≤ m + k) :
    ∀ n, m < n → n ≤ n1 → releaseTimes (S - z * dt) S dt (k * |dt|) n =
      releaseTimes (S - z * dt) S dt (k * |dt|) m ++ if n = n1 then [S + (n : ℚ) * dt] else [] := by
  intro n hmn
  induction n, hmn using Nat.le_induction with
  | base =>
    intro hle
    rw [times_succ hdt hk]
    congr 1
    by_cases c : m + 1 = n1
    · rw [if_pos (by rw [c]; exact hn1), if_pos c]
    · rw [if_neg, if_neg c]
      intro hd
      have := (Nat.dvd_sub hn1 hd)
      have h3 : z + n1 - (z + (m + 1)) = n1 - (m + 1) := by omega
      rw [h3] at this
      have := Nat.le_of_dvd (by omega) this
      omega
  | succ n hmn ih =>
    intro hle
    rw [times_succ hdt hk, ih (by omega), if_neg (by omega), List.append_nil]
    congr 1
    by_cases c : n + 1 = n1
    · rw [if_pos (by rw [c]; exact hn1), if_pos c]
    · rw [if_neg, if_neg c]
      intro hd
      have := (Nat.dvd_sub hn1 hd)
      have h3 : z + n1 - (z + (n + 1)) = n1 - (n + 1) := by omega
      rw [h3] at this
      have := Nat.le_of_dvd (by omega) this
      omega

theorem times_mem {rs S dt r : ℚ} {N : ℕ} {t : ℚ} (h : t ∈ releaseTimes rs S dt r N) : ∃ j : ℕ, 0 < j ∧ j ≤ N ∧ t = S + j * dt := by
  unfold releaseTimes at h
  obtain ⟨n, hn, rfl⟩ := List.mem_map.mp (List.mem_filter.mp h).1
  exact ⟨n + 1, by omega, by have := List.mem_range.mp hn; omega, rfl⟩

/-! ### The particles released -/

theorem newBatch_eq (t dt : ℚ) (id : ℕ) (vs : List V) : newBatch t dt id vs = batch dt vs id t := by
  unfold newBatch batch
  apply List.ext_getElem
  · simp
  · intro i h1 h2
    simp

theorem batch_mem {dt : ℚ} {vs : List V} {id : ℕ} {t : ℚ} {q : TP V} (h : q ∈ batch dt vs id t) : q.2.time = t ∧ q.2.dt = dt := by
  unfold batch at h
  obtain ⟨i, hi, rfl⟩ := List.mem_iff_getElem.mp h
  simp

theorem releases_append (dt : ℚ) (vs : List V) : ∀ (ts : List ℚ) (id : ℕ) (t : ℚ),
    releases dt vs id (ts ++ [t]) = releases dt vs id ts ++ batch dt vs (id + ts.length * vs.length) t
  | [], id, t => by simp [releases]
  | s :: ts, id, t => by
    rw [List.cons_append, releases, releases, releases_append dt vs ts, List.append_assoc]
    congr 3
    rw [List.length_cons]
    ring

theorem releases_mem {dt : ℚ} {vs : List V} : ∀ {ts : List ℚ} {id : ℕ} {q : TP V}, q ∈ releases dt vs id ts → q.2.time ∈ ts ∧ q.2.dt = dt
  | [], id, q, h => by cases h
  | t :: ts, id, q, h => by
    rw [releases, List.mem_append] at h
    rcases h with h | h
    · obtain ⟨h1, h2⟩ := batch_mem h
      exact ⟨by rw [h1]; exact List.mem_cons_self, h2⟩
    · obtain ⟨h1, h2⟩ := releases_mem h
      exact ⟨List.mem_cons_of_mem _ h1, h2⟩

/-- A run with more particles. -/
theorem regular_append {o : Opts} {S : ℚ} {N : ℕ} {ps qs : List (TP V)} (h : Regular o S N ps) (hq : Starts S o.dt qs) : Regular o S N (ps ++ qs) where
  start := by
    obtain ⟨q, h1, h2⟩ := h.start
    exact ⟨q, List.mem_append_left _ h1, h2⟩
  step := h.step
  length := h.length
  end_ := h.end_
  output := h.output
  movie := h.movie
  callback := h.callback
  ahead := h.ahead
  input := h.input
  starts := by
    intro q hq'
    rcases List.mem_append.mp hq' with h1 | h1
    · exact h.starts q h1
    · exact hq q h1

/-- All that is fixed in the course of a run. -/
structure Setup (o : Opts) (S : ℚ) (N : ℕ) (a : Args) (ps : List (TP V)) (vs : List V) (id k z : ℕ) : Prop where
  reg : Regular o S N ps
  plain : Plain o S N a
  hk : 0 < k
  rdt : a.repeatdt = some (k * |o.dt|)
  rs : a.rs = S - z * o.dt

/-- The particles that there are after `m` steps, as they start. -/
def upTo (o : Opts) (S : ℚ) (ps : List (TP V)) (vs : List V) (id k z m : ℕ) : List (TP V) :=
  ps ++ releases o.dt vs id (releaseTimes (S - z * o.dt) S o.dt (k * |o.dt|) m)

theorem upTo_zero (o : Opts) (S : ℚ) (ps : List (TP V)) (vs : List V) (id k z : ℕ) : upTo o S ps vs id k z 0 = ps := by
  simp [upTo, releaseTimes, releases]

theorem upTo_starts {o : Opts} {S : ℚ} {N : ℕ} {a : Args} {ps : List (TP V)} {vs : List V} {id k z : ℕ} (h : Setup o S N a ps vs id k z) (m : ℕ) :
    Starts S o.dt (upTo o S ps vs id k z m) := by
  refine (regular_append h.reg ?_).starts
  intro q hq
  obtain ⟨j, -, -, hj⟩ := times_mem (releases_mem hq).1
  exact ⟨j, hj⟩

theorem upTo_regular {o : Opts} {S : ℚ} {N : ℕ} {a : Args} {ps : List (TP V)} {vs : List V} {id k z : ℕ} (h : Setup o S N a ps vs id k z) (m : ℕ) :
    Regular o S N (upTo o S ps vs id k z m) := by
  refine regular_append h.reg ?_
  intro q hq
  obtain ⟨j, -, -, hj⟩ := times_mem (releases_mem hq).1
  exact ⟨j, hj⟩

theorem upTo_succ {o : Opts} {S : ℚ} {N : ℕ} {a : Args} {ps : List (TP V)} {vs : List V} {id k z : ℕ} (h : Setup o S N a ps vs id k z) (m : ℕ) :
    ∃ l : List (TP V), upTo o S ps vs id k z (m + 1) = upTo o S ps vs id k z m ++ l ∧ ∀ q ∈ l, q.2.time = S + ((m + 1 : ℕ) : ℚ) * o.dt := by
  have hne := ne_zero_of h.reg.step
  unfold upTo
  rw [times_succ hne h.hk]
  split
  · rw [releases_append, ← List.append_assoc]
    exact ⟨_, rfl, fun q hq => (batch_mem hq).1⟩
  · exact ⟨[], by simp, fun q hq => by cases hq⟩

theorem upTo_sub {o : Opts} {S : ℚ} {N : ℕ} {a : Args} {ps : List (TP V)} {vs : List V} {id k z : ℕ} (h : Setup o S N a ps vs id k z) {m n : ℕ} (hmn : m ≤ n) :
    ∀ q ∈ upTo o S ps vs id k z m, q ∈ upTo o S ps vs id k z n := by
  induction n, hmn using Nat.le_induction with
  | base => exact fun q hq => hq
  | succ n _ ih =>
    obtain ⟨l, e, -⟩ := upTo_succ h n
    intro q hq
    rw [e]
    exact List.mem_append_left _ (ih q hq)

/-- Particles that are released later have no record yet. -/
theorem upTo_record (f : Scheme V) {o : Opts} {S : ℚ} {N : ℕ} {a : Args} {ps : List (TP V)} {vs : List V} {id k z : ℕ} (h : Setup o S N a ps vs id k z) {m n : ℕ}
    (hmn : m ≤ n) : (upTo o S ps vs id k z n).filterMap (record f o.dt (S + m * o.dt)) = (upTo o S ps vs id k z m).filterMap (record f o.dt (S + m * o.dt)) := by
  have hne := ne_zero_of h.reg.step
  induction n, hmn using Nat.le_induction with
  | base => rfl
  | succ n hmn ih =>
    obtain ⟨l, e, hl⟩ := upTo_succ h n
    rw [e, List.filterMap_append, ih]
    have : l.filterMap (record f o.dt (S + m * o.dt)) = [] := by
      rw [List.filterMap_eq_nil_iff]
      intro q hq
      unfold record
      rw [if_pos]
      rw [hl q hq]
      exact (grid_lt hne).mpr (by omega)
    rw [this, List.append_nil]

/-! ### The loop -/

structure JR (f : Scheme V) (o : Opts) (S : ℚ) (N : ℕ) (a : Args) (ps0 : List (TP V)) (vs : List V) (id k z : ℕ) (R0 : List (Nat × ℚ × V)) (wod : Bool) (m : ℕ)
    (rep : Repeat V) (s : St V) : Prop where
  inv : Schedule.Inv a s.sched
  grid : GridInv S o.dt s.sched
  time : s.sched.time = S + m * o.dt
  le : m ≤ N
  at_ : At f S o.dt (upTo o S ps0 vs id k z m) m s.ps
  rel : ∃ n1 : ℕ, s.sched.next .release = .fin (S + n1 * o.dt) ∧ k ∣ z + n1 ∧ m < n1 ∧ n1 ≤ m + k
  held : rep.held = some vs
  nid : rep.nextId = id + (releaseTimes (S - z * o.dt) S o.dt (k * |o.dt|) m).length * vs.length
  out : o.hasFile = true → wod = false → ∀ k' : ℕ, 0 < k' → o.outputdt = some (k' * |o.dt|) → OutInv f S o.dt (upTo o S ps0 vs id k z N) R0 k' m s

/-- The particles after a release. -/
def added (a : Args) (s : Schedule.St) (t : ℚ) (rep : Repeat V) (vs : List V) (ps : List (TP V)) : List (TP V) :=
  bif Schedule.near t (s.next .release) then ps ++ newBatch t a.dt rep.nextId vs else ps

/-- What is kept after a release. -/
def after (s : Schedule.St) (t : ℚ) (rep : Repeat V) (vs : List V) : Repeat V :=
  { rep with held := some vs, nextId := bif Schedule.near t (s.next .release) then rep.nextId + vs.length else rep.nextId }

/-- One turn of the loop after the kernel was executed. -/
theorem turn {f : Scheme V} {o : Opts} {S : ℚ} {N : ℕ} {ps0 : List (TP V)} {vs : List V} {id k z : ℕ} {a : Args} (h : Setup o S N a ps0 vs id k z)
    {R0 : List (Nat × ℚ × V)} {wod : Bool} {m n : ℕ} {rep : Repeat V} {s : St V} (hJ : JR f o S N a ps0 vs id k z R0 wod m rep s) (hmn : m < n) (hnN : n ≤ N)
    (hI : Schedule.Inv a (Schedule.fire a s.sched (S + n * o.dt)))
    (hnb : ∀ x, Schedule.NB a.dt (S + n * o.dt) (s.sched.next x)) (ps' : List (TP V)) (hps : At f S o.dt (upTo o S ps0 vs id k z m) n ps') :
    ∃ s2, (bif Schedule.near (S + n * o.dt) (s.sched.next .output) then write a.hasFile { s with ps := added a s.sched (S + n * o.dt) rep vs ps' } (S + n * o.dt)
        else some { s with ps := added a s.sched (S + n * o.dt) rep vs ps' }) = some s2 ∧
      JR f o S N a ps0 vs id k z R0 wod n (after s.sched (S + n * o.dt) rep vs) { s2 with sched := Schedule.fire a s.sched (S + n * o.dt) } ∧
      ((∀ q ∈ upTo o S ps0 vs id k z m, (trajectory f o.dt (S + n * o.dt) q).isSome) →
        ∀ q ∈ upTo o S ps0 vs id k z n, (trajectory f o.dt (S + n * o.dt) q).isSome) := by
  have hne := ne_zero_of h.reg.step
  have hg := WholeRun.grid_fire h.reg h.plain hJ.grid (S + n * o.dt)
  obtain ⟨n1, r1, r2, r3, r4⟩ := hJ.rel
  have hn1 : n ≤ n1 := by
    have := hnb .release
    rw [r1, h.plain.dt] at this
    exact (grid_le hne).mp this
  have hnear : Schedule.near (S + n * o.dt) (s.sched.next .release) = decide (n = n1) := by
    rw [Bool.eq_iff_iff, decide_eq_true_eq, WholeRun.near_grid h.reg.step n _ (hJ.grid.next .release), r1]
    constructor
    · intro e; exact (grid_inj hne (Ext.fin.inj e)).symm
    · intro e; rw [e]
  have hjump := times_jump (S := S) hne h.hk z r2 r4 n hmn hn1
  have hrint : Schedule.interval a .release = some (k * |o.dt|) := by
    have hk' : (0 : ℚ) < k := by exact_mod_cast h.hk
    have hp := abs_pos.mpr hne
    have : (k * |o.dt| : ℚ) ≠ 0 := by positivity
    simp only [Schedule.interval, h.rdt]
    rw [if_neg (fun e => this (Option.some.inj e))]
  have hrel : ∃ n2 : ℕ, (Schedule.fire a s.sched (S + n * o.dt)).next .release = .fin (S + n2 * o.dt) ∧ k ∣ z + n2 ∧ n < n2 ∧ n2 ≤ n + k := by
    simp only [Schedule.fire]
    by_cases c : n = n1
    · rw [if_pos (by rw [hnear]; exact decide_eq_true c), hrint, r1]
      refine ⟨n1 + k, ?_, ?_, ?_, ?_⟩
      · simp only [Schedule.bump]
        congr 1
        rw [h.plain.dt, mul_assoc (k : ℚ), mul_comm |o.dt|, sgn_abs]
        push_cast
        ring
      · rw [← add_assoc]; exact Nat.dvd_add_self_right.mpr r2
      · have := h.hk; omega
      · omega
    · rw [if_neg (by rw [hnear]; simpa using c)]
      exact ⟨n1, r1, r2, by omega, by omega⟩
  have hup : upTo o S ps0 vs id k z n = upTo o S ps0 vs id k z m ++ if n = n1 then batch o.dt vs rep.nextId (S + n * o.dt) else [] := by
    unfold upTo
    rw [hjump]
    split
    · rw [releases_append, ← hJ.nid, List.append_assoc]
    · simp
  have hnew : ∀ q ∈ (if n = n1 then batch o.dt vs rep.nextId (S + n * o.dt) else []), q.2.dt = o.dt ∧ trajectory f o.dt (S + n * o.dt) q = some (core q) := by
    intro q hq
    split at hq
    · obtain ⟨e1, e2⟩ := batch_mem hq
      exact ⟨e2, WholeRun.trajectory_idle f hne q (by rw [e1, sub_self, zero_mul])⟩
    · cases hq
  have hadd : added a s.sched (S + n * o.dt) rep vs ps' = ps' ++ if n = n1 then batch o.dt vs rep.nextId (S + n * o.dt) else [] := by
    unfold added
    rw [hnear, newBatch_eq, h.plain.dt]
    by_cases c : n = n1
    · rw [if_pos c, decide_eq_true c, cond_true]
    · rw [if_neg c, decide_eq_false c, cond_false, List.append_nil]
  have hat : At f S o.dt (upTo o S ps0 vs id k z n) n (added a s.sched (S + n * o.dt) rep vs ps') := by
    rw [hadd, hup]
    constructor
    · rw [List.map_append, List.filterMap_append, hps.core]
      congr 1
      symm
      rw [← List.filterMap_eq_map']
      apply List.filterMap_congr
      intro q hq
      exact (hnew q hq).2
    · intro q hq
      rcases List.mem_append.mp hq with hq | hq
      · exact hps.step q hq
      · exact (hnew q hq).1
  have hsome : (∀ q ∈ upTo o S ps0 vs id k z m, (trajectory f o.dt (S + n * o.dt) q).isSome) →
        ∀ q ∈ upTo o S ps0 vs id k z n, (trajectory f o.dt (S + n * o.dt) q).isSome := by
    intro hall q hq
    rw [hup] at hq
    rcases List.mem_append.mp hq with hq | hq
    · exact hall q hq
    · rw [(hnew q hq).2]; rfl
  have hid : (after s.sched (S + n * o.dt) rep vs).nextId = id + (releaseTimes (S - z * o.dt) S o.dt (k * |o.dt|) n).length * vs.length := by
    unfold after
    dsimp only
    rw [hnear, hjump, hJ.nid]
    by_cases c : n = n1
    · rw [if_pos c, decide_eq_true c, cond_true, List.length_append, List.length_singleton]
      ring
    · rw [if_neg c, decide_eq_false c, cond_false, List.append_nil]
  cases hno : Schedule.near (S + n * o.dt) (s.sched.next .output) with
  | false =>
    refine ⟨_, rfl, ⟨hI, hg, rfl, hnN, hat, hrel, rfl, hid, ?_⟩, hsome⟩
    intro hf hw k' hk' ho
    obtain ⟨w1, K, w2, w3, w4, w5⟩ := hJ.out hf hw k' hk' ho
    refine ⟨w1, K, ?_, w3, by omega, w5⟩
    dsimp only
    rw [WholeRun.fire_next h.plain s.sched _ k' hf ho _ w2, if_neg (by rw [hno]; simp)]
  | true =>
    obtain ⟨s', e1, e2, e3, e4⟩ := WholeRun.write_at hne (upTo_starts h n) a.hasFile { s with ps := added a s.sched (S + n * o.dt) rep vs ps' } n hat
    refine ⟨s', by rw [cond_true]; exact e1, ⟨hI, hg, rfl, hnN, by dsimp only; rw [e2]; exact hat, hrel, rfl, hid, ?_⟩, hsome⟩
    intro hf hw k' hk' ho
    obtain ⟨w1, K, w2, w3, w4, w5⟩ := hJ.out hf hw k' hk' ho
    obtain ⟨x1, x2, x3⟩ := e4 (by rw [h.plain.file]; exact hf) w1
    have hK : (K + 1) * k' = n := by
      have := (WholeRun.near_grid h.reg.step n _ (hJ.grid.next .output)).mp hno
      rw [w2] at this
      exact grid_inj hne (Ext.fin.inj this)
    refine ⟨x1, K + 1, ?_, ?_, by omega, ?_⟩
    · dsimp only
      rw [WholeRun.fire_next h.plain s.sched _ k' hf ho _ w2, if_pos hno]
      congr 3
      push_cast
      ring
    · dsimp only
      rw [x2, hK]
    · have hlt : K * k' ≠ n := by
        intro e
        rw [← hK] at e
        have : (K + 1) * k' = K * k' + k' := by ring
        omega
      have : records { s' with sched := Schedule.fire a s.sched (S + n * o.dt) } = records s' := rfl
      rw [this, x3, if_neg, List.range_succ, List.flatMap_append, ← List.append_assoc]
      · congr 1
        simp only [List.flatMap_cons, List.flatMap_nil, List.append_nil]
        rw [hK, upTo_record f h hnN]
      · dsimp only
        rw [w3]
        intro e
        exact hlt (grid_inj hne (Option.some.inj e))

theorem loop_succ (a : Args) (exec : Exec V) (pass : Pass V) (fresh : V → V) (n : ℕ) (rep : Repeat V) (s : St V) (t : ℚ) (vs : List V)
    (hc : Schedule.continues a s.sched) (hs : Schedule.nextStop a s.sched = .fin t) (hv : hold pass fresh t a.dt s.ps rep.held = some vs) :
    loop a exec pass fresh (n + 1) rep s =
      match exec t a.dt s.ps with
      | none => none
      | some (.raised, ps) => some (.raised { s with ps := ps }, { rep with held := some vs })
      | some (_, ps) =>
        match (bif Schedule.near t (s.sched.next .output) then write a.hasFile { s with ps := added a s.sched t rep vs ps } t
            else some { s with ps := added a s.sched t rep vs ps }) with
        | none => some (.crash { s with ps := added a s.sched t rep vs ps }, after s.sched t rep vs)
        | some s2 =>
          if t ≠ a.E ∧ a.hasFieldset = false then some (.crash s2, after s.sched t rep vs)
          else if a.dt = 0 then some (.done { s2 with sched := Schedule.fire a s.sched t }, after s.sched t rep vs)
          else loop a exec pass fresh n (after s.sched t rep vs) { s2 with sched := Schedule.fire a s.sched t } := by
  rw [loop, if_pos hc, hs]
  dsimp only
  rw [hv]
  cases exec t a.dt s.ps with
  | none => rfl
  | some x =>
    obtain ⟨e, ps⟩ := x
    cases e <;> rfl

end Parcels.ReleaseRun
