import Verif.Spec.WholeRun
import Verif.Proofs.Recovery
import Verif.Proofs.JitLoop
import Verif.Proofs.JitClock
import Mathlib.Tactic.Linarith
import Mathlib.Tactic.Ring
import Mathlib.Tactic.Positivity

namespace Parcels.WholeRun

open KernelLoop (Particle Kern Exc LS)
open Recovery (TP RMap)

variable {V : Type}

theorem not_close {dt : ℚ} (h : 1 / 100000000 < |dt|) : isclose dt 0 = false := by
  rw [Bool.eq_false_iff, ne_eq, isclose_zero_iff]
  linarith

theorem ne_zero_of {dt : ℚ} (h : 1 / 100000000 < |dt|) : dt ≠ 0 := by
  rintro rfl
  norm_num at h

theorem sgn_abs (dt : ℚ) : sgn dt * |dt| = dt := by
  rcases sgn_cases dt with ⟨h, e⟩ | ⟨h, e⟩ | ⟨h, e⟩
  · rw [e, abs_of_pos h, one_mul]
  · rw [e, abs_of_neg h]; ring
  · rw [h]; simp

theorem mul_sgn_self (dt : ℚ) : dt * sgn dt = |dt| := by
  rcases sgn_cases dt with ⟨h, e⟩ | ⟨h, e⟩ | ⟨h, e⟩
  · rw [e, abs_of_pos h, mul_one]
  · rw [e, abs_of_neg h]; ring
  · rw [h]; simp

theorem sgn_steps {dt : ℚ} (h : dt ≠ 0) {x : ℚ} (hx : 0 < x) : sgn (x * dt) = sgn dt := by
  rw [sgn_eq_of_ne_zero h, mul_assoc, mul_sgn_self]
  exact mul_pos hx (abs_pos.mpr h)

theorem exc_code (e : Exc) : e.code ≠ .success ∧ e.code ≠ .delete ∧ e.code ≠ .evaluate ∧ e.code ≠ .repeat ∧ e.code ≠ .stopExecution := by
  cases e <;> decide

theorem resolve_ok (p : Particle V) (v : V) : KernelLoop.resolve p ⟨{ p with vars := v }, none, .ret none⟩ = .success := by
  simp [KernelLoop.resolve, isclose_self]

/-- One step of the loop. -/
theorem step_sol (f : Scheme V) (E dt : ℚ) (hdt : 1 / 100000000 < |dt|) (s : LS Unit V) (hst : s.p.state = .evaluate) (hd : s.p.dt = dt)
    (hn : s.nextDt = none) (hp : s.dtPos = |dt|) (n : Nat) (hE : E = s.p.time + (n + 1) * dt) :
    (∀ v, f s.p.time dt s.p.vars = .ok v → ∃ s', KernelLoop.step (kernel f) E dt s = (s', false) ∧
      s'.p = ⟨s.p.time + dt, dt, if n = 0 then .success else .evaluate, v⟩ ∧ s'.nextDt = none ∧ (n ≠ 0 → s'.dtPos = |dt|)) ∧
    (∀ e, f s.p.time dt s.p.vars = .error e → ∃ s', KernelLoop.step (kernel f) E dt s = (s', true) ∧
      s'.p = ⟨s.p.time, dt, e.code, s.p.vars⟩) := by
  have hne := ne_zero_of hdt
  have hpre : KernelLoop.preAt dt s = s.p := by
    obtain ⟨w, ⟨t, d, st, v⟩, dp, nd, b, tr⟩ := s
    simp only at hd hp
    simp only [KernelLoop.preAt, hp, sgn_abs, hd]
  constructor
  · intro v hv
    have ho : KernelLoop.outAt (kernel f) dt s = ⟨{ s.p with vars := v }, none, .ret none⟩ := by
      simp only [KernelLoop.outAt, hpre, kernel, hd, hv]
    have hc : KernelLoop.codeAt (kernel f) dt s = .success := by
      simp only [KernelLoop.codeAt, ho, hpre]
      exact resolve_ok _ _
    have hrest : E - (s.p.time + dt) = n * dt := by rw [hE]; ring
    have key := KernelLoop.step_commit (kernel f) E dt s (Or.inl hc) ho (time' := s.p.time + dt) (dt' := dt)
      (dtPos := min |dt| |E - (s.p.time + dt)|) (st := if n = 0 then .success else .evaluate) (by rw [hd]) (by simp [hn, hd]) rfl (by
        rw [hc, hrest]
        by_cases h0 : n = 0
        · subst h0
          rw [if_pos rfl, if_neg]
          rintro ⟨-, h, -⟩
          apply h
          simp [isclose_self]
        · rw [if_neg h0, if_pos]
          have hn1 : (1 : ℚ) ≤ n := by exact_mod_cast Nat.one_le_iff_ne_zero.mpr h0
          refine ⟨by decide, ?_, sgn_steps hne (by linarith)⟩
          rw [isclose_zero_iff, not_le, abs_of_nonneg (le_min (abs_nonneg _) (abs_nonneg _)), lt_min_iff, abs_mul, Nat.abs_cast]
          exact ⟨hdt, by nlinarith [abs_nonneg dt]⟩)
    rw [not_close hdt] at key
    refine ⟨_, key, by simp, rfl, fun h0 => ?_⟩
    have hn1 : (1 : ℚ) ≤ n := by exact_mod_cast Nat.one_le_iff_ne_zero.mpr h0
    simp only [hrest]
    rw [if_neg (by rw [not_not]; exact sgn_steps hne (by linarith)), abs_mul, Nat.abs_cast, min_eq_left]
    nlinarith [abs_nonneg dt]
  · intro e he
    have ho : KernelLoop.outAt (kernel f) dt s = ⟨s.p, none, .exc e⟩ := by
      simp only [KernelLoop.outAt, hpre, kernel, hd, he]
    have hc : KernelLoop.codeAt (kernel f) dt s = e.code := by
      simp only [KernelLoop.codeAt, ho, KernelLoop.resolve]
    obtain ⟨h1, h2, h3⟩ := exc_code e
    obtain ⟨k1, -, -, -, -, k2⟩ := KernelLoop.step_fail (kernel f) E dt s (by rw [hc]; rintro (h | h); exacts [h1 h, h2 h])
    refine ⟨(KernelLoop.step (kernel f) E dt s).1, Prod.ext rfl k1, ?_⟩
    rw [k2, ho, hc, ← hd]

/-- The result of a run to `E`, for a particle with at least one step to go. -/
def Arrives (f : Scheme V) (dt : ℚ) (n : Nat) (E : ℚ) (p q : Particle V) : Prop :=
  (∀ v, solution f dt n p.time p.vars = some v → q = ⟨E, dt, .success, v⟩) ∧
  (solution f dt n p.time p.vars = none → ∃ e : Exc, q.state = e.code ∧ q.dt = dt)

theorem loop_sol (f : Scheme V) (E dt : ℚ) (hdt : 1 / 100000000 < |dt|) : ∀ (n fuel : Nat) (s s' : LS Unit V), s.p.state = .evaluate → s.p.dt = dt →
    s.nextDt = none → s.dtPos = |dt| → E = s.p.time + (n + 1) * dt → KernelLoop.loop (kernel f) E dt fuel s = some s' →
    Arrives f dt (n + 1) E s.p s'.p := by
  intro n
  induction n with
  | zero =>
    intro fuel s s' hst hd hn hp hE h
    obtain ⟨k1, k2⟩ := step_sol f E dt hdt s hst hd hn hp 0 (by simpa using hE)
    cases fuel with
    | zero => cases h
    | succ fuel =>
      rw [KernelLoop.loop, if_pos (show KernelLoop.cond dt s from Or.inl hst)] at h
      cases hf : f s.p.time dt s.p.vars with
      | ok v =>
        obtain ⟨s1, e1, e2, -, -⟩ := k1 v hf
        rw [e1] at h
        simp only at h
        have hs' : s' = s1 := by
          cases fuel with
          | zero => cases h
          | succ fuel =>
            rw [KernelLoop.loop, if_neg] at h
            · exact (Option.some.inj h).symm
            · rintro (c | c | c)
              · rw [e2] at c; simp at c
              · rw [e2] at c; simp at c
              · rw [not_close hdt] at c; cases c
        subst hs'
        refine ⟨fun v' hv' => ?_, fun hv' => ?_⟩
        · simp only [solution, hf, Option.some.injEq] at hv'
          rw [e2, hv', hE]
          simp
        · simp [solution, hf] at hv'
      | error e =>
        obtain ⟨s1, e1, e2⟩ := k2 e hf
        rw [e1] at h
        obtain rfl := Option.some.inj h
        refine ⟨fun v' hv' => ?_, fun _ => ⟨e, by rw [e2], by rw [e2]⟩⟩
        simp [solution, hf] at hv'
  | succ n ih =>
    intro fuel s s' hst hd hn hp hE h
    obtain ⟨k1, k2⟩ := step_sol f E dt hdt s hst hd hn hp (n + 1) (by rw [hE])
    cases fuel with
    | zero => cases h
    | succ fuel =>
      rw [KernelLoop.loop, if_pos (show KernelLoop.cond dt s from Or.inl hst)] at h
      cases hf : f s.p.time dt s.p.vars with
      | ok v =>
        obtain ⟨s1, e1, e2, e3, e4⟩ := k1 v hf
        rw [e1] at h
        simp only at h
        have := ih fuel s1 s' (by rw [e2]; simp) (by rw [e2]) e3 (e4 (by omega)) (by rw [e2, hE]; push_cast; ring) h
        unfold Arrives at this ⊢
        rw [e2] at this
        simp only at this
        rw [solution, hf]
        exact this
      | error e =>
        obtain ⟨s1, e1, e2⟩ := k2 e hf
        rw [e1] at h
        obtain rfl := Option.some.inj h
        refine ⟨fun v' hv' => ?_, fun _ => ⟨e, by rw [e2], by rw [e2]⟩⟩
        simp [solution, hf] at hv'

/-- A particle that has nothing to do until `E` keeps everything but perhaps its state. -/
theorem exec1_idle (K : Kern Unit V) (E dt : ℚ) (hdt : 1 / 100000000 < |dt|) (fuel : Nat) (w : Unit) (b : Option (Particle V)) (p : Particle V)
    (h : 0 ≤ (p.time - E) * sgn dt) :
    ∃ s, KernelLoop.exec1 K E dt fuel w b p = some s ∧ s.trace = [] ∧ (s.p = p ∨ s.p = { p with state := .success }) := by
  have hs : KernelLoop.skips E dt p := by
    refine ⟨Or.inl ?_, not_close hdt⟩
    rw [ne_eq, sgn_eq_of_ne_zero (ne_zero_of hdt)]
    have : (E - p.time) * sgn dt = -((p.time - E) * sgn dt) := by ring
    rw [this]
    linarith
  unfold KernelLoop.exec1
  simp only []
  rw [if_pos hs]
  refine ⟨_, rfl, rfl, ?_⟩
  dsimp only
  split
  · exact Or.inr rfl
  · exact Or.inl rfl

theorem exec1_run (f : Scheme V) (E dt : ℚ) (hdt : 1 / 100000000 < |dt|) (fuel : Nat) (w : Unit) (b : Option (Particle V)) (p : Particle V)
    (n : Nat) (hE : E = p.time + (n + 1) * dt) (hst : p.state = .evaluate) (hd : p.dt = dt) (s : LS Unit V)
    (h : KernelLoop.exec1 (kernel f) E dt fuel w b p = some s) : Arrives f dt (n + 1) E p s.p := by
  have hne := ne_zero_of hdt
  have hrest : E - p.time = ((n : ℚ) + 1) * dt := by rw [hE]; ring
  have hn0 : (0 : ℚ) ≤ n := Nat.cast_nonneg n
  have hmin : min |p.dt| |E - p.time| = |dt| := by
    rw [hd, hrest, abs_mul, abs_of_nonneg (by linarith : (0 : ℚ) ≤ (n : ℚ) + 1), min_eq_left]
    nlinarith [abs_nonneg dt]
  have hs : ¬ KernelLoop.skips E dt p := by
    rintro ⟨c | c, -⟩
    · exact c (by rw [hrest]; exact sgn_steps hne (by linarith))
    · rw [hmin, isclose_zero_iff, abs_abs] at c
      linarith
  unfold KernelLoop.exec1 at h
  simp only [] at h
  rw [if_neg hs] at h
  exact loop_sol f E dt hdt n fuel _ s hst hd rfl hmin hE h

/-! ### A pass over all particles -/

/-- A particle that is at or after `T`, or a whole number of steps before it. -/
def Fits (dt T : ℚ) (q : TP V) : Prop :=
  0 ≤ (q.2.time - T) * sgn dt ∨ ∃ n : ℕ, T = q.2.time + (n + 1) * dt

theorem trajectory_idle (f : Scheme V) {dt T : ℚ} (hdt : dt ≠ 0) (q : TP V) (h : 0 ≤ (q.2.time - T) * sgn dt) :
    trajectory f dt T q = some (core q) := by
  unfold trajectory
  split
  · rfl
  · rename_i c
    have h0 : (q.2.time - T) * sgn dt = 0 := le_antisymm (not_lt.mp c) h
    have hs : sgn dt ≠ 0 := fun e => by
      have := sgn_mul_self_of_ne hdt
      rw [e] at this
      norm_num at this
    have ht : q.2.time = T := by
      rcases mul_eq_zero.mp h0 with h1 | h1
      · linarith
      · exact absurd h1 hs
    rw [ht, sub_self, zero_div, Nat.floor_zero]
    simp [solution, core, ht]

theorem trajectory_steps (f : Scheme V) {dt T : ℚ} (hdt : dt ≠ 0) (q : TP V) (n : ℕ) (h : T = q.2.time + n * dt) :
    trajectory f dt T q = (solution f dt n q.2.time q.2.vars).map fun v => (q.1, T, v) := by
  unfold trajectory
  rw [if_neg]
  · congr 2
    rw [h, add_sub_cancel_left, mul_div_assoc, div_self hdt, mul_one, Nat.floor_natCast]
  · rw [not_lt, h, show q.2.time - (q.2.time + n * dt) = -(n * dt) by ring, neg_mul, mul_assoc, mul_sgn_self]
    have : (0 : ℚ) ≤ n * |dt| := by positivity
    linarith

/-- The first pass has done its work on a particle. -/
structure Ran (f : Scheme V) (dt T : ℚ) (q r : TP V) : Prop where
  tag : r.1 = q.1
  step : r.2.dt = dt
  good : ∀ c, trajectory f dt T q = some c → core r = c ∧ (r.2.state = .success ∨ r.2.state = .evaluate)
  bad : trajectory f dt T q = none → ∃ e : Exc, r.2.state = e.code

theorem ran_of (f : Scheme V) (dt T : ℚ) (hdt : 1 / 100000000 < |dt|) (fuel : Nat) (w : Unit) (b : Option (Particle V)) (i : Nat) (p : Particle V)
    (hst : p.state = .evaluate) (hd : p.dt = dt) (hf : Fits dt T (i, p)) (s : LS Unit V)
    (h : KernelLoop.exec1 (kernel f) T dt fuel w b p = some s) : Ran f dt T (i, p) (i, s.p) := by
  have hne := ne_zero_of hdt
  rcases hf with hf | ⟨n, hn⟩
  · obtain ⟨s', e1, -, e2⟩ := exec1_idle (kernel f) T dt hdt fuel w b p hf
    rw [e1] at h
    obtain rfl := Option.some.inj h
    have ht := trajectory_idle f hne (i, p) hf
    refine ⟨rfl, ?_, fun c hc => ?_, fun hc => ?_⟩
    · rcases e2 with e2 | e2 <;> rw [e2] <;> exact hd
    · rw [ht] at hc
      obtain rfl := Option.some.inj hc
      rcases e2 with e2 | e2 <;> rw [e2]
      · exact ⟨rfl, Or.inr hst⟩
      · exact ⟨rfl, Or.inl rfl⟩
    · rw [ht] at hc; cases hc
  · have ha := exec1_run f T dt hdt fuel w b p n hn hst hd s h
    have ht := trajectory_steps f (T := T) hne (i, p) (n + 1) (by rw [hn]; push_cast; ring)
    refine ⟨rfl, ?_, fun c hc => ?_, fun hc => ?_⟩
    · cases hs : solution f dt (n + 1) p.time p.vars with
      | none => obtain ⟨e, -, e2⟩ := ha.2 hs; exact e2
      | some v => rw [ha.1 v hs]
    · rw [ht] at hc
      cases hs : solution f dt (n + 1) p.time p.vars with
      | none => rw [hs] at hc; cases hc
      | some v =>
        rw [hs] at hc
        obtain rfl := Option.some.inj hc
        rw [ha.1 v hs]
        exact ⟨rfl, Or.inl rfl⟩
    · rw [ht, Option.map_eq_none_iff] at hc
      obtain ⟨e, e1, -⟩ := ha.2 hc
      exact ⟨e, e1⟩

theorem runPass_forall (K : Kern Unit V) (T dt : ℚ) (fuel : Nat) (R : TP V → TP V → Prop) (ps ps' : List (TP V)) (w w' : Unit) (cs)
    (hR : ∀ i p w b s, (i, p) ∈ ps → KernelLoop.exec1 K T dt fuel w b p = some s → R (i, p) (i, s.p))
    (h : Recovery.runPass K T dt fuel w ps = some (w', ps', cs)) : List.Forall₂ R ps ps' := by
  unfold Recovery.runPass at h
  split at h
  · cases h
  rename_i w1 b1 rs hp
  simp only [Option.some.injEq, Prod.mk.injEq] at h
  obtain ⟨-, h, -⟩ := h
  rw [← h]
  have h1 := KernelLoop.pass_forall₂ K T dt fuel (fun p r => ∃ w b s, KernelLoop.exec1 K T dt fuel w b p = some s ∧ r.1 = s.p)
    (fun w b p s hs => ⟨w, b, s, hs, rfl⟩) _ _ _ _ _ _ hp
  clear hp h
  induction ps generalizing rs with
  | nil => exact List.Forall₂.nil
  | cons q ps ih =>
    rw [List.map_cons] at h1
    cases h1 with
    | cons h2 h3 =>
      obtain ⟨w, b, s, e1, e2⟩ := h2
      refine List.Forall₂.cons ?_ (ih (fun i p w b s hm => hR i p w b s (List.mem_cons_of_mem _ hm)) _ h3)
      dsimp only
      rw [e2]
      exact hR q.1 q.2 w b s List.mem_cons_self e1

theorem ran_code {f : Scheme V} {dt T : ℚ} {q r : TP V} (h : Ran f dt T q r) :
    (Recovery.isError r.2 ↔ trajectory f dt T q = none) ∧ (Recovery.isError r.2 → ∃ e : Exc, r.2.state = e.code) ∧ r.2.state ≠ .delete := by
  cases ht : trajectory f dt T q with
  | none =>
    obtain ⟨e, he⟩ := h.bad ht
    obtain ⟨h1, h2, h3, -⟩ := exc_code e
    refine ⟨⟨fun _ => rfl, fun _ => ⟨?_, ?_⟩⟩, fun _ => ⟨e, he⟩, ?_⟩ <;> rw [he] <;> assumption
  | some c =>
    have := (h.good c ht).2
    have hn : ¬ Recovery.isError r.2 := by
      rintro ⟨h1, h2⟩
      rcases this with h3 | h3
      · exact h1 h3
      · exact h2 h3
    refine ⟨⟨fun h => absurd h hn, fun h => by cases h⟩, fun h => absurd h hn, ?_⟩
    rcases this with h3 | h3 <;> rw [h3] <;> decide

theorem filter_core {f : Scheme V} {dt T : ℚ} : ∀ {ps rs : List (TP V)}, List.Forall₂ (Ran f dt T) ps rs →
    (rs.filter fun r => decide (¬ Recovery.isError r.2)).map core = ps.filterMap (trajectory f dt T) := by
  intro ps rs h
  induction h with
  | nil => rfl
  | @cons q r ps rs h _ ih =>
    have hc := (ran_code h).1
    cases ht : trajectory f dt T q with
    | none =>
      rw [List.filter_cons_of_neg (by simpa using hc.mpr ht), List.filterMap_cons_none ht, ih]
    | some c =>
      have hn : ¬ Recovery.isError r.2 := fun h' => by have := hc.mp h'; rw [ht] at this; cases this
      rw [List.filter_cons_of_pos (by simpa using hn), List.filterMap_cons_some ht, List.map_cons, ih, (h.good c ht).1]

/-- What the recovery loop makes of the error particles when it deletes them. -/
def mark (q : TP V) : TP V := if Recovery.isError q.2 then (q.1, { q.2 with state := .delete }) else q

theorem handleAll_deletes {user : RMap Unit V} (hu : Deletes user) : ∀ (ps : List (TP V)) (w : Unit),
    (∀ q ∈ ps, Recovery.isError q.2 → ∃ e : Exc, q.2.state = e.code) →
    Recovery.handleAll (Recovery.recoveryMap user) w ps = .done w (ps.map mark)
  | [], _, _ => rfl
  | q :: ps, w, h => by
    have ih := handleAll_deletes hu ps w fun r hr => h r (List.mem_cons_of_mem _ hr)
    rw [Recovery.handleAll]
    by_cases hq : Recovery.isError q.2
    · obtain ⟨e, he⟩ := h q List.mem_cons_self hq
      obtain ⟨h1, h2, h3, h4, h5⟩ := exc_code e
      have hh : Recovery.handleOne (Recovery.recoveryMap user) w q.2 = .cont w { q.2 with state := .delete } := by
        unfold Recovery.handleOne
        rw [he, if_neg h5, if_neg h4, if_neg h2, hu e]
        simp
      rw [if_pos hq, hh]
      dsimp only
      rw [ih]
      simp [mark, hq]
    · rw [if_neg hq, ih]
      simp [mark, hq]

theorem handleAll_raises {user : RMap Unit V} (hu : Raises user) : ∀ (ps : List (TP V)) (w : Unit),
    (∀ q ∈ ps, Recovery.isError q.2 → ∃ e : Exc, q.2.state = e.code) → (∃ q ∈ ps, Recovery.isError q.2) →
    Recovery.handleAll (Recovery.recoveryMap user) w ps = .raised
  | [], _, _, h => by obtain ⟨q, hq, -⟩ := h; cases hq
  | q :: ps, w, h, hex => by
    rw [Recovery.handleAll]
    by_cases hq : Recovery.isError q.2
    · obtain ⟨e, he⟩ := h q List.mem_cons_self hq
      obtain ⟨h1, h2, h3, h4, h5⟩ := exc_code e
      obtain ⟨g, hg, hg'⟩ := hu e
      have hh : ∃ w', Recovery.handleOne (Recovery.recoveryMap user) w q.2 = .raised w' := by
        unfold Recovery.handleOne
        rw [he, if_neg h5, if_neg h4, if_neg h2, hg]
        simp only
        have := hg' w { q.2 with state := .success }
        rcases hgg : g w { q.2 with state := .success } with ⟨w', o⟩
        rw [hgg] at this
        subst this
        exact ⟨w', rfl⟩
      obtain ⟨w', hh⟩ := hh
      rw [if_pos hq, hh]
    · rw [if_neg hq]
      obtain ⟨r, hr, hr'⟩ := hex
      rcases List.mem_cons.mp hr with rfl | hr
      · exact absurd hr' hq
      · rw [handleAll_raises hu ps w (fun x hx => h x (List.mem_cons_of_mem _ hx)) ⟨r, hr, hr'⟩]

theorem kept_mark : ∀ (ps : List (TP V)), (∀ q ∈ ps, q.2.state ≠ .delete) →
    Recovery.kept (ps.map mark) = ps.filter fun r => decide (¬ Recovery.isError r.2)
  | [], _ => rfl
  | q :: ps, h => by
    have ih := kept_mark ps fun r hr => h r (List.mem_cons_of_mem _ hr)
    unfold Recovery.kept at ih ⊢
    rw [List.map_cons]
    by_cases hq : Recovery.isError q.2
    · rw [List.filter_cons_of_neg (by simp [mark, hq]), List.filter_cons_of_neg (by simpa using hq), ih]
    · have : mark q = q := by simp [mark, hq]
      rw [this, List.filter_cons_of_pos (by simpa using h q List.mem_cons_self), List.filter_cons_of_pos (by simpa using hq), ih]

theorem kept_all : ∀ (ps : List (TP V)), (∀ q ∈ ps, q.2.state ≠ .delete) → Recovery.kept ps = ps := by
  intro ps h
  unfold Recovery.kept
  rw [List.filter_eq_self]
  intro q hq
  simpa using h q hq

/-- What happens in the last pass, in which nothing is left to do. -/
def Rests (dt : ℚ) (q r : TP V) : Prop := core r = core q ∧ r.2.dt = q.2.dt ∧ (r.2.state = q.2.state ∨ r.2.state = .success)

theorem rests_core {dt : ℚ} : ∀ {ps rs : List (TP V)}, List.Forall₂ (Rests dt) ps rs → rs.map core = ps.map core := by
  intro ps rs h
  induction h with
  | nil => rfl
  | cons h _ ih => rw [List.map_cons, List.map_cons, ih, h.1]

theorem forall₂_right {α β : Type} {R : α → β → Prop} : ∀ {l : List α} {m : List β}, List.Forall₂ R l m → ∀ b ∈ m, ∃ a ∈ l, R a b := by
  intro l m h
  induction h with
  | nil => intro b hb; cases hb
  | @cons a b l m h _ ih =>
    intro c hc
    rcases List.mem_cons.mp hc with rfl | hc
    · exact ⟨a, List.mem_cons_self, h⟩
    · obtain ⟨x, hx, hx'⟩ := ih c hc
      exact ⟨x, List.mem_cons_of_mem _ hx, hx'⟩

theorem forall₂_left {α β : Type} {R : α → β → Prop} : ∀ {l : List α} {m : List β}, List.Forall₂ R l m → ∀ a ∈ l, ∃ b ∈ m, R a b := by
  intro l m h
  induction h with
  | nil => intro b hb; cases hb
  | @cons a b l m h _ ih =>
    intro c hc
    rcases List.mem_cons.mp hc with rfl | hc
    · exact ⟨b, List.mem_cons_self, h⟩
    · obtain ⟨x, hx, hx'⟩ := ih c hc
      exact ⟨x, List.mem_cons_of_mem _ hx, hx'⟩

/-- The effect of `Kernel.execute` on the particles. -/
structure Effect (user : RMap Unit V) (f : Scheme V) (dt T : ℚ) (ps : List (TP V)) (e : Recovery.Ending) (ps' : List (TP V)) : Prop where
  good : Deletes user ∨ (∀ q ∈ ps, (trajectory f dt T q).isSome) →
    e = .normal ∧ ps'.map core = ps.filterMap (trajectory f dt T) ∧ ∀ q ∈ ps', q.2.dt = dt
  bad : Raises user → (∃ q ∈ ps, trajectory f dt T q = none) → e = .raised

/-- After the first pass. -/
theorem ran_facts {f : Scheme V} {dt T : ℚ} {ps rs : List (TP V)} (h : List.Forall₂ (Ran f dt T) ps rs) :
    (∀ q ∈ rs, q.2.state ≠ .delete) ∧ (∀ q ∈ rs, Recovery.isError q.2 → ∃ e : Exc, q.2.state = e.code) ∧ (∀ q ∈ rs, q.2.dt = dt) ∧
    ((∃ q ∈ rs, Recovery.isError q.2) ↔ ∃ q ∈ ps, trajectory f dt T q = none) := by
  refine ⟨fun q hq => ?_, fun q hq => ?_, fun q hq => ?_, fun ⟨q, hq, hq'⟩ => ?_, fun ⟨q, hq, hq'⟩ => ?_⟩
  · obtain ⟨a, -, ha⟩ := forall₂_right h q hq
    exact (ran_code ha).2.2
  · obtain ⟨a, -, ha⟩ := forall₂_right h q hq
    exact (ran_code ha).2.1
  · obtain ⟨a, -, ha⟩ := forall₂_right h q hq
    exact ha.step
  · obtain ⟨a, h1, ha⟩ := forall₂_right h q hq
    exact ⟨a, h1, (ran_code ha).1.mp hq'⟩
  · obtain ⟨a, h1, ha⟩ := forall₂_left h q hq
    exact ⟨a, h1, (ran_code ha).1.mpr hq'⟩

/-- After the first pass, particles without error are at or after `T`. -/
theorem ran_after {f : Scheme V} {dt T : ℚ} (hdt : dt ≠ 0) {q r : TP V} (h : Ran f dt T q r) (hf : Fits dt T q) (he : ¬ Recovery.isError r.2) :
    0 ≤ (r.2.time - T) * sgn dt := by
  have hc := (ran_code h).1
  cases ht : trajectory f dt T q with
  | none => exact absurd (hc.mpr ht) he
  | some c =>
    obtain ⟨h1, -⟩ := h.good c ht
    rcases hf with hf | ⟨n, hn⟩
    · rw [trajectory_idle f hdt q hf] at ht
      obtain rfl := Option.some.inj ht
      have : r.2.time = q.2.time := by simpa [core] using congrArg (fun x => x.2.1) h1
      rw [this]
      exact hf
    · rw [trajectory_steps f hdt q (n + 1) (T := T) (by rw [hn]; push_cast; ring)] at ht
      cases hs : solution f dt (n + 1) q.2.time q.2.vars with
      | none => rw [hs] at ht; cases ht
      | some v =>
        rw [hs] at ht
        obtain rfl := Option.some.inj ht
        have : r.2.time = T := by simpa [core] using congrArg (fun x => x.2.1) h1
        rw [this, sub_self, zero_mul]

theorem ready {dt T : ℚ} {ps : List (TP V)} (h : ∀ q ∈ ps, q.2.dt = dt ∧ Fits dt T q) :
    ∀ q ∈ ps.map (fun q : TP V => (q.1, { q.2 with state := Code.evaluate })), q.2.state = .evaluate ∧ q.2.dt = dt ∧ Fits dt T q := by
  intro q hq
  obtain ⟨r, hr, rfl⟩ := List.mem_map.mp hq
  exact ⟨rfl, h r hr⟩

theorem trajectory_state (f : Scheme V) (dt T : ℚ) (q : TP V) (c : Code) : trajectory f dt T (q.1, { q.2 with state := c }) = trajectory f dt T q := rfl

theorem filterMap_state (f : Scheme V) (dt T : ℚ) (ps : List (TP V)) :
    (ps.map (fun q : TP V => (q.1, { q.2 with state := Code.evaluate }))).filterMap (trajectory f dt T) = ps.filterMap (trajectory f dt T) := by
  rw [List.filterMap_map]
  rfl

theorem exists_state (f : Scheme V) (dt T : ℚ) (ps : List (TP V)) :
    (∃ q ∈ ps.map (fun q : TP V => (q.1, { q.2 with state := Code.evaluate })), trajectory f dt T q = none) ↔ ∃ q ∈ ps, trajectory f dt T q = none := by
  constructor
  · rintro ⟨q, hq, h⟩
    obtain ⟨r, hr, rfl⟩ := List.mem_map.mp hq
    exact ⟨r, hr, h⟩
  · rintro ⟨q, hq, h⟩
    exact ⟨_, List.mem_map_of_mem hq, h⟩

theorem scipy_effect (f : Scheme V) (user : RMap Unit V) (dt T : ℚ) (hdt : 1 / 100000000 < |dt|) (fuel nRounds : Nat) (ps ps' : List (TP V))
    (e : Recovery.Ending) (hps : ∀ q ∈ ps, q.2.dt = dt ∧ Fits dt T q)
    (h : scipyExec (kernel f) user fuel nRounds T dt ps = some (e, ps')) : Effect user f dt T ps e ps' := by
  have hne := ne_zero_of hdt
  unfold scipyExec at h
  rw [Option.map_eq_some_iff] at h
  obtain ⟨r, h, hr⟩ := h
  obtain ⟨rfl, rfl⟩ := Prod.mk.inj hr
  unfold Recovery.execute at h
  split at h
  · cases h
  rename_i w1 ps1 cs hp1
  have hready := ready hps
  have hran : List.Forall₂ (Ran f dt T) _ ps1 := runPass_forall (kernel f) T dt fuel (Ran f dt T) _ ps1 () w1 cs
    (fun i p w b s hm hs => ran_of f dt T hdt fuel w b i p (hready _ hm).1 (hready _ hm).2.1 (hready _ hm).2.2 s hs) hp1
  obtain ⟨k1, k2, k3, k4⟩ := ran_facts hran
  rw [exists_state] at k4
  have kf := filter_core hran
  rw [filterMap_state] at kf
  rw [kept_all ps1 k1] at h
  cases nRounds with
  | zero => cases h
  | succ m =>
    rw [Recovery.rounds] at h
    by_cases herr : ∃ q ∈ ps1, Recovery.isError q.2
    · have hany : (ps1.any fun p => decide (Recovery.isError p.2)) = true := by
        obtain ⟨q, hq, hq'⟩ := herr
        exact List.any_eq_true.mpr ⟨q, hq, by simpa using hq'⟩
      rw [if_pos hany] at h
      refine ⟨fun hu => ?_, fun hu _ => ?_⟩
      · rcases hu with hu | hu
        · rw [handleAll_deletes hu ps1 w1 k2] at h
          dsimp only at h
          rw [kept_mark ps1 k1] at h
          split at h
          · cases h
          rename_i w2 ps2 cs2 hp2
          have hrest : List.Forall₂ (Rests dt) _ ps2 := runPass_forall (kernel f) T dt fuel (Rests dt) _ ps2 w1 w2 cs2
            (fun i p w b s hm hs => by
              rw [List.mem_filter] at hm
              obtain ⟨hm1, hm2⟩ := hm
              obtain ⟨a, ha1, ha2⟩ := forall₂_right hran _ hm1
              have hge := ran_after hne ha2 (hready a ha1).2.2 (by simpa using hm2)
              obtain ⟨s', e1, -, e2⟩ := exec1_idle (kernel f) T dt hdt fuel w b p hge
              rw [e1] at hs
              obtain rfl := Option.some.inj hs
              rcases e2 with e2 | e2 <;> rw [e2]
              · exact ⟨rfl, rfl, Or.inl rfl⟩
              · exact ⟨rfl, rfl, Or.inr rfl⟩) hp2
          have hno : ∀ q ∈ ps2, ¬ Recovery.isError q.2 := by
            intro q hq
            obtain ⟨a, ha1, ha2⟩ := forall₂_right hrest q hq
            rw [List.mem_filter] at ha1
            have hna : ¬ Recovery.isError a.2 := by simpa using ha1.2
            rintro ⟨x1, x2⟩
            rcases ha2.2.2 with e | e
            · exact hna ⟨by rw [← e]; exact x1, by rw [← e]; exact x2⟩
            · exact x1 e
          have hdts : ∀ q ∈ ps2, q.2.dt = dt := by
            intro q hq
            obtain ⟨a, ha1, ha2⟩ := forall₂_right hrest q hq
            rw [ha2.2.1]
            exact k3 a (List.mem_filter.mp ha1).1
          cases m with
          | zero => cases h
          | succ m =>
            rw [Recovery.rounds, if_neg] at h
            · obtain rfl := Option.some.inj h
              exact ⟨rfl, by rw [rests_core hrest, kf], hdts⟩
            · rw [List.any_eq_true]
              rintro ⟨q, hq, hq'⟩
              exact hno q hq (by simpa using hq')
        · obtain ⟨q, hq, hq'⟩ := k4.mp herr
          have := hu q hq
          rw [hq'] at this
          cases this
      · rw [handleAll_raises hu ps1 w1 k2 herr] at h
        obtain rfl := Option.some.inj h
        rfl
    · rw [if_neg] at h
      · obtain rfl := Option.some.inj h
        refine ⟨fun _ => ⟨rfl, ?_, k3⟩, fun _ hx => absurd (k4.mpr hx) herr⟩
        rw [← kf, List.filter_eq_self.mpr]
        intro q hq
        simp only [decide_eq_true_eq]
        exact fun hq' => herr ⟨q, hq, hq'⟩
      · rw [List.any_eq_true]
        rintro ⟨q, hq, hq'⟩
        exact herr ⟨q, hq, by simpa using hq'⟩

/-! ### JIT mode -/

theorem kernel_steady (f : Scheme V) : JitLoop.Steady (kernel f) := by
  intro w p
  unfold kernel
  dsimp only
  split <;> exact ⟨Or.inl rfl, fun h => absurd rfl h⟩

theorem jpass_none (K : Kern Unit V) (hK : ∀ w p, (K w p).2.nextDt = none) (E dt : ℚ) (fuel : Nat) :
    ∀ (ps : List (Particle V)) (w w' : Unit) (g' : Option ℚ) (rs), JitLoop.pass K E dt fuel w none ps = some (w', g', rs) → g' = none := by
  intro ps
  induction ps with
  | nil => intro w w' g' rs h; simp only [JitLoop.pass, Option.some.injEq, Prod.mk.injEq] at h; exact h.2.1.symm
  | cons p ps ih =>
    intro w w' g' rs h
    rw [JitLoop.pass] at h
    split at h
    · cases h
    · rename_i s hs
      split at h
      · cases h
      · rename_i w2 b2 rs2 h2
        cases h
        rw [JitLoop.jexec1_none K hK E dt fuel w p s hs] at h2
        exact ih _ _ _ _ h2

theorem kernel_next (f : Scheme V) (w : Unit) (p : Particle V) : (kernel f w p).2.nextDt = none := by
  unfold kernel
  dsimp only
  split <;> rfl

theorem jrunPass (f : Scheme V) (dt T : ℚ) (hdt : 1 / 100000000 < |dt|) (fuel : Nat) (ps ps' : List (TP V)) (w : Unit) (w' : Unit × Option ℚ)
    (hps : ∀ q ∈ ps, q.2.dt ≠ 0) (h : JitExec.runPass (kernel f) id T dt fuel (w, none) ps = some (w', ps')) :
    w'.2 = none ∧ ∃ cs, Recovery.runPass (kernel f) T dt (fuel + 1) w ps = some ((), ps', cs) := by
  unfold JitExec.runPass at h
  split at h
  · cases h
  rename_i w1 g1 rs hp
  simp only [Option.some.injEq, Prod.mk.injEq] at h
  obtain ⟨rfl, rfl⟩ := h
  refine ⟨jpass_none _ (kernel_next f) T dt fuel _ _ _ _ _ hp, ?_⟩
  obtain ⟨b, hb⟩ := JitLoop.pass_same_conv (kernel f) (kernel_steady f) T dt (not_close hdt) fuel _ _ _ none _ _
    (fun p hp => by obtain ⟨q, hq, rfl⟩ := List.mem_map.mp hp; exact hps q hq) hp
  unfold Recovery.runPass
  rw [show w = id w from rfl, hb]
  exact ⟨_, rfl⟩

theorem jit_effect (f : Scheme V) (user : RMap Unit V) (dt T : ℚ) (hdt : 1 / 100000000 < |dt|) (fuel nRounds : Nat) (ps ps' : List (TP V))
    (e : Recovery.Ending) (hps : ∀ q ∈ ps, q.2.dt = dt ∧ Fits dt T q)
    (h : jitExec (kernel f) user fuel nRounds T dt ps = some (e, ps')) : Effect user f dt T ps e ps' := by
  have hne := ne_zero_of hdt
  unfold jitExec at h
  rw [Option.map_eq_some_iff] at h
  obtain ⟨r, h, hr⟩ := h
  obtain ⟨rfl, rfl⟩ := Prod.mk.inj hr
  unfold JitExec.execute at h
  split at h
  · cases h
  rename_i w1 ps1 hp1
  have hready := ready hps
  obtain ⟨hw1, cs, hp1⟩ := jrunPass f dt T hdt fuel _ ps1 () w1 (fun q hq => by rw [(hready q hq).2.1]; exact hne) hp1
  have hran : List.Forall₂ (Ran f dt T) _ ps1 := runPass_forall (kernel f) T dt (fuel + 1) (Ran f dt T) _ ps1 () () cs
    (fun i p w b s hm hs => ran_of f dt T hdt (fuel + 1) w b i p (hready _ hm).1 (hready _ hm).2.1 (hready _ hm).2.2 s hs) hp1
  obtain ⟨k1, k2, k3, k4⟩ := ran_facts hran
  rw [exists_state] at k4
  have kf := filter_core hran
  rw [filterMap_state] at kf
  rw [kept_all ps1 k1] at h
  cases nRounds with
  | zero => cases h
  | succ m =>
    rw [JitExec.rounds] at h
    by_cases herr : ∃ q ∈ ps1, Recovery.isError q.2
    · have hany : (ps1.any fun p => decide (Recovery.isError p.2)) = true := by
        obtain ⟨q, hq, hq'⟩ := herr
        exact List.any_eq_true.mpr ⟨q, hq, by simpa using hq'⟩
      rw [if_pos hany] at h
      refine ⟨fun hu => ?_, fun hu _ => ?_⟩
      · rcases hu with hu | hu
        · rw [handleAll_deletes hu ps1 w1.1 k2] at h
          dsimp only at h
          rw [kept_mark ps1 k1] at h
          split at h
          · cases h
          rename_i w2 ps2 hp2
          rw [hw1] at hp2
          obtain ⟨-, cs2, hp2⟩ := jrunPass f dt T hdt fuel _ ps2 w1.1 w2 (fun q hq => by rw [k3 q (List.mem_filter.mp hq).1]; exact hne) hp2
          have hrest : List.Forall₂ (Rests dt) _ ps2 := runPass_forall (kernel f) T dt (fuel + 1) (Rests dt) _ ps2 w1.1 () cs2
            (fun i p w b s hm hs => by
              rw [List.mem_filter] at hm
              obtain ⟨hm1, hm2⟩ := hm
              obtain ⟨a, ha1, ha2⟩ := forall₂_right hran _ hm1
              have hge := ran_after hne ha2 (hready a ha1).2.2 (by simpa using hm2)
              obtain ⟨s', e1, -, e2⟩ := exec1_idle (kernel f) T dt hdt (fuel + 1) w b p hge
              rw [e1] at hs
              obtain rfl := Option.some.inj hs
              rcases e2 with e2 | e2 <;> rw [e2]
              · exact ⟨rfl, rfl, Or.inl rfl⟩
              · exact ⟨rfl, rfl, Or.inr rfl⟩) hp2
          have hno : ∀ q ∈ ps2, ¬ Recovery.isError q.2 := by
            intro q hq
            obtain ⟨a, ha1, ha2⟩ := forall₂_right hrest q hq
            rw [List.mem_filter] at ha1
            have hna : ¬ Recovery.isError a.2 := by simpa using ha1.2
            rintro ⟨x1, x2⟩
            rcases ha2.2.2 with e | e
            · exact hna ⟨by rw [← e]; exact x1, by rw [← e]; exact x2⟩
            · exact x1 e
          have hdts : ∀ q ∈ ps2, q.2.dt = dt := by
            intro q hq
            obtain ⟨a, ha1, ha2⟩ := forall₂_right hrest q hq
            rw [ha2.2.1]
            exact k3 a (List.mem_filter.mp ha1).1
          cases m with
          | zero => cases h
          | succ m =>
            rw [JitExec.rounds, if_neg] at h
            · obtain rfl := Option.some.inj h
              exact ⟨rfl, by rw [rests_core hrest, kf], hdts⟩
            · rw [List.any_eq_true]
              rintro ⟨q, hq, hq'⟩
              exact hno q hq (by simpa using hq')
        · obtain ⟨q, hq, hq'⟩ := k4.mp herr
          have := hu q hq
          rw [hq'] at this
          cases this
      · rw [handleAll_raises hu ps1 w1.1 k2 herr] at h
        obtain rfl := Option.some.inj h
        rfl
    · rw [if_neg] at h
      · obtain rfl := Option.some.inj h
        refine ⟨fun _ => ⟨rfl, ?_, k3⟩, fun _ hx => absurd (k4.mpr hx) herr⟩
        rw [← kf, List.filter_eq_self.mpr]
        intro q hq
        simp only [decide_eq_true_eq]
        exact fun hq' => herr ⟨q, hq, hq'⟩
      · rw [List.any_eq_true]
        rintro ⟨q, hq, hq'⟩
        exact herr ⟨q, hq, by simpa using hq'⟩

end Parcels.WholeRun
