import Verif.Spec.RandomRun
import Verif.Proofs.WholeRun4

namespace Parcels.RandomRun

open KernelLoop (Particle Kern Exc LS)
open Recovery (TP RMap)
open WholeRun (not_close ne_zero_of sgn_abs mul_sgn_self sgn_steps exc_code resolve_ok core Fits mark kept_mark kept_all)

variable {W V : Type}

/-! ### One particle -/

theorem step_world (K : Kern W V) (E dt : ℚ) (s : LS W V) : (KernelLoop.step K E dt s).1.w = (K s.w (KernelLoop.preAt dt s)).1 := by
  unfold KernelLoop.step KernelLoop.preAt
  dsimp only
  split <;> rfl

theorem step_walk (f : Scheme W V) (E dt : ℚ) (hdt : 1 / 100000000 < |dt|) (s : LS W V) (hd : s.p.dt = dt)
    (hn : s.nextDt = none) (hp : s.dtPos = |dt|) (n : Nat) (hE : E = s.p.time + (n + 1) * dt) :
    (∀ w v, f s.w s.p.time dt s.p.vars = (w, .ok v) → ∃ s', KernelLoop.step (kernel f) E dt s = (s', false) ∧ s'.w = w ∧
      s'.p = ⟨s.p.time + dt, dt, if n = 0 then .success else .evaluate, v⟩ ∧ s'.nextDt = none ∧ (n ≠ 0 → s'.dtPos = |dt|)) ∧
    (∀ w e, f s.w s.p.time dt s.p.vars = (w, .error e) → ∃ s', KernelLoop.step (kernel f) E dt s = (s', true) ∧ s'.w = w ∧
      s'.p = ⟨s.p.time, dt, e.code, s.p.vars⟩) := by
  have hne := ne_zero_of hdt
  have hpre : KernelLoop.preAt dt s = s.p := by
    obtain ⟨w, ⟨t, d, st, v⟩, dp, nd, b, tr⟩ := s
    simp only at hd hp
    simp only [KernelLoop.preAt, hp, sgn_abs, hd]
  have hw : (KernelLoop.step (kernel f) E dt s).1.w = (f s.w s.p.time dt s.p.vars).1 := by
    rw [step_world, hpre]
    simp only [kernel, hd]
  constructor
  · intro w v hv
    have ho : KernelLoop.outAt (kernel f) dt s = ⟨{ s.p with vars := v }, none, .ret none⟩ := by
      simp only [KernelLoop.outAt, hpre, kernel, hd, hv]
    have hc : KernelLoop.codeAt (kernel f) dt s = .success := by
      simp only [KernelLoop.codeAt, ho, hpre]
      exact resolve_ok _ _
    have hrest : E - (s.p.time + dt) = n * dt := by rw [hE]; ring
    have key := KernelLoop.step_commit (kernel f) E dt s (Or.inl hc) ho (time' := s.p.time + dt) (dt' := dt)
      (dtPos := min |dt| |E - (s.p.time + dt)|) (st := if n = 0 then .success else .evaluate) (by rw [hd]) (by simp [hn, hd]) rfl (by
        rw [hc, hrest]
        by_cases h0 : n = 0
        · subst h0
          rw [if_pos rfl, if_neg]
          rintro ⟨-, h, -⟩
          apply h
          simp [JitLoop.isclose_self]
        · rw [if_neg h0, if_pos]
          have hn1 : (1 : ℚ) ≤ n := by exact_mod_cast Nat.one_le_iff_ne_zero.mpr h0
          refine ⟨by decide, ?_, sgn_steps hne (by linarith)⟩
          rw [isclose_zero_iff, not_le, abs_of_nonneg (le_min (abs_nonneg _) (abs_nonneg _)), lt_min_iff, abs_mul, Nat.abs_cast]
          exact ⟨hdt, by nlinarith [abs_nonneg dt]⟩)
    rw [not_close hdt] at key
    rw [key, hv] at hw
    refine ⟨_, key, hw, by simp, rfl, fun h0 => ?_⟩
    have hn1 : (1 : ℚ) ≤ n := by exact_mod_cast Nat.one_le_iff_ne_zero.mpr h0
    simp only [hrest]
    rw [if_neg (by rw [not_not]; exact sgn_steps hne (by linarith)), abs_mul, Nat.abs_cast, min_eq_left]
    nlinarith [abs_nonneg dt]
  · intro w e he
    have ho : KernelLoop.outAt (kernel f) dt s = ⟨s.p, none, .exc e⟩ := by
      simp only [KernelLoop.outAt, hpre, kernel, hd, he]
    have hc : KernelLoop.codeAt (kernel f) dt s = e.code := by
      simp only [KernelLoop.codeAt, ho, KernelLoop.resolve]
    obtain ⟨h1, h2, h3⟩ := exc_code e
    obtain ⟨k1, -, -, -, -, k2⟩ := KernelLoop.step_fail (kernel f) E dt s (by rw [hc]; rintro (h | h); exacts [h1 h, h2 h])
    refine ⟨(KernelLoop.step (kernel f) E dt s).1, Prod.ext rfl k1, by rw [hw, he], ?_⟩
    rw [k2, ho, hc, ← hd]

/-- The result of a run to `E`, for a particle with at least one step to go. -/
def Arrives (f : Scheme W V) (dt : ℚ) (n : Nat) (E : ℚ) (w : W) (p : Particle V) (w' : W) (q : Particle V) : Prop :=
  (walk f dt n p.time w p.vars).1 = w' ∧
  (∀ v, (walk f dt n p.time w p.vars).2 = some v → q = ⟨E, dt, .success, v⟩) ∧
  ((walk f dt n p.time w p.vars).2 = none → ∃ t v, ∃ e : Exc, fault f dt n p.time w p.vars = some (t, v, e) ∧ q = ⟨t, dt, e.code, v⟩)

theorem loop_walk (f : Scheme W V) (E dt : ℚ) (hdt : 1 / 100000000 < |dt|) : ∀ (n fuel : Nat) (s s' : LS W V), s.p.state = .evaluate → s.p.dt = dt →
    s.nextDt = none → s.dtPos = |dt| → E = s.p.time + (n + 1) * dt → KernelLoop.loop (kernel f) E dt fuel s = some s' →
    Arrives f dt (n + 1) E s.w s.p s'.w s'.p := by
  intro n
  induction n with
  | zero =>
    intro fuel s s' hst hd hn hp hE h
    obtain ⟨k1, k2⟩ := step_walk f E dt hdt s hd hn hp 0 (by simpa using hE)
    cases fuel with
    | zero => cases h
    | succ fuel =>
      rw [KernelLoop.loop, if_pos (show KernelLoop.cond dt s from Or.inl hst)] at h
      rcases hf : f s.w s.p.time dt s.p.vars with ⟨w, v | v⟩
      · obtain ⟨s1, e1, e0, e2⟩ := k2 w v hf
        rw [e1] at h
        obtain rfl := Option.some.inj h
        refine ⟨by simp [walk, hf, e0], fun v' hv' => ?_, fun _ => ⟨_, _, v, by simp only [fault, hf], e2⟩⟩
        simp [walk, hf] at hv'
      · obtain ⟨s1, e1, e0, e2, -, -⟩ := k1 w v hf
        rw [e1] at h
        simp only at h
        have hs' : s' = s1 := by
          cases fuel with
          | zero => cases h
          | succ fuel =>
            rw [KernelLoop.loop, if_neg] at h
            · exact (Option.some.inj h).symm
            · rintro (c | c | c)
              · rw [e2] at c; simp at c
              · rw [e2] at c; simp at c
              · rw [not_close hdt] at c; cases c
        subst hs'
        refine ⟨by simp [walk, hf, e0], fun v' hv' => ?_, fun hv' => ?_⟩
        · simp only [walk, hf, Option.some.injEq] at hv'
          rw [e2, hv', hE]
          simp
        · simp [walk, hf] at hv'
  | succ n ih =>
    intro fuel s s' hst hd hn hp hE h
    obtain ⟨k1, k2⟩ := step_walk f E dt hdt s hd hn hp (n + 1) (by rw [hE])
    cases fuel with
    | zero => cases h
    | succ fuel =>
      rw [KernelLoop.loop, if_pos (show KernelLoop.cond dt s from Or.inl hst)] at h
      rcases hf : f s.w s.p.time dt s.p.vars with ⟨w, v | v⟩
      · obtain ⟨s1, e1, e0, e2⟩ := k2 w v hf
        rw [e1] at h
        obtain rfl := Option.some.inj h
        refine ⟨by simp [walk, hf, e0], fun v' hv' => ?_, fun _ => ⟨_, _, v, by simp only [fault, hf], e2⟩⟩
        simp [walk, hf] at hv'
      · obtain ⟨s1, e1, e0, e2, e3, e4⟩ := k1 w v hf
        rw [e1] at h
        simp only at h
        have := ih fuel s1 s' (by rw [e2]; simp) (by rw [e2]) e3 (e4 (by omega)) (by rw [e2, hE]; push_cast; ring) h
        unfold Arrives at this ⊢
        rw [e2, e0] at this
        simp only at this
        rw [walk, fault, hf]
        exact this

/-- A particle that has nothing to do until `E` keeps everything but perhaps its state, and nothing is drawn. -/
theorem exec1_idle (K : Kern W V) (E dt : ℚ) (hdt : 1 / 100000000 < |dt|) (fuel : Nat) (w : W) (b : Option (Particle V)) (p : Particle V)
    (h : 0 ≤ (p.time - E) * sgn dt) :
    ∃ s, KernelLoop.exec1 K E dt fuel w b p = some s ∧ s.w = w ∧ (s.p = p ∨ s.p = { p with state := .success }) := by
  have hs : KernelLoop.skips E dt p := by
    refine ⟨Or.inl ?_, not_close hdt⟩
    rw [ne_eq, sgn_eq_of_ne_zero (ne_zero_of hdt)]
    have : (E - p.time) * sgn dt = -((p.time - E) * sgn dt) := by ring
    rw [this]
    linarith
  unfold KernelLoop.exec1
  simp only []
  rw [if_pos hs]
  refine ⟨_, rfl, rfl, ?_⟩
  dsimp only
  split
  · exact Or.inr rfl
  · exact Or.inl rfl

theorem exec1_run (f : Scheme W V) (E dt : ℚ) (hdt : 1 / 100000000 < |dt|) (fuel : Nat) (w : W) (b : Option (Particle V)) (p : Particle V)
    (n : Nat) (hE : E = p.time + (n + 1) * dt) (hst : p.state = .evaluate) (hd : p.dt = dt) (s : LS W V)
    (h : KernelLoop.exec1 (kernel f) E dt fuel w b p = some s) : Arrives f dt (n + 1) E w p s.w s.p := by
  have hne := ne_zero_of hdt
  have hrest : E - p.time = ((n : ℚ) + 1) * dt := by rw [hE]; ring
  have hn0 : (0 : ℚ) ≤ n := Nat.cast_nonneg n
  have hmin : min |p.dt| |E - p.time| = |dt| := by
    rw [hd, hrest, abs_mul, abs_of_nonneg (by linarith : (0 : ℚ) ≤ (n : ℚ) + 1), min_eq_left]
    nlinarith [abs_nonneg dt]
  have hs : ¬ KernelLoop.skips E dt p := by
    rintro ⟨c | c, -⟩
    · exact c (by rw [hrest]; exact sgn_steps hne (by linarith))
    · rw [hmin, isclose_zero_iff, abs_abs] at c
      linarith
  unfold KernelLoop.exec1 at h
  simp only [] at h
  rw [if_neg hs] at h
  exact loop_walk f E dt hdt n fuel _ s hst hd rfl hmin hE h

theorem visit_idle (f : Scheme W V) {dt T : ℚ} (hdt : dt ≠ 0) (w : W) (c : Nat × ℚ × V) (h : 0 ≤ (c.2.1 - T) * sgn dt) :
    visit f dt T w c = (w, some c) := by
  unfold visit
  split
  · rfl
  · rename_i c'
    have h0 : (c.2.1 - T) * sgn dt = 0 := le_antisymm (not_lt.mp c') h
    have hs : sgn dt ≠ 0 := fun e => by
      have := sgn_mul_self_of_ne hdt
      rw [e] at this
      norm_num at this
    have ht : c.2.1 = T := by
      rcases mul_eq_zero.mp h0 with h1 | h1
      · linarith
      · exact absurd h1 hs
    rw [ht, sub_self, zero_div, Nat.floor_zero]
    simp only [walk, Option.map_some, ← ht]

theorem visit_steps (f : Scheme W V) {dt T : ℚ} (hdt : dt ≠ 0) (w : W) (c : Nat × ℚ × V) (n : ℕ) (h : T = c.2.1 + n * dt) :
    visit f dt T w c = ((walk f dt n c.2.1 w c.2.2).1, (walk f dt n c.2.1 w c.2.2).2.map fun v => (c.1, T, v)) := by
  unfold visit
  rw [if_neg]
  · have : ⌊(T - c.2.1) / dt⌋₊ = n := by rw [h, add_sub_cancel_left, mul_div_assoc, div_self hdt, mul_one, Nat.floor_natCast]
    rw [this]
  · rw [not_lt, h, show c.2.1 - (c.2.1 + n * dt) = -(n * dt) by ring, neg_mul, mul_assoc, mul_sgn_self]
    have : (0 : ℚ) ≤ n * |dt| := by positivity
    linarith

/-! ### A pass over all particles -/

/-- Where a particle that is taken to time `T` fails. -/
def visitFault (f : Scheme W V) (dt T : ℚ) (w : W) (c : Nat × ℚ × V) : Option (ℚ × V × Exc) :=
  if 0 < (c.2.1 - T) * sgn dt then none else fault f dt ⌊(T - c.2.1) / dt⌋₊ c.2.1 w c.2.2

theorem visitFault_steps (f : Scheme W V) {dt T : ℚ} (hdt : dt ≠ 0) (w : W) (c : Nat × ℚ × V) (n : ℕ) (h : T = c.2.1 + n * dt) :
    visitFault f dt T w c = fault f dt n c.2.1 w c.2.2 := by
  unfold visitFault
  rw [if_neg]
  · have : ⌊(T - c.2.1) / dt⌋₊ = n := by rw [h, add_sub_cancel_left, mul_div_assoc, div_self hdt, mul_one, Nat.floor_natCast]
    rw [this]
  · rw [not_lt, h, show c.2.1 - (c.2.1 + n * dt) = -(n * dt) by ring, neg_mul, mul_assoc, mul_sgn_self]
    have : (0 : ℚ) ≤ n * |dt| := by positivity
    linarith

/-- The first pass has done its work on a particle, for which `c` should be the result, or `d` the error. -/
structure Ran (dt : ℚ) (c : Option (Nat × ℚ × V)) (d : Option (ℚ × V × Exc)) (q r : TP V) : Prop where
  tag : r.1 = q.1
  step : r.2.dt = dt
  good : ∀ x, c = some x → core r = x ∧ (r.2.state = .success ∨ r.2.state = .evaluate)
  bad : c = none → ∃ t v, ∃ e : Exc, d = some (t, v, e) ∧ r.2 = ⟨t, dt, e.code, v⟩

theorem ran_of (f : Scheme W V) (dt T : ℚ) (hdt : 1 / 100000000 < |dt|) (fuel : Nat) (w : W) (b : Option (Particle V)) (i : Nat) (p : Particle V)
    (hst : p.state = .evaluate) (hd : p.dt = dt) (hf : Fits dt T (i, p)) (s : LS W V)
    (h : KernelLoop.exec1 (kernel f) T dt fuel w b p = some s) :
    s.w = (visit f dt T w (core (i, p))).1 ∧ Ran dt (visit f dt T w (core (i, p))).2 (visitFault f dt T w (core (i, p))) (i, p) (i, s.p) := by
  have hne := ne_zero_of hdt
  rcases hf with hf | ⟨n, hn⟩
  · obtain ⟨s', e1, e3, e2⟩ := exec1_idle (kernel f) T dt hdt fuel w b p hf
    rw [e1] at h
    obtain rfl := Option.some.inj h
    rw [visit_idle f hne w (core (i, p)) hf]
    refine ⟨e3, rfl, ?_, fun c hc => ?_, fun hc => by cases hc⟩
    · rcases e2 with e2 | e2 <;> rw [e2] <;> exact hd
    · obtain rfl := Option.some.inj hc
      rcases e2 with e2 | e2 <;> rw [e2]
      · exact ⟨rfl, Or.inr hst⟩
      · exact ⟨rfl, Or.inl rfl⟩
  · obtain ⟨a1, a2, a3⟩ := exec1_run f T dt hdt fuel w b p n hn hst hd s h
    rw [visit_steps f (T := T) hne w (core (i, p)) (n + 1) (by show T = p.time + _; rw [hn]; push_cast; ring),
      visitFault_steps f (T := T) hne w (core (i, p)) (n + 1) (by show T = p.time + _; rw [hn]; push_cast; ring)]
    dsimp only [core]
    refine ⟨a1.symm, rfl, ?_, fun c hc => ?_, fun hc => ?_⟩
    · cases hs : (walk f dt (n + 1) p.time w p.vars).2 with
      | none => obtain ⟨t, v, e, -, e2⟩ := a3 hs; rw [e2]
      | some v => rw [a2 v hs]
    · cases hs : (walk f dt (n + 1) p.time w p.vars).2 with
      | none => rw [hs] at hc; cases hc
      | some v =>
        rw [hs] at hc
        obtain rfl := Option.some.inj hc
        rw [a2 v hs]
        exact ⟨rfl, Or.inl rfl⟩
    · rw [Option.map_eq_none_iff] at hc
      exact a3 hc

/-- The pass took the particles one after the other. -/
inductive Swept (f : Scheme W V) (dt T : ℚ) : W → List (TP V) → W → List (TP V) → Prop where
  | nil (w : W) : Swept f dt T w [] w []
  | cons {w w' : W} {q r : TP V} {qs rs : List (TP V)} : Ran dt (visit f dt T w (core q)).2 (visitFault f dt T w (core q)) q r →
      Swept f dt T (visit f dt T w (core q)).1 qs w' rs → Swept f dt T w (q :: qs) w' (r :: rs)

theorem pass_swept (f : Scheme W V) (dt T : ℚ) (hdt : 1 / 100000000 < |dt|) (fuel : Nat) : ∀ (ps : List (TP V)) (w w' : W) (b b' : Option (Particle V)) (rs),
    (∀ q ∈ ps, q.2.state = .evaluate ∧ q.2.dt = dt ∧ Fits dt T q) → KernelLoop.pass (kernel f) T dt fuel w b (ps.map Prod.snd) = some (w', b', rs) →
    Swept f dt T w ps w' (List.zipWith (fun a r => (a.1, r.1)) ps rs) := by
  intro ps
  induction ps with
  | nil =>
    intro w w' b b' rs _ h
    simp only [List.map_nil, KernelLoop.pass, Option.some.injEq, Prod.mk.injEq] at h
    obtain ⟨rfl, -, rfl⟩ := h
    exact Swept.nil w
  | cons q ps ih =>
    intro w w' b b' rs hps h
    rw [List.map_cons, KernelLoop.pass] at h
    split at h
    · cases h
    · rename_i s hs
      split at h
      · cases h
      · rename_i w2 b2 rs2 h2
        simp only [Option.some.injEq, Prod.mk.injEq] at h
        obtain ⟨rfl, -, rfl⟩ := h
        obtain ⟨h1, h3, h4⟩ := hps q List.mem_cons_self
        obtain ⟨k1, k2⟩ := ran_of f dt T hdt fuel w b q.1 q.2 h1 h3 h4 s hs
        rw [List.zipWith_cons_cons]
        refine Swept.cons k2 ?_
        rw [← k1]
        exact ih _ _ _ _ _ (fun r hr => hps r (List.mem_cons_of_mem _ hr)) h2

theorem pass_idle (K : Kern W V) (dt T : ℚ) (hdt : 1 / 100000000 < |dt|) (fuel : Nat) : ∀ (ps : List (TP V)) (w w' : W) (b b' : Option (Particle V)) (rs),
    (∀ q ∈ ps, 0 ≤ (q.2.time - T) * sgn dt) → KernelLoop.pass K T dt fuel w b (ps.map Prod.snd) = some (w', b', rs) →
    w' = w ∧ List.Forall₂ (WholeRun.Rests dt) ps (List.zipWith (fun a r => (a.1, r.1)) ps rs) := by
  intro ps
  induction ps with
  | nil =>
    intro w w' b b' rs _ h
    simp only [List.map_nil, KernelLoop.pass, Option.some.injEq, Prod.mk.injEq] at h
    obtain ⟨rfl, -, rfl⟩ := h
    exact ⟨rfl, List.Forall₂.nil⟩
  | cons q ps ih =>
    intro w w' b b' rs hps h
    rw [List.map_cons, KernelLoop.pass] at h
    split at h
    · cases h
    · rename_i s hs
      split at h
      · cases h
      · rename_i w2 b2 rs2 h2
        simp only [Option.some.injEq, Prod.mk.injEq] at h
        obtain ⟨rfl, -, rfl⟩ := h
        obtain ⟨s', e1, e2, e3⟩ := exec1_idle K T dt hdt fuel w b q.2 (hps q List.mem_cons_self)
        rw [e1] at hs
        obtain rfl := Option.some.inj hs
        rw [e2] at h2
        obtain ⟨k1, k2⟩ := ih _ _ _ _ _ (fun r hr => hps r (List.mem_cons_of_mem _ hr)) h2
        rw [List.zipWith_cons_cons]
        refine ⟨k1, List.Forall₂.cons ?_ k2⟩
        dsimp only
        rcases e3 with e3 | e3 <;> rw [e3]
        · exact ⟨rfl, rfl, Or.inl rfl⟩
        · exact ⟨rfl, rfl, Or.inr rfl⟩

theorem ran_code {dt : ℚ} {c : Option (Nat × ℚ × V)} {d : Option (ℚ × V × Exc)} {q r : TP V} (h : Ran dt c d q r) :
    (Recovery.isError r.2 ↔ c = none) ∧ (Recovery.isError r.2 → ∃ e : Exc, r.2.state = e.code) ∧ r.2.state ≠ .delete := by
  cases c with
  | none =>
    obtain ⟨t, v, e, -, he⟩ := h.bad rfl
    replace he : r.2.state = e.code := by rw [he]
    obtain ⟨h1, h2, h3, -⟩ := exc_code e
    refine ⟨⟨fun _ => rfl, fun _ => ⟨?_, ?_⟩⟩, fun _ => ⟨e, he⟩, ?_⟩ <;> rw [he] <;> assumption
  | some c =>
    have := (h.good c rfl).2
    have hn : ¬ Recovery.isError r.2 := by
      rintro ⟨h1, h2⟩
      rcases this with h3 | h3
      · exact h1 h3
      · exact h2 h3
    refine ⟨⟨fun h => absurd h hn, fun h => by cases h⟩, fun h => absurd h hn, ?_⟩
    rcases this with h3 | h3 <;> rw [h3] <;> decide

/-- Particles without error are at or after `T` now. -/
theorem visit_after (f : Scheme W V) {dt T : ℚ} (hdt : dt ≠ 0) (w : W) (q : TP V) (hf : Fits dt T q) (x : Nat × ℚ × V)
    (h : (visit f dt T w (core q)).2 = some x) : x.2.1 = T ∨ (x = core q ∧ 0 ≤ (q.2.time - T) * sgn dt) := by
  rcases hf with hf | ⟨n, hn⟩
  · rw [visit_idle f hdt w (core q) hf] at h
    exact Or.inr ⟨(Option.some.inj h).symm, hf⟩
  · rw [visit_steps f (T := T) hdt w (core q) (n + 1) (by show T = q.2.time + _; rw [hn]; push_cast; ring), Option.map_eq_some_iff] at h
    obtain ⟨v, -, rfl⟩ := h
    exact Or.inl rfl

theorem swept_facts {f : Scheme W V} {dt T : ℚ} {w w' : W} {ps rs : List (TP V)} (h : Swept f dt T w ps w' rs) :
    w' = (sweep f dt T w (ps.map core)).1 ∧
    (rs.filter fun r => decide (¬ Recovery.isError r.2)).map core = (sweep f dt T w (ps.map core)).2 ∧
    (∀ q ∈ rs, q.2.state ≠ .delete) ∧ (∀ q ∈ rs, Recovery.isError q.2 → ∃ e : Exc, q.2.state = e.code) ∧ (∀ q ∈ rs, q.2.dt = dt) ∧
    ((∃ q ∈ rs, Recovery.isError q.2) ↔ (sweep f dt T w (ps.map core)).2.length < ps.length) ∧ (sweep f dt T w (ps.map core)).2.length ≤ ps.length := by
  induction h with
  | nil w => simp [sweep]
  | @cons w w' q r qs rs h1 h2 ih =>
    obtain ⟨i1, i2, i3, i4, i5, i6, i7⟩ := ih
    obtain ⟨c1, c2, c3⟩ := ran_code h1
    rw [List.map_cons, sweep]
    dsimp only
    refine ⟨i1, ?_, ?_, ?_, ?_, ?_⟩
    · cases hv : (visit f dt T w (core q)).2 with
      | none => rw [List.filter_cons_of_neg (by simpa using c1.mpr hv), i2]; rfl
      | some x =>
        have hn : ¬ Recovery.isError r.2 := fun h' => by have := c1.mp h'; rw [hv] at this; cases this
        rw [List.filter_cons_of_pos (by simpa using hn), List.map_cons, i2, (h1.good x hv).1]
        rfl
    · intro x hx
      rcases List.mem_cons.mp hx with rfl | hx
      · exact c3
      · exact i3 x hx
    · intro x hx
      rcases List.mem_cons.mp hx with rfl | hx
      · exact c2
      · exact i4 x hx
    · intro x hx
      rcases List.mem_cons.mp hx with rfl | hx
      · exact h1.step
      · exact i5 x hx
    · cases hv : (visit f dt T w (core q)).2 with
      | none =>
        refine ⟨⟨fun _ => ?_, fun _ => ⟨r, List.mem_cons_self, c1.mpr hv⟩⟩, ?_⟩
        · simp only [Option.toList_none, List.nil_append, List.length_cons]; omega
        · simp only [Option.toList_none, List.nil_append, List.length_cons]; omega
      | some x =>
        have hn : ¬ Recovery.isError r.2 := fun h' => by have := c1.mp h'; rw [hv] at this; cases this
        simp only [Option.toList_some, List.cons_append, List.nil_append, List.length_cons, add_lt_add_iff_right, add_le_add_iff_right]
        refine ⟨⟨?_, fun h => ?_⟩, i7⟩
        · rintro ⟨y, hy, hy'⟩
          rcases List.mem_cons.mp hy with rfl | hy
          · exact absurd hy' hn
          · exact i6.mp ⟨y, hy, hy'⟩
        · obtain ⟨y, hy, hy'⟩ := i6.mpr h
          exact ⟨y, List.mem_cons_of_mem _ hy, hy'⟩

theorem swept_after {f : Scheme W V} {dt T : ℚ} (hdt : dt ≠ 0) {w w' : W} {ps rs : List (TP V)} (h : Swept f dt T w ps w' rs)
    (hf : ∀ q ∈ ps, Fits dt T q) : ∀ r ∈ rs, ¬ Recovery.isError r.2 → 0 ≤ (r.2.time - T) * sgn dt := by
  induction h with
  | nil w => intro r hr; cases hr
  | @cons w w' q r qs rs h1 h2 ih =>
    intro x hx he
    rcases List.mem_cons.mp hx with rfl | hx
    · cases hv : (visit f dt T w (core q)).2 with
      | none => exact absurd ((ran_code h1).1.mpr hv) he
      | some y =>
        have hc := (h1.good y hv).1
        have ht : x.2.time = y.2.1 := congrArg (fun z => z.2.1) hc
        rcases visit_after f hdt w q (hf q List.mem_cons_self) y hv with e | ⟨e, e'⟩
        · rw [ht, e, sub_self, zero_mul]
        · rw [ht, e]; exact e'
    · exact ih (fun q hq => hf q (List.mem_cons_of_mem _ hq)) x hx he

/-! ### The recovery loop -/

theorem handleAll_deletes {user : RMap W V} (hu : Deletes user) : ∀ (ps : List (TP V)) (w : W),
    (∀ q ∈ ps, Recovery.isError q.2 → ∃ e : Exc, q.2.state = e.code) →
    Recovery.handleAll (Recovery.recoveryMap user) w ps = .done w (ps.map mark)
  | [], _, _ => rfl
  | q :: ps, w, h => by
    have ih := handleAll_deletes hu ps w fun r hr => h r (List.mem_cons_of_mem _ hr)
    rw [Recovery.handleAll]
    by_cases hq : Recovery.isError q.2
    · obtain ⟨e, he⟩ := h q List.mem_cons_self hq
      obtain ⟨h1, h2, h3, h4, h5⟩ := exc_code e
      have hh : Recovery.handleOne (Recovery.recoveryMap user) w q.2 = .cont w { q.2 with state := .delete } := by
        unfold Recovery.handleOne
        rw [he, if_neg h5, if_neg h4, if_neg h2, hu e]
        simp
      rw [if_pos hq, hh]
      dsimp only
      rw [ih]
      simp [mark, hq]
    · rw [if_neg hq, ih]
      simp [mark, hq]

theorem handleAll_raises {user : RMap W V} (hu : Raises user) : ∀ (ps : List (TP V)) (w : W),
    (∀ q ∈ ps, Recovery.isError q.2 → ∃ e : Exc, q.2.state = e.code) → (∃ q ∈ ps, Recovery.isError q.2) →
    Recovery.handleAll (Recovery.recoveryMap user) w ps = .raised
  | [], _, _, h => by obtain ⟨q, hq, -⟩ := h; cases hq
  | q :: ps, w, h, hex => by
    rw [Recovery.handleAll]
    by_cases hq : Recovery.isError q.2
    · obtain ⟨e, he⟩ := h q List.mem_cons_self hq
      obtain ⟨h1, h2, h3, h4, h5⟩ := exc_code e
      obtain ⟨g, hg, hg'⟩ := hu e
      have hh : ∃ w', Recovery.handleOne (Recovery.recoveryMap user) w q.2 = .raised w' := by
        unfold Recovery.handleOne
        rw [he, if_neg h5, if_neg h4, if_neg h2, hg]
        simp only
        have := hg' w { q.2 with state := .success }
        rcases hgg : g w { q.2 with state := .success } with ⟨w', o⟩
        rw [hgg] at this
        subst this
        exact ⟨w', rfl⟩
      obtain ⟨w', hh⟩ := hh
      rw [if_pos hq, hh]
    · rw [if_neg hq]
      obtain ⟨r, hr, hr'⟩ := hex
      rcases List.mem_cons.mp hr with rfl | hr
      · exact absurd hr' hq
      · rw [handleAll_raises hu ps w (fun x hx => h x (List.mem_cons_of_mem _ hx)) ⟨r, hr, hr'⟩]

/-- What one needs to know of a pass: with particles to run, and with particles that have nothing to do. -/
structure Good (f : Scheme W V) (dt : ℚ) (pass : Pass W V) : Prop where
  run : ∀ T w ps w' ps', (∀ q ∈ ps, q.2.state = .evaluate ∧ q.2.dt = dt ∧ Fits dt T q) → pass T dt w ps = some (w', ps') → Swept f dt T w ps w' ps'
  idle : ∀ T w ps w' ps', (∀ q ∈ ps, q.2.dt = dt ∧ 0 ≤ (q.2.time - T) * sgn dt) → pass T dt w ps = some (w', ps') →
    w' = w ∧ List.Forall₂ (WholeRun.Rests dt) ps ps'

theorem scipy_good (f : Scheme W V) {dt : ℚ} (hdt : 1 / 100000000 < |dt|) (fuel : Nat) : Good f dt (scipyPass (kernel f) fuel) := by
  constructor
  · intro T w ps w' ps' hps h
    unfold scipyPass at h
    rw [Option.map_eq_some_iff] at h
    obtain ⟨⟨w1, ps1, cs⟩, h, hr⟩ := h
    obtain ⟨rfl, rfl⟩ := Prod.mk.inj hr
    unfold Recovery.runPass at h
    split at h
    · cases h
    rename_i w1 b1 rs hp
    simp only [Option.some.injEq, Prod.mk.injEq] at h
    obtain ⟨rfl, rfl, -⟩ := h
    exact pass_swept f dt T hdt fuel ps _ _ _ _ _ hps hp
  · intro T w ps w' ps' hps h
    unfold scipyPass at h
    rw [Option.map_eq_some_iff] at h
    obtain ⟨⟨w1, ps1, cs⟩, h, hr⟩ := h
    obtain ⟨rfl, rfl⟩ := Prod.mk.inj hr
    unfold Recovery.runPass at h
    split at h
    · cases h
    rename_i w1 b1 rs hp
    simp only [Option.some.injEq, Prod.mk.injEq] at h
    obtain ⟨rfl, rfl, -⟩ := h
    exact pass_idle _ dt T hdt fuel ps _ _ _ _ _ (fun q hq => (hps q hq).2) hp

theorem kernel_steady (f : Scheme W V) : JitLoop.Steady (kernel f) := by
  intro w p
  unfold kernel
  dsimp only
  split <;> exact ⟨Or.inl rfl, fun h => absurd rfl h⟩

theorem jit_scipy (f : Scheme W V) {dt : ℚ} (hdt : 1 / 100000000 < |dt|) (fuel : Nat) (T : ℚ) (w w' : W) (ps ps' : List (TP V)) (hps : ∀ q ∈ ps, q.2.dt = dt)
    (h : jitPass (kernel f) fuel T dt w ps = some (w', ps')) : scipyPass (kernel f) (fuel + 1) T dt w ps = some (w', ps') := by
  unfold jitPass at h
  rw [Option.map_eq_some_iff] at h
  obtain ⟨⟨⟨w1, g1⟩, ps1⟩, h, hr⟩ := h
  obtain ⟨rfl, rfl⟩ := Prod.mk.inj hr
  unfold JitExec.runPass at h
  split at h
  · cases h
  rename_i w1 g1 rs hp
  simp only [Option.some.injEq, Prod.mk.injEq] at h
  obtain ⟨⟨rfl, rfl⟩, rfl⟩ := h
  obtain ⟨b, hb⟩ := JitLoop.pass_same_conv (kernel f) (kernel_steady f) T dt (not_close hdt) fuel _ _ _ none _ _
    (fun p hp => by obtain ⟨q, hq, rfl⟩ := List.mem_map.mp hp; rw [hps q hq]; exact ne_zero_of hdt) hp
  unfold scipyPass Recovery.runPass
  dsimp only [id] at hb
  rw [hb]
  rfl

theorem jit_good (f : Scheme W V) {dt : ℚ} (hdt : 1 / 100000000 < |dt|) (fuel : Nat) : Good f dt (jitPass (kernel f) fuel) := by
  have hs := scipy_good f hdt (fuel + 1)
  constructor
  · intro T w ps w' ps' hps h
    exact hs.run T w ps w' ps' hps (jit_scipy f hdt fuel T w w' ps ps' (fun q hq => (hps q hq).2.1) h)
  · intro T w ps w' ps' hps h
    exact hs.idle T w ps w' ps' hps (jit_scipy f hdt fuel T w w' ps ps' (fun q hq => (hps q hq).1) h)

/-- The effect of `Kernel.execute` on generator and particles. -/
structure Effect (user : RMap W V) (f : Scheme W V) (dt T : ℚ) (w : W) (ps : List (TP V)) (e : Recovery.Ending) (w' : W) (ps' : List (TP V)) : Prop where
  good : Deletes user ∨ (sweep f dt T w (ps.map core)).2.length = ps.length →
    e = .normal ∧ (w', ps'.map core) = sweep f dt T w (ps.map core) ∧ ∀ q ∈ ps', q.2.dt = dt
  bad : Raises user → (sweep f dt T w (ps.map core)).2.length < ps.length → e = .raised ∧
    Swept f dt T w (ps.map fun q => (q.1, { q.2 with state := Code.evaluate })) w' ps'

theorem any_error (ps : List (TP V)) : (ps.any fun p => decide (Recovery.isError p.2)) = true ↔ ∃ q ∈ ps, Recovery.isError q.2 := by
  rw [List.any_eq_true]
  constructor <;> rintro ⟨q, hq, hq'⟩ <;> exact ⟨q, hq, by simpa using hq'⟩

theorem map_core_state (ps : List (TP V)) : (ps.map fun q : TP V => (q.1, { q.2 with state := Code.evaluate })).map core = ps.map core := by
  rw [List.map_map]
  rfl

theorem exec_effect {f : Scheme W V} {dt : ℚ} (hne : dt ≠ 0) {pass : Pass W V} (hp : Good f dt pass) (user : RMap W V) (nRounds : Nat) (T : ℚ) (w w' : W)
    (ps ps' : List (TP V)) (e : Recovery.Ending) (hps : ∀ q ∈ ps, q.2.dt = dt ∧ Fits dt T q)
    (h : kernelExecute pass user nRounds T dt w ps = some (e, w', ps')) : Effect user f dt T w ps e w' ps' := by
  unfold kernelExecute at h
  split at h
  · cases h
  rename_i w1 ps1 hp1
  have hready := WholeRun.ready hps
  have hran := hp.run T w _ w1 ps1 hready hp1
  obtain ⟨k0, kf, k1, k2, k3, k4, k5⟩ := swept_facts hran
  have haft := swept_after hne hran (fun q hq => (hready q hq).2.2)
  rw [map_core_state] at k0 kf k4
  rw [List.length_map] at k4
  rw [kept_all ps1 k1] at h
  cases nRounds with
  | zero => cases h
  | succ m =>
    rw [rounds] at h
    by_cases herr : ∃ q ∈ ps1, Recovery.isError q.2
    · rw [if_pos ((any_error ps1).mpr herr)] at h
      refine ⟨fun hu => ?_, fun hu _ => ?_⟩
      · rcases hu with hu | hu
        · rw [handleAll_deletes hu ps1 w1 k2] at h
          dsimp only at h
          rw [kept_mark ps1 k1] at h
          split at h
          · cases h
          rename_i w2 ps2 hp2
          obtain ⟨rfl, hrest⟩ := hp.idle T w1 _ w2 ps2 (fun q hq => by
            rw [List.mem_filter] at hq
            exact ⟨k3 q hq.1, haft q hq.1 (by simpa using hq.2)⟩) hp2
          have hno : ¬ ∃ q ∈ ps2, Recovery.isError q.2 := by
            rintro ⟨q, hq, x1, x2⟩
            obtain ⟨a, ha1, ha2⟩ := WholeRun.forall₂_right hrest q hq
            rw [List.mem_filter] at ha1
            have hna : ¬ Recovery.isError a.2 := by simpa using ha1.2
            rcases ha2.2.2 with e | e
            · exact hna ⟨by rw [← e]; exact x1, by rw [← e]; exact x2⟩
            · exact x1 e
          cases m with
          | zero => cases h
          | succ m =>
            rw [rounds, if_neg (fun h => hno ((any_error ps2).mp h))] at h
            simp only [Option.some.injEq, Prod.mk.injEq] at h
            obtain ⟨rfl, rfl, rfl⟩ := h
            refine ⟨rfl, Prod.ext k0 (by rw [← kf]; exact WholeRun.rests_core hrest), ?_⟩
            intro q hq
            obtain ⟨a, ha1, ha2⟩ := WholeRun.forall₂_right hrest q hq
            rw [ha2.2.1]
            exact k3 a (List.mem_filter.mp ha1).1
        · have := k4.mp herr
          omega
      · rw [handleAll_raises hu ps1 w1 k2 herr] at h
        simp only [Option.some.injEq, Prod.mk.injEq] at h
        obtain ⟨rfl, rfl, rfl⟩ := h
        exact ⟨rfl, hran⟩
    · rw [if_neg (fun h => herr ((any_error ps1).mp h))] at h
      simp only [Option.some.injEq, Prod.mk.injEq] at h
      obtain ⟨rfl, rfl, rfl⟩ := h
      refine ⟨fun _ => ⟨rfl, Prod.ext k0 ?_, k3⟩, fun _ hx => absurd (k4.mpr hx) herr⟩
      rw [← kf, List.filter_eq_self.mpr]
      intro q hq
      simp only [decide_eq_true_eq]
      exact fun hq' => herr ⟨q, hq, hq'⟩

theorem mode_effect {f : Scheme W V} {user : RMap W V} {exec : Exec W V} (hm : IsMode (kernel f) user exec) {dt : ℚ} (hdt : 1 / 100000000 < |dt|)
    (T : ℚ) (w w' : W) (ps ps' : List (TP V)) (e : Recovery.Ending) (hps : ∀ q ∈ ps, q.2.dt = dt ∧ Fits dt T q)
    (h : exec T dt w ps = some (e, w', ps')) : Effect user f dt T w ps e w' ps' := by
  obtain ⟨fuel, nRounds, rfl | rfl⟩ := hm
  · exact exec_effect (ne_zero_of hdt) (scipy_good f hdt fuel) user nRounds T w w' ps ps' e hps h
  · exact exec_effect (ne_zero_of hdt) (jit_good f hdt fuel) user nRounds T w w' ps ps' e hps h

end Parcels.RandomRun
