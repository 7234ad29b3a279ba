import Verif.Spec.RepairRun
import Verif.Proofs.WholeRun4

namespace Parcels.RepairRun

open KernelLoop (Particle Kern Exc LS)
open Recovery (TP RMap)
open WholeRun (Scheme kernel trajectory core solution Fits scipyExec jitExec)

variable {V : Type}

section Steps

variable (f : Scheme V) (act : Act V) (dt T : ℚ) (M L : ℕ) (cnt : Prop) (raises : Bool)

/-- The rest of the trajectory of a particle that may still be repaired `k` times in its present step, with `n` steps after it. -/
def contd (k n : ℕ) (t : ℚ) (v : V) : Option V :=
  match mended f act k t dt v with
  | .ok v' => solution (mended f act M) dt n (t + dt) v'
  | .error _ => none

theorem contd_start (n : ℕ) (t : ℚ) (v : V) : contd f act dt M M n t v = solution (mended f act M) dt (n + 1) t v := by
  rw [contd, solution]
  rfl

theorem contd_ok {t : ℚ} {u v : V} (h : f t dt u = .ok v) (k n : ℕ) : contd f act dt M k n t u = solution (mended f act M) dt n (t + dt) v := by
  unfold contd
  cases k with
  | zero => simp only [mended, h]
  | succ k => simp only [mended, h]

theorem contd_retry {t : ℚ} {u v : V} {e : Exc} (h : f t dt u = .error e) (ha : act e t u = some v) (k n : ℕ) :
    contd f act dt M (k + 1) n t u = contd f act dt M k n t v := by
  unfold contd
  simp only [mended, h, ha]

theorem contd_gone {t : ℚ} {u : V} {e : Exc} (h : f t dt u = .error e) (ha : act e t u = none) (k n : ℕ) : contd f act dt M k n t u = none := by
  unfold contd
  cases k with
  | zero => simp only [mended, h]
  | succ k => simp only [mended, h, ha]

/-- At least `m` more repairs are allowed, or there are no more than `k` of them. -/
def Bound (m k : ℕ) (t : ℚ) (u : V) : Prop := m ≤ k ∨ repairs f act dt t (k + 1) u = none

theorem bound_retry {m k : ℕ} {t : ℚ} {u v : V} {e : Exc} (h : f t dt u = .error e) (ha : act e t u = some v) (hb : Bound f act dt (m + 1) k t u) :
    ∃ j, k = j + 1 ∧ Bound f act dt m j t v := by
  cases k with
  | zero =>
    rcases hb with hb | hb
    · omega
    · simp [repairs, h, ha] at hb
  | succ j =>
    refine ⟨j, rfl, ?_⟩
    rcases hb with hb | hb
    · exact Or.inl (by omega)
    · rw [repairs, h] at hb
      simp only [ha] at hb
      exact Or.inr hb

/-- A particle that is where its trajectory is at `T`. -/
structure Settled (q r : TP V) : Prop where
  tag : r.1 = q.1
  step : r.2.dt = dt
  here : trajectory (mended f act M) dt T q = some (core r)
  state : r.2.state = .success ∨ r.2.state = .evaluate
  after : 0 ≤ (r.2.time - T) * sgn dt

/-- A particle that is still on its way, with what is left of its trajectory. -/
structure Under (m b : ℕ) (q r : TP V) (n k : ℕ) : Prop where
  tag : r.1 = q.1
  step : r.2.dt = dt
  left : T = r.2.time + (n + 1) * dt
  bound : Bound f act dt m k r.2.time r.2.vars
  count : cnt → n * M + k ≤ b ∧ n < L
  rest : trajectory (mended f act M) dt T q = (contd f act dt M k n r.2.time r.2.vars).map fun v => (q.1, T, v)

/-- After a pass. -/
def Mid (m b : ℕ) (q r : TP V) : Prop :=
  Settled f act dt T M q r ∨ ∃ e n k, Under f act dt T M L cnt m b q r n k ∧ r.2.state = Exc.code e ∧ f r.2.time dt r.2.vars = .error e

/-- Before a pass. -/
def Go (m b : ℕ) (q r : TP V) : Prop :=
  Settled f act dt T M q r ∨ (cnt → 1 ≤ b) ∧ ∃ n k, Under f act dt T M L cnt m (b - 1) q r n k ∧ r.2.state = .evaluate

/-- What the loop over the steps makes of a particle. -/
theorem loop_mid (hdt : 1 / 100000000 < |dt|) (m b : ℕ) (hM : m ≤ M ∨ Settles f act dt M) (q : TP V) (i : ℕ) : ∀ (n k fuel : ℕ) (s s' : LS Unit V),
    s.p.state = .evaluate → s.nextDt = none → s.dtPos = |dt| → Under f act dt T M L cnt m b q (i, s.p) n k →
    KernelLoop.loop (kernel f) T dt fuel s = some s' → Mid f act dt T M L cnt m b q (i, s'.p) := by
  intro n
  induction n with
  | zero =>
    intro k fuel s s' hst hn hp hu h
    obtain ⟨k1, k2⟩ := WholeRun.step_sol f T dt hdt s hst hu.step hn hp 0 (by simpa using hu.left)
    cases fuel with
    | zero => cases h
    | succ fuel =>
      rw [KernelLoop.loop, if_pos (show KernelLoop.cond dt s from Or.inl hst)] at h
      cases hf : f s.p.time dt s.p.vars with
      | ok v =>
        obtain ⟨s1, e1, e2, -, -⟩ := k1 v hf
        rw [e1] at h
        simp only at h
        have hs' : s' = s1 := by
          cases fuel with
          | zero => cases h
          | succ fuel =>
            rw [KernelLoop.loop, if_neg] at h
            · exact (Option.some.inj h).symm
            · rintro (c | c | c)
              · rw [e2] at c; simp at c
              · rw [e2] at c; simp at c
              · rw [WholeRun.not_close hdt] at c; cases c
        subst hs'
        have hT : s.p.time + dt = T := by have := hu.left; rw [this]; simp
        refine Or.inl ⟨hu.tag, by rw [e2], ?_, by rw [e2]; simp, ?_⟩
        · have h1 := hu.rest
          have h2 := hu.tag
          simp only at h1 h2
          rw [h1, contd_ok f act dt M hf, solution, e2, Option.map_some, core]
          simp only [hT, h2]
        · rw [e2]
          simp only [hT, sub_self, zero_mul, le_refl]
      | error e =>
        obtain ⟨s1, e1, e2⟩ := k2 e hf
        rw [e1] at h
        obtain rfl := Option.some.inj h
        refine Or.inr ⟨e, 0, k, ?_, by rw [e2], by rw [e2]; exact hf⟩
        obtain ⟨u1, u2, u3, u4, u5, u6⟩ := hu
        refine ⟨u1, by rw [e2], ?_, ?_, u5, ?_⟩ <;> rw [e2] <;> assumption
  | succ n ih =>
    intro k fuel s s' hst hn hp hu h
    obtain ⟨k1, k2⟩ := WholeRun.step_sol f T dt hdt s hst hu.step hn hp (n + 1) (by rw [hu.left])
    cases fuel with
    | zero => cases h
    | succ fuel =>
      rw [KernelLoop.loop, if_pos (show KernelLoop.cond dt s from Or.inl hst)] at h
      cases hf : f s.p.time dt s.p.vars with
      | ok v =>
        obtain ⟨s1, e1, e2, e3, e4⟩ := k1 v hf
        rw [e1] at h
        simp only at h
        refine ih M fuel s1 s' (by rw [e2]; simp) e3 (e4 (by omega)) ?_ h
        have h1 := hu.rest
        simp only at h1
        refine ⟨hu.tag, by rw [e2], ?_, ?_, fun hc => ?_, ?_⟩
        · rw [e2, hu.left]; push_cast; ring
        · rcases hM with hM | hM
          · exact Or.inl hM
          · exact Or.inr (hM _ _)
        · have := hu.count hc
          have e : (n + 1) * M = n * M + M := by ring
          exact ⟨by omega, by omega⟩
        · rw [h1, contd_ok f act dt M hf, e2, contd_start]
      | error e =>
        obtain ⟨s1, e1, e2⟩ := k2 e hf
        rw [e1] at h
        obtain rfl := Option.some.inj h
        refine Or.inr ⟨e, n + 1, k, ?_, by rw [e2], by rw [e2]; exact hf⟩
        obtain ⟨u1, u2, u3, u4, u5, u6⟩ := hu
        refine ⟨u1, by rw [e2], ?_, ?_, u5, ?_⟩ <;> rw [e2] <;> assumption

/-- What a pass makes of a particle. -/
theorem exec1_mid (hdt : 1 / 100000000 < |dt|) (m b : ℕ) (hM : m ≤ M ∨ Settles f act dt M) (q : TP V) (i : ℕ) (p : Particle V) (fuel : ℕ) (w : Unit)
    (bk : Option (Particle V)) (s : LS Unit V) (hg : Go f act dt T M L cnt m b q (i, p))
    (h : KernelLoop.exec1 (kernel f) T dt fuel w bk p = some s) : Mid f act dt T M L cnt m (b - 1) q (i, s.p) := by
  have hne := WholeRun.ne_zero_of hdt
  rcases hg with hg | ⟨-, n, k, hu, hst⟩
  · obtain ⟨s', e1, -, e2⟩ := WholeRun.exec1_idle (kernel f) T dt hdt fuel w bk p hg.after
    rw [e1] at h
    obtain rfl := Option.some.inj h
    obtain ⟨g1, g2, g3, g4, g5⟩ := hg
    refine Or.inl ?_
    rcases e2 with e2 | e2 <;> rw [e2]
    · exact ⟨g1, g2, g3, g4, g5⟩
    · exact ⟨g1, g2, g3, Or.inl rfl, g5⟩
  · have hd : p.dt = dt := hu.step
    have hE : T = p.time + (n + 1) * dt := hu.left
    have hrest : T - p.time = ((n : ℚ) + 1) * dt := by rw [hE]; ring
    have hn0 : (0 : ℚ) ≤ n := Nat.cast_nonneg n
    have hmin : min |p.dt| |T - p.time| = |dt| := by
      rw [hd, hrest, abs_mul, abs_of_nonneg (by linarith : (0 : ℚ) ≤ (n : ℚ) + 1), min_eq_left]
      nlinarith [abs_nonneg dt]
    have hs : ¬ KernelLoop.skips T dt p := by
      rintro ⟨c | c, -⟩
      · exact c (by rw [hrest]; exact WholeRun.sgn_steps hne (by linarith))
      · rw [hmin, isclose_zero_iff, abs_abs] at c
        linarith
    unfold KernelLoop.exec1 at h
    simp only [] at h
    rw [if_neg hs] at h
    exact loop_mid f act dt T M L cnt hdt m (b - 1) hM q i n k fuel _ s hst rfl hmin hu h

/-- The particles that are left, in order, and why the others are not. -/
inductive Keeps (R : TP V → TP V → Prop) (gone : TP V → Prop) : List (TP V) → List (TP V) → Prop
  | nil : Keeps R gone [] []
  | keep {q r qs rs} : R q r → Keeps R gone qs rs → Keeps R gone (q :: qs) (r :: rs)
  | drop {q qs rs} : gone q → Keeps R gone qs rs → Keeps R gone (q :: qs) rs

theorem Keeps.pass {R R' : TP V → TP V → Prop} {gone : TP V → Prop} {qs rs rs' : List (TP V)} (h : Keeps R gone qs rs)
    (h2 : List.Forall₂ (fun a b => ∀ q, R q a → R' q b) rs rs') : Keeps R' gone qs rs' := by
  induction h generalizing rs' with
  | nil => cases h2; exact .nil
  | keep hr _ ih => cases h2 with | cons h3 h4 => exact .keep (h3 _ hr) (ih h4)
  | drop hg _ ih => exact .drop hg (ih h2)

theorem Keeps.right {R : TP V → TP V → Prop} {gone : TP V → Prop} {qs rs : List (TP V)} (h : Keeps R gone qs rs) : ∀ r ∈ rs, ∃ q, R q r := by
  induction h with
  | nil => intro r hr; cases hr
  | keep hr _ ih =>
    intro r h
    rcases List.mem_cons.mp h with rfl | h
    · exact ⟨_, hr⟩
    · exact ih r h
  | drop _ _ ih => exact ih

/-- Why a particle is missing. -/
def Gone (q : TP V) : Prop := raises = false ∧ trajectory (mended f act M) dt T q = none

/-- One round of recovery. -/
theorem handle_mid {user : RMap Unit V} (hu : Recovers user act raises) (m b : ℕ) {qs rs : List (TP V)}
    (h : Keeps (Mid f act dt T M L cnt (m + 1) b) (Gone f act dt T M raises) qs rs) :
    (∃ rs1, Recovery.handleAll (Recovery.recoveryMap user) () rs = .done () rs1 ∧
      Keeps (Go f act dt T M L cnt m b) (Gone f act dt T M raises) qs (Recovery.kept rs1)) ∨
    (raises = true ∧ Recovery.handleAll (Recovery.recoveryMap user) () rs = .raised ∧ ∃ q ∈ qs, trajectory (mended f act M) dt T q = none) := by
  induction h with
  | nil => exact Or.inl ⟨[], rfl, .nil⟩
  | @drop q qs rs hg _ ih =>
    rcases ih with ⟨rs1, e1, e2⟩ | ⟨e1, e2, x, hx, hx'⟩
    · exact Or.inl ⟨rs1, e1, .drop hg e2⟩
    · exact Or.inr ⟨e1, e2, x, List.mem_cons_of_mem _ hx, hx'⟩
  | @keep q r qs rs hr _ ih =>
    rcases hr with hr | ⟨e, n, k, hr, hst, hf⟩
    · have hne : ¬ Recovery.isError r.2 := by
        rintro ⟨c1, c2⟩
        rcases hr.state with c | c
        · exact c1 c
        · exact c2 c
      have hnd : r.2.state ≠ .delete := by rcases hr.state with c | c <;> rw [c] <;> decide
      rcases ih with ⟨rs1, e1, e2⟩ | ⟨e1, e2, x, hx, hx'⟩
      · refine Or.inl ⟨r :: rs1, by rw [Recovery.handleAll, if_neg hne, e1], ?_⟩
        unfold Recovery.kept at e2 ⊢
        rw [List.filter_cons_of_pos (by simpa using hnd)]
        exact .keep (Or.inl hr) e2
      · exact Or.inr ⟨e1, by rw [Recovery.handleAll, if_neg hne, e2], x, List.mem_cons_of_mem _ hx, hx'⟩
    · obtain ⟨c1, c2, c3, c4, c5⟩ := WholeRun.exc_code e
      have hne : Recovery.isError r.2 := by
        constructor <;> rw [hst] <;> assumption
      obtain ⟨hd, h1, h2⟩ := hu e
      have h3 := h2 () { r.2 with state := .success }
      dsimp only at h3
      cases ha : act e r.2.time r.2.vars with
      | some v =>
        rw [ha] at h3
        simp only at h3
        have hh : Recovery.handleOne (Recovery.recoveryMap user) () r.2 = .cont () { r.2 with state := .evaluate, vars := v } := by
          unfold Recovery.handleOne
          rw [hst, if_neg c5, if_neg c4, if_neg c2, h1]
          simp only [h3, if_true]
        rcases ih with ⟨rs1, e1, e2⟩ | ⟨e1, e2, x, hx, hx'⟩
        · refine Or.inl ⟨(r.1, { r.2 with state := .evaluate, vars := v }) :: rs1, by rw [Recovery.handleAll, if_pos hne, hh]; simp only [e1], ?_⟩
          unfold Recovery.kept at e2 ⊢
          rw [List.filter_cons_of_pos (by simp)]
          obtain ⟨j, rfl, hj⟩ := bound_retry f act dt hf ha hr.bound
          refine .keep (Or.inr ⟨fun hc => ?_, n, j, ⟨hr.tag, hr.step, hr.left, hj, fun hc => ?_, ?_⟩, rfl⟩) e2
          · have := hr.count hc; omega
          · have := hr.count hc; exact ⟨by omega, by omega⟩
          · rw [hr.rest, contd_retry f act dt M hf ha]
        · exact Or.inr ⟨e1, by rw [Recovery.handleAll, if_pos hne, hh]; simp only [e2], x, List.mem_cons_of_mem _ hx, hx'⟩
      | none =>
        rw [ha] at h3
        simp only at h3
        have hnone : trajectory (mended f act M) dt T q = none := by rw [hr.rest, contd_gone f act dt M hf ha]; rfl
        cases raises with
        | true =>
          simp only [if_true] at h3
          refine Or.inr ⟨rfl, ?_, q, List.mem_cons_self, hnone⟩
          have hh : ∃ w', Recovery.handleOne (Recovery.recoveryMap user) () r.2 = .raised w' := by
            unfold Recovery.handleOne
            rw [hst, if_neg c5, if_neg c4, if_neg c2, h1]
            simp only
            rcases hgg : hd () { r.2 with state := .success } with ⟨w', o⟩
            rw [hgg] at h3
            simp only at h3
            subst h3
            exact ⟨w', rfl⟩
          obtain ⟨w', hh⟩ := hh
          rw [Recovery.handleAll, if_pos hne, hh]
        | false =>
          simp only [Bool.false_eq_true, if_false] at h3
          have hh : Recovery.handleOne (Recovery.recoveryMap user) () r.2 = .cont () { r.2 with state := .delete } := by
            unfold Recovery.handleOne
            rw [hst, if_neg c5, if_neg c4, if_neg c2, h1]
            simp [h3]
          rcases ih with ⟨rs1, e1, e2⟩ | ⟨e1, -⟩
          · refine Or.inl ⟨(r.1, { r.2 with state := .delete }) :: rs1, by rw [Recovery.handleAll, if_pos hne, hh]; simp only [e1], ?_⟩
            unfold Recovery.kept at e2 ⊢
            rw [List.filter_cons_of_neg (by simp)]
            exact .drop ⟨rfl, hnone⟩ e2
          · cases e1

theorem mid_error {m b : ℕ} {q r : TP V} (h : Mid f act dt T M L cnt m b q r) : r.2.state ≠ .delete ∧ (¬ Recovery.isError r.2 → Settled f act dt T M q r) := by
  rcases h with h | ⟨e, n, k, -, hst, -⟩
  · exact ⟨by rcases h.state with c | c <;> rw [c] <;> decide, fun _ => h⟩
  · obtain ⟨c1, c2, c3, -⟩ := WholeRun.exc_code e
    exact ⟨by rw [hst]; exact c2, fun c => absurd ⟨by rw [hst]; exact c1, by rw [hst]; exact c3⟩ c⟩

theorem Keeps.settled {m b : ℕ} {gone : TP V → Prop} {qs rs : List (TP V)} (h : Keeps (Mid f act dt T M L cnt m b) gone qs rs)
    (hno : ¬ (rs.any fun p => decide (Recovery.isError p.2)) = true) : Keeps (Settled f act dt T M) gone qs rs := by
  induction h with
  | nil => exact .nil
  | keep hr _ ih =>
    rw [List.any_cons, Bool.or_eq_true, not_or] at hno
    exact .keep ((mid_error f act dt T M L cnt hr).2 (by simpa using hno.1)) (ih hno.2)
  | drop hg _ ih => exact .drop hg (ih hno)

theorem Keeps.core {qs rs : List (TP V)} (h : Keeps (Settled f act dt T M) (Gone f act dt T M raises) qs rs) :
    rs.map core = qs.filterMap (trajectory (mended f act M) dt T) ∧ (∀ r ∈ rs, r.2.dt = dt) ∧
    (raises = true → ∀ q ∈ qs, (trajectory (mended f act M) dt T q).isSome) := by
  induction h with
  | nil => exact ⟨rfl, fun r hr => (List.not_mem_nil hr).elim, fun _ q hq => (List.not_mem_nil hq).elim⟩
  | keep hr _ ih =>
    obtain ⟨i1, i2, i3⟩ := ih
    refine ⟨by rw [List.map_cons, List.filterMap_cons_some hr.here, i1], fun r h => ?_, fun hx q h => ?_⟩
    · rcases List.mem_cons.mp h with rfl | h
      · exact hr.step
      · exact i2 r h
    · rcases List.mem_cons.mp h with rfl | h
      · rw [hr.here]; rfl
      · exact i3 hx q h
  | drop hg _ ih =>
    obtain ⟨i1, i2, i3⟩ := ih
    exact ⟨by rw [List.filterMap_cons_none hg.2, i1], i2, fun hx => by rw [hg.1] at hx; cases hx⟩

/-- The end of `Kernel.execute`. -/
def Ends (qs : List (TP V)) (e : Recovery.Ending) (rs : List (TP V)) : Prop :=
  (e = .normal ∧ Keeps (Settled f act dt T M) (Gone f act dt T M raises) qs rs) ∨
  (raises = true ∧ e = .raised ∧ ∃ q ∈ qs, trajectory (mended f act M) dt T q = none)

theorem pass_keeps (hdt : 1 / 100000000 < |dt|) (m b : ℕ) (hM : m ≤ M ∨ Settles f act dt M) {gone : TP V → Prop} {qs rs rs' : List (TP V)}
    (h : Keeps (Go f act dt T M L cnt m b) gone qs rs) (fuel : ℕ) (w w' : Unit) (cs)
    (hp : Recovery.runPass (kernel f) T dt fuel w rs = some (w', rs', cs)) : Keeps (Mid f act dt T M L cnt m (b - 1)) gone qs rs' :=
  h.pass (WholeRun.runPass_forall (kernel f) T dt fuel (fun a b' => ∀ q, Go f act dt T M L cnt m b q a → Mid f act dt T M L cnt m (b - 1) q b') rs rs' w w' cs
    (fun i p w bk s _ hs q hq => exec1_mid f act dt T M L cnt hdt m b hM q i p fuel w bk s hq hs) hp)

theorem go_dt {m b : ℕ} {gone : TP V → Prop} {qs rs : List (TP V)} (h : Keeps (Go f act dt T M L cnt m b) gone qs rs) : ∀ r ∈ rs, r.2.dt = dt := by
  intro r hr
  obtain ⟨q, hq⟩ := h.right r hr
  rcases hq with hq | ⟨-, n, k, hq, -⟩
  · exact hq.step
  · exact hq.step

theorem rounds_ends (hdt : 1 / 100000000 < |dt|) {user : RMap Unit V} (hu : Recovers user act raises) (fuel : ℕ) (qs : List (TP V)) :
    ∀ (n m b : ℕ) (rs removed : List (TP V)) (calls) (res), n ≤ m → (m ≤ M ∨ Settles f act dt M) →
      Keeps (Mid f act dt T M L cnt m b) (Gone f act dt T M raises) qs rs →
      Recovery.rounds (kernel f) (Recovery.recoveryMap user) T dt fuel n () rs removed calls = some res → Ends f act dt T M raises qs res.ending res.ps := by
  intro n
  induction n with
  | zero => intro m b rs removed calls res _ _ _ h; cases h
  | succ n ih =>
    intro m b rs removed calls res hnm hM hk h
    rw [Recovery.rounds] at h
    split at h
    · obtain ⟨m, rfl⟩ : ∃ j, m = j + 1 := ⟨m - 1, by omega⟩
      rcases handle_mid f act dt T M L cnt raises hu m b hk with ⟨rs1, e1, e2⟩ | ⟨e1, e2, e3⟩
      · rw [e1] at h
        simp only at h
        split at h
        · cases h
        rename_i w2 ps2 cs hp
        have hM' : m ≤ M ∨ Settles f act dt M := hM.imp (fun h => by omega) id
        exact ih m (b - 1) _ _ _ res (by omega) hM' (pass_keeps f act dt T M L cnt hdt m b hM' e2 fuel _ _ _ hp) h
      · rw [e2] at h
        obtain rfl := Option.some.inj h
        exact Or.inr ⟨e1, rfl, e3⟩
    · rename_i hno
      obtain rfl := Option.some.inj h
      exact Or.inl ⟨rfl, hk.settled f act dt T M L cnt hno⟩

theorem jrounds_ends (hdt : 1 / 100000000 < |dt|) {user : RMap Unit V} (hu : Recovers user act raises) (fuel : ℕ) (qs : List (TP V)) :
    ∀ (n m b : ℕ) (rs removed : List (TP V)) (res), n ≤ m → (m ≤ M ∨ Settles f act dt M) →
      Keeps (Mid f act dt T M L cnt m b) (Gone f act dt T M raises) qs rs →
      JitExec.rounds (kernel f) id (Recovery.recoveryMap user) T dt fuel n ((), none) rs removed = some res → Ends f act dt T M raises qs res.1 res.2.1 := by
  intro n
  induction n with
  | zero => intro m b rs removed res _ _ _ h; cases h
  | succ n ih =>
    intro m b rs removed res hnm hM hk h
    rw [JitExec.rounds] at h
    split at h
    · obtain ⟨m, rfl⟩ : ∃ j, m = j + 1 := ⟨m - 1, by omega⟩
      rcases handle_mid f act dt T M L cnt raises hu m b hk with ⟨rs1, e1, e2⟩ | ⟨e1, e2, e3⟩
      · rw [e1] at h
        simp only at h
        split at h
        · cases h
        rename_i w2 ps2 hp
        have hM' : m ≤ M ∨ Settles f act dt M := hM.imp (fun h => by omega) id
        obtain ⟨hw, cs, hp'⟩ := WholeRun.jrunPass f dt T hdt fuel _ ps2 () w2
          (fun q hq => by rw [go_dt f act dt T M L cnt e2 q hq]; exact WholeRun.ne_zero_of hdt) hp
        obtain ⟨⟨⟩, g⟩ := w2
        simp only at hw
        subst hw
        exact ih m (b - 1) _ _ res (by omega) hM' (pass_keeps f act dt T M L cnt hdt m b hM' e2 (fuel + 1) _ _ _ hp') h
      · rw [e2] at h
        obtain rfl := Option.some.inj h
        exact Or.inr ⟨e1, rfl, e3⟩
    · rename_i hno
      obtain rfl := Option.some.inj h
      exact Or.inl ⟨rfl, hk.settled f act dt T M L cnt hno⟩

/-- Before the first pass. -/
theorem start_go (hdt : 1 / 100000000 < |dt|) (m b : ℕ) (hM : m ≤ M ∨ Settles f act dt M) : ∀ (ps : List (TP V)), (∀ q ∈ ps, q.2.dt = dt ∧ Fits dt T q) →
    (cnt → ∀ q ∈ ps, ∀ n : ℕ, T = q.2.time + (n + 1) * dt → n * M + M + 1 ≤ b ∧ n < L) →
    Keeps (Go f act dt T M L cnt m b) (Gone f act dt T M raises) ps (ps.map fun q : TP V => (q.1, { q.2 with state := Code.evaluate }))
  | [], _, _ => .nil
  | q :: ps, h, hb => by
    have hne := WholeRun.ne_zero_of hdt
    refine .keep ?_ (start_go hdt m b hM ps (fun r hr => h r (List.mem_cons_of_mem _ hr)) fun hc r hr => hb hc r (List.mem_cons_of_mem _ hr))
    obtain ⟨h1, h2⟩ := h q List.mem_cons_self
    rcases h2 with h2 | ⟨n, hn⟩
    · exact Or.inl ⟨rfl, h1, WholeRun.trajectory_idle _ hne q h2, Or.inr rfl, h2⟩
    · refine Or.inr ⟨fun hc => ?_, n, M, ⟨rfl, h1, hn, ?_, fun hc => ?_, ?_⟩, rfl⟩
      · have := hb hc q List.mem_cons_self n hn; omega
      · rcases hM with hM | hM
        · exact Or.inl hM
        · exact Or.inr (hM _ _)
      · have := hb hc q List.mem_cons_self n hn; exact ⟨by omega, this.2⟩
      · rw [WholeRun.trajectory_steps _ hne q (n + 1) (T := T) (by rw [hn]; push_cast; ring), contd_start]

theorem keeps_kept {m b : ℕ} {gone : TP V → Prop} {qs rs : List (TP V)} (h : Keeps (Mid f act dt T M L cnt m b) gone qs rs) : Recovery.kept rs = rs :=
  WholeRun.kept_all rs fun r hr => by
    obtain ⟨q, hq⟩ := h.right r hr
    exact (mid_error f act dt T M L cnt hq).1

end Steps

theorem scipy_ends {f : Scheme V} {act : Act V} {user : RMap Unit V} {raises : Bool} (hu : Recovers user act raises) {dt : ℚ} (hdt : 1 / 100000000 < |dt|)
    {M fuel nRounds : ℕ} (hM : nRounds ≤ M ∨ Settles f act dt M) {T : ℚ} {ps ps' : List (TP V)} {e : Recovery.Ending} (hps : ∀ q ∈ ps, q.2.dt = dt ∧ Fits dt T q)
    (h : scipyExec (kernel f) user fuel nRounds T dt ps = some (e, ps')) : Ends f act dt T M raises ps e ps' := by
  unfold scipyExec at h
  rw [Option.map_eq_some_iff] at h
  obtain ⟨r, h, hr⟩ := h
  obtain ⟨rfl, rfl⟩ := Prod.mk.inj hr
  unfold Recovery.execute at h
  split at h
  · cases h
  rename_i w1 ps1 cs hp1
  have h1 := pass_keeps f act dt T M 0 False hdt nRounds 0 hM (start_go f act dt T M 0 False raises hdt nRounds 0 hM ps hps (fun h => h.elim)) fuel _ _ _ hp1
  rw [keeps_kept f act dt T M 0 False h1] at h
  exact rounds_ends f act dt T M 0 False raises hdt hu fuel ps nRounds nRounds _ ps1 _ _ _ le_rfl hM h1 h

theorem jit_ends {f : Scheme V} {act : Act V} {user : RMap Unit V} {raises : Bool} (hu : Recovers user act raises) {dt : ℚ} (hdt : 1 / 100000000 < |dt|)
    {M fuel nRounds : ℕ} (hM : nRounds ≤ M ∨ Settles f act dt M) {T : ℚ} {ps ps' : List (TP V)} {e : Recovery.Ending} (hps : ∀ q ∈ ps, q.2.dt = dt ∧ Fits dt T q)
    (h : jitExec (kernel f) user fuel nRounds T dt ps = some (e, ps')) : Ends f act dt T M raises ps e ps' := by
  unfold jitExec at h
  rw [Option.map_eq_some_iff] at h
  obtain ⟨r, h, hr⟩ := h
  obtain ⟨rfl, rfl⟩ := Prod.mk.inj hr
  unfold JitExec.execute at h
  split at h
  · cases h
  rename_i w1 ps1 hp1
  have h0 := start_go f act dt T M 0 False raises hdt nRounds 0 hM ps hps (fun h => h.elim)
  obtain ⟨hw, cs, hp2⟩ := WholeRun.jrunPass f dt T hdt fuel _ ps1 () w1
    (fun q hq => by rw [go_dt f act dt T M 0 False h0 q hq]; exact WholeRun.ne_zero_of hdt) hp1
  obtain ⟨⟨⟩, g⟩ := w1
  simp only at hw
  subst hw
  have h1 := pass_keeps f act dt T M 0 False hdt nRounds 0 hM h0 (fuel + 1) _ _ _ hp2
  rw [keeps_kept f act dt T M 0 False h1] at h
  exact jrounds_ends f act dt T M 0 False raises hdt hu fuel ps nRounds nRounds _ ps1 _ _ le_rfl hM h1 h

/-! ### The run ends -/

section Total

variable (f : Scheme V) (act : Act V) (dt T : ℚ) (M L : ℕ) (raises : Bool)

theorem go_total (hdt : 1 / 100000000 < |dt|) {m b : ℕ} {gone : TP V → Prop} {qs rs : List (TP V)} (h : Keeps (Go f act dt T M L True m b) gone qs rs) (w : Unit) :
    (Recovery.runPass (kernel f) T dt (L + 1) w rs).isSome := by
  have hne := WholeRun.ne_zero_of hdt
  refine WholeRun.runPass_total (kernel f) T dt (L + 1) rs w fun r hr w b' => ?_
  obtain ⟨q, hq⟩ := h.right r hr
  rcases hq with hq | ⟨-, n, k, hq, -⟩
  · obtain ⟨s, hs, -⟩ := WholeRun.exec1_idle (kernel f) T dt hdt (L + 1) w b' r.2 hq.after
    rw [hs]
    rfl
  · have hn := (hq.count trivial).2
    have e : T - r.2.time = ((n : ℚ) + 1) * dt := by rw [hq.left]; ring
    have hn0 : (0 : ℚ) ≤ n := Nat.cast_nonneg n
    apply KernelLoop.exec1_terminates (kernel f) (WholeRun.kernel_dt f) _ dt (WholeRun.not_close hdt) L w b' r.2
    · rw [hq.step]; exact abs_pos.mpr hne
    · unfold KernelLoop.NotBefore
      rw [e, mul_assoc, WholeRun.mul_sgn_self]
      positivity
    · rw [hq.step, e, abs_mul, abs_of_nonneg (by linarith)]
      have : (n : ℚ) + 1 ≤ L := by exact_mod_cast hn
      exact mul_le_mul_of_nonneg_right this (abs_nonneg dt)

theorem go_zero {m : ℕ} {gone : TP V → Prop} {qs rs : List (TP V)} (h : Keeps (Go f act dt T M L True m 0) gone qs rs) :
    Keeps (Settled f act dt T M) gone qs rs := by
  induction h with
  | nil => exact .nil
  | keep hr _ ih =>
    rcases hr with hr | ⟨hr, -⟩
    · exact .keep hr ih
    · exact absurd (hr trivial) (by omega)
  | drop hg _ ih => exact .drop hg ih

theorem settled_pass (hdt : 1 / 100000000 < |dt|) {gone : TP V → Prop} {qs rs rs' : List (TP V)} (h : Keeps (Settled f act dt T M) gone qs rs) (fuel : ℕ) (w w' : Unit) (cs)
    (hp : Recovery.runPass (kernel f) T dt fuel w rs = some (w', rs', cs)) : ¬ (rs'.any fun p => decide (Recovery.isError p.2)) = true := by
  have h1 : Keeps (Settled f act dt T M) gone qs rs' := by
    refine h.pass (WholeRun.runPass_forall (kernel f) T dt fuel (fun a b' => ∀ q, Settled f act dt T M q a → Settled f act dt T M q b') rs rs' w w' cs
      (fun i p w bk s _ hs q hq => ?_) hp)
    obtain ⟨s', e1, -, e2⟩ := WholeRun.exec1_idle (kernel f) T dt hdt fuel w bk p hq.after
    rw [e1] at hs
    obtain rfl := Option.some.inj hs
    obtain ⟨g1, g2, g3, g4, g5⟩ := hq
    rcases e2 with e2 | e2 <;> rw [e2]
    · exact ⟨g1, g2, g3, g4, g5⟩
    · exact ⟨g1, g2, g3, Or.inl rfl, g5⟩
  rw [List.any_eq_true]
  rintro ⟨r, hr, hr'⟩
  obtain ⟨q, hq⟩ := h1.right r hr
  have hr' : Recovery.isError r.2 := by simpa using hr'
  rcases hq.state with c | c
  · exact hr'.1 c
  · exact hr'.2 c

theorem rounds_total (hdt : 1 / 100000000 < |dt|) {user : RMap Unit V} (hu : Recovers user act raises) (hM : Settles f act dt M) (qs : List (TP V)) :
    ∀ (b m : ℕ) (rs removed : List (TP V)) (calls), b + 2 ≤ m → Keeps (Mid f act dt T M L True m b) (Gone f act dt T M raises) qs rs →
      (Recovery.rounds (kernel f) (Recovery.recoveryMap user) T dt (L + 1) (b + 2) () rs removed calls).isSome := by
  intro b
  induction b with
  | zero =>
    intro m rs removed calls hm hk
    rw [Recovery.rounds]
    split
    · obtain ⟨m, rfl⟩ : ∃ j, m = j + 1 := ⟨m - 1, by omega⟩
      rcases handle_mid f act dt T M L True raises hu m 0 hk with ⟨rs1, e1, e2⟩ | ⟨e1, e2, e3⟩
      · rw [e1]
        simp only
        obtain ⟨⟨w2, ps2, cs⟩, hp⟩ := Option.isSome_iff_exists.mp (go_total f act dt T M L hdt e2 ())
        rw [hp]
        simp only
        rw [Recovery.rounds, if_neg (settled_pass f act dt T M hdt (go_zero f act dt T M L e2) _ _ _ _ hp)]
        rfl
      · rw [e2]
        rfl
    · rfl
  | succ b ih =>
    intro m rs removed calls hm hk
    rw [Recovery.rounds]
    split
    · obtain ⟨m, rfl⟩ : ∃ j, m = j + 1 := ⟨m - 1, by omega⟩
      rcases handle_mid f act dt T M L True raises hu m (b + 1) hk with ⟨rs1, e1, e2⟩ | ⟨e1, e2, e3⟩
      · rw [e1]
        simp only
        obtain ⟨⟨w2, ps2, cs⟩, hp⟩ := Option.isSome_iff_exists.mp (go_total f act dt T M L hdt e2 ())
        rw [hp]
        exact ih m _ _ _ (by omega) (pass_keeps f act dt T M L True hdt m (b + 1) (Or.inr hM) e2 (L + 1) _ _ _ hp)
      · rw [e2]
        rfl
    · rfl

theorem jrounds_total (hdt : 1 / 100000000 < |dt|) {user : RMap Unit V} (hu : Recovers user act raises) (hM : Settles f act dt M) (qs : List (TP V)) :
    ∀ (b m : ℕ) (rs removed : List (TP V)), b + 2 ≤ m → Keeps (Mid f act dt T M L True m b) (Gone f act dt T M raises) qs rs →
      (JitExec.rounds (kernel f) id (Recovery.recoveryMap user) T dt (L + 1) (b + 2) ((), none) rs removed).isSome := by
  have hne := WholeRun.ne_zero_of hdt
  intro b
  induction b with
  | zero =>
    intro m rs removed hm hk
    rw [JitExec.rounds]
    split
    · obtain ⟨m, rfl⟩ : ∃ j, m = j + 1 := ⟨m - 1, by omega⟩
      rcases handle_mid f act dt T M L True raises hu m 0 hk with ⟨rs1, e1, e2⟩ | ⟨e1, e2, e3⟩
      · rw [e1]
        simp only
        obtain ⟨⟨w2, ps2, cs⟩, hp⟩ := Option.isSome_iff_exists.mp (go_total f act dt T M L hdt e2 ())
        rw [WholeRun.jrunPass_total f hdt (L + 1) _ ps2 () w2 cs (fun q hq => by rw [go_dt f act dt T M L True e2 q hq]; exact hne) hp]
        simp only
        rw [JitExec.rounds, if_neg (settled_pass f act dt T M hdt (go_zero f act dt T M L e2) _ _ _ _ hp)]
        rfl
      · rw [e2]
        rfl
    · rfl
  | succ b ih =>
    intro m rs removed hm hk
    rw [JitExec.rounds]
    split
    · obtain ⟨m, rfl⟩ : ∃ j, m = j + 1 := ⟨m - 1, by omega⟩
      rcases handle_mid f act dt T M L True raises hu m (b + 1) hk with ⟨rs1, e1, e2⟩ | ⟨e1, e2, e3⟩
      · rw [e1]
        simp only
        obtain ⟨⟨w2, ps2, cs⟩, hp⟩ := Option.isSome_iff_exists.mp (go_total f act dt T M L hdt e2 ())
        rw [WholeRun.jrunPass_total f hdt (L + 1) _ ps2 () w2 cs (fun q hq => by rw [go_dt f act dt T M L True e2 q hq]; exact hne) hp]
        exact ih m _ _ (by omega) (pass_keeps f act dt T M L True hdt m (b + 1) (Or.inr hM) e2 (L + 1) _ _ _ hp)
      · rw [e2]
        rfl
    · rfl

end Total

/-- Particles on the grid of times, for `start_go`. -/
theorem grid_ready {S dt : ℚ} (hdt : 1 / 100000000 < |dt|) {n N M : ℕ} {ps : List (TP V)} (hn : n ≤ N)
    (hps : ∀ q ∈ ps, q.2.dt = dt ∧ ∃ j : ℕ, q.2.time = S + j * dt) :
    (∀ q ∈ ps, q.2.dt = dt ∧ Fits dt (S + n * dt) q) ∧
    ∀ q ∈ ps, ∀ i : ℕ, S + n * dt = q.2.time + (i + 1) * dt → i * M + M + 1 ≤ N * M + 1 ∧ i < N := by
  have hne := WholeRun.ne_zero_of hdt
  constructor
  · intro q hq
    refine ⟨(hps q hq).1, ?_⟩
    obtain ⟨j, hj⟩ := (hps q hq).2
    rcases Nat.lt_or_ge j n with c | c
    · exact Or.inr ⟨n - j - 1, by rw [hj, Nat.cast_sub (by omega : 1 ≤ n - j), Nat.cast_sub c.le]; push_cast; ring⟩
    · exact Or.inl (by rw [hj]; exact (WholeRun.grid_le hne).mpr c)
  · intro q hq i hi
    obtain ⟨j, hj⟩ := (hps q hq).2
    rw [hj] at hi
    have h1 : n = j + (i + 1) := WholeRun.grid_inj (S := S) hne (by rw [hi]; push_cast; ring)
    have h2 : i + 1 ≤ N := by omega
    have h3 := Nat.mul_le_mul_right M h2
    rw [Nat.add_mul, Nat.one_mul] at h3
    exact ⟨by omega, by omega⟩

theorem scipy_total {f : Scheme V} {act : Act V} {user : RMap Unit V} {raises : Bool} (hu : Recovers user act raises) {S dt : ℚ} (hdt : 1 / 100000000 < |dt|)
    {M N : ℕ} (hM : Settles f act dt M) (n : ℕ) (ps : List (TP V)) (hn : n ≤ N) (hps : ∀ q ∈ ps, q.2.dt = dt ∧ ∃ j : ℕ, q.2.time = S + j * dt) :
    (scipyExec (kernel f) user (N + 1) (N * M + 2) (S + n * dt) dt ps).isSome := by
  obtain ⟨h1, h2⟩ := grid_ready (M := M) hdt hn hps
  have h0 := start_go f act dt (S + n * dt) M N True raises hdt (N * M + 2) (N * M + 1) (Or.inr hM) ps h1 (fun _ => h2)
  unfold scipyExec
  rw [Option.isSome_map]
  unfold Recovery.execute
  obtain ⟨⟨w1, ps1, cs⟩, hp1⟩ := Option.isSome_iff_exists.mp (go_total f act dt (S + n * dt) M N hdt h0 ())
  rw [hp1]
  have h3 := pass_keeps f act dt (S + n * dt) M N True hdt (N * M + 2) (N * M + 1) (Or.inr hM) h0 (N + 1) _ _ _ hp1
  simp only
  rw [keeps_kept f act dt (S + n * dt) M N True h3]
  exact rounds_total f act dt (S + n * dt) M N raises hdt hu hM ps (N * M) (N * M + 2) ps1 _ _ le_rfl h3

theorem jit_total {f : Scheme V} {act : Act V} {user : RMap Unit V} {raises : Bool} (hu : Recovers user act raises) {S dt : ℚ} (hdt : 1 / 100000000 < |dt|)
    {M N : ℕ} (hM : Settles f act dt M) (n : ℕ) (ps : List (TP V)) (hn : n ≤ N) (hps : ∀ q ∈ ps, q.2.dt = dt ∧ ∃ j : ℕ, q.2.time = S + j * dt) :
    (jitExec (kernel f) user (N + 1) (N * M + 2) (S + n * dt) dt ps).isSome := by
  have hne := WholeRun.ne_zero_of hdt
  obtain ⟨h1, h2⟩ := grid_ready (M := M) hdt hn hps
  have h0 := start_go f act dt (S + n * dt) M N True raises hdt (N * M + 2) (N * M + 1) (Or.inr hM) ps h1 (fun _ => h2)
  unfold jitExec
  rw [Option.isSome_map]
  unfold JitExec.execute
  obtain ⟨⟨w1, ps1, cs⟩, hp1⟩ := Option.isSome_iff_exists.mp (go_total f act dt (S + n * dt) M N hdt h0 ())
  rw [show ((id () : Unit), (none : Option ℚ)) = ((), none) from rfl,
    WholeRun.jrunPass_total f hdt (N + 1) _ ps1 () w1 cs (fun q hq => by rw [go_dt f act dt (S + n * dt) M N True h0 q hq]; exact hne) hp1]
  have h3 := pass_keeps f act dt (S + n * dt) M N True hdt (N * M + 2) (N * M + 1) (Or.inr hM) h0 (N + 1) _ _ _ hp1
  simp only
  rw [keeps_kept f act dt (S + n * dt) M N True h3]
  exact jrounds_total f act dt (S + n * dt) M N raises hdt hu hM ps (N * M) (N * M + 2) ps1 _ le_rfl h3

/-! ### In terms of the runs of C97 -/

/-- Recovery functions for the mended scheme. -/
def plainMap (raises : Bool) : RMap Unit V := fun _ => if raises then none else some fun w p => (w, some { p with state := .delete })

theorem plain_false : WholeRun.Deletes (plainMap (V := V) false) := by
  intro e
  cases e <;> rfl

theorem plain_true : WholeRun.Raises (plainMap (V := V) true) := by
  intro e
  cases e <;> exact ⟨_, rfl, fun _ _ => rfl⟩

theorem effect_of {f : Scheme V} {act : Act V} {raises : Bool} {dt T : ℚ} {M : ℕ} {ps ps' : List (TP V)} {e : Recovery.Ending}
    (h : Ends f act dt T M raises ps e ps') : WholeRun.Effect (plainMap raises) (mended f act M) dt T ps e ps' := by
  constructor
  · intro hg
    rcases h with ⟨rfl, h⟩ | ⟨rfl, rfl, q, hq, hq'⟩
    · obtain ⟨h1, h2, -⟩ := h.core
      exact ⟨rfl, h1, h2⟩
    · exfalso
      rcases hg with hg | hg
      · have h1 := hg .outOfBound
        obtain ⟨g, h2, h3⟩ := plain_true (V := V) .outOfBound
        rw [h1] at h2
        obtain rfl := Option.some.inj h2
        cases h3 () q.2
      · have := hg q hq
        rw [hq'] at this
        cases this
  · intro hr ⟨q, hq, hq'⟩
    rcases h with ⟨rfl, h⟩ | ⟨-, rfl, -⟩
    · exfalso
      cases raises with
      | false =>
        obtain ⟨g, h2, h3⟩ := hr .outOfBound
        rw [plain_false] at h2
        obtain rfl := Option.some.inj h2
        cases h3 () q.2
      | true =>
        obtain ⟨-, -, h3⟩ := h.core
        have := h3 rfl q hq
        rw [hq'] at this
        cases this
    · rfl

end Parcels.RepairRun
