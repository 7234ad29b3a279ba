import Verif.Spec.PathRun
import Verif.Proofs.WholeRun4

namespace Parcels.PathRun

open KernelLoop (Particle Kern Exc LS)
open Recovery (TP RMap)
open WholeRun (Scheme kernel scipyExec jitExec ne_zero_of not_close)
open RepairRun (Act Recovers)

variable {V : Type}

theorem sgn_sq {dt : ℚ} (hdt : 1 / 100000000 < |dt|) : sgn dt * sgn dt = 1 := sgn_mul_self_of_ne (ne_zero_of hdt)

theorem step_of {dt p : ℚ} (hdt : 1 / 100000000 < |dt|) (h0 : 0 < p) (h1 : p ≤ |dt|) : Step dt (sgn dt * p) ∧ |sgn dt * p| = p := by
  have e := abs_sgn_mul (ne_zero_of hdt) h0.le
  refine ⟨⟨?_, by rw [e]; exact h1⟩, e⟩
  have : sgn dt * p * sgn dt = p * (sgn dt * sgn dt) := by ring
  rw [this, sgn_sq hdt, mul_one]
  exact h0

/-- One step of the loop. -/
theorem step_path (f : Scheme V) (T dt : ℚ) (hdt : 1 / 100000000 < |dt|) (s : LS Unit V) (hst : s.p.state = .evaluate) (hn : s.nextDt = none)
    (hp : 1 / 100000000 < s.dtPos) (hp1 : s.dtPos ≤ |dt|) :
    (∀ v, f s.p.time (sgn dt * s.dtPos) s.p.vars = .ok v → ∃ s' st, KernelLoop.step (kernel f) T dt s = (s', false) ∧
      s'.p = ⟨s.p.time + sgn dt * s.dtPos, sgn dt * s.dtPos, st, v⟩ ∧ s'.nextDt = none ∧
      ((st = .success ∧ (T - s'.p.time) * sgn dt ≤ 1 / 100000000) ∨
       (st = .evaluate ∧ 1 / 100000000 < s'.dtPos ∧ s'.dtPos ≤ s.dtPos ∧ s'.dtPos ≤ (T - s'.p.time) * sgn dt))) ∧
    (∀ e, f s.p.time (sgn dt * s.dtPos) s.p.vars = .error e → ∃ s', KernelLoop.step (kernel f) T dt s = (s', true) ∧
      s'.p = ⟨s.p.time, sgn dt * s.dtPos, e.code, s.p.vars⟩) := by
  have hne := ne_zero_of hdt
  have habs := (step_of hdt (by linarith : 0 < s.dtPos) hp1).2
  have hpre : KernelLoop.preAt dt s = { s.p with dt := sgn dt * s.dtPos } := rfl
  constructor
  · intro v hv
    have ho : KernelLoop.outAt (kernel f) dt s = ⟨{ s.p with dt := sgn dt * s.dtPos, vars := v }, none, .ret none⟩ := by
      simp only [KernelLoop.outAt, hpre, kernel, hv]
    have hc : KernelLoop.codeAt (kernel f) dt s = .success := by
      simp only [KernelLoop.codeAt, ho, hpre]
      exact WholeRun.resolve_ok { s.p with dt := sgn dt * s.dtPos } _
    have key := KernelLoop.step_commit (kernel f) T dt s (Or.inl hc) ho (time' := s.p.time + sgn dt * s.dtPos) (dt' := sgn dt * s.dtPos)
      (dtPos := min |sgn dt * s.dtPos| |T - (s.p.time + sgn dt * s.dtPos)|) (st := _) rfl (by simp [hn]) rfl rfl
    rw [not_close hdt] at key
    refine ⟨_, _, key, rfl, rfl, ?_⟩
    dsimp only
    rw [hc, habs]
    by_cases hg : sgn (T - (s.p.time + sgn dt * s.dtPos)) = sgn dt
    · have hpos := (sgn_eq_of_ne_zero hne).mp hg
      have hab := abs_eq_mul_sgn hne hpos.le
      have hg' : ¬ sgn (T - (s.p.time + sgn dt * s.dtPos)) ≠ sgn dt := not_not.mpr hg
      simp only [if_neg hg']
      by_cases hz : isclose (min s.dtPos |T - (s.p.time + sgn dt * s.dtPos)|) 0 = true
      · left
        rw [if_neg (by rintro ⟨-, h, -⟩; exact h hz)]
        refine ⟨rfl, ?_⟩
        rw [isclose_zero_iff, abs_of_nonneg (le_min (by linarith) (abs_nonneg _)), min_le_iff] at hz
        rw [← hab]
        rcases hz with hz | hz
        · linarith
        · exact hz
      · right
        rw [if_pos ⟨by decide, hz, hg⟩]
        rw [isclose_zero_iff, abs_of_nonneg (le_min (by linarith) (abs_nonneg _)), not_le] at hz
        exact ⟨rfl, hz, min_le_left _ _, by rw [← hab]; exact min_le_right _ _⟩
    · left
      rw [if_neg (by rintro ⟨-, -, h⟩; exact hg h)]
      refine ⟨rfl, ?_⟩
      rw [sgn_eq_of_ne_zero hne, not_lt] at hg
      linarith
  · intro e he
    have ho : KernelLoop.outAt (kernel f) dt s = ⟨{ s.p with dt := sgn dt * s.dtPos }, none, .exc e⟩ := by
      simp only [KernelLoop.outAt, hpre, kernel, he]
    have hc : KernelLoop.codeAt (kernel f) dt s = e.code := by
      simp only [KernelLoop.codeAt, ho, KernelLoop.resolve]
    obtain ⟨h1, h2, h3⟩ := WholeRun.exc_code e
    obtain ⟨k1, -, -, -, -, k2⟩ := KernelLoop.step_fail (kernel f) T dt s (by rw [hc]; rintro (h | h); exacts [h1 h, h2 h])
    refine ⟨(KernelLoop.step (kernel f) T dt s).1, Prod.ext rfl k1, ?_⟩
    rw [k2, ho, hc]

section Steps

variable (f : Scheme V) (act : Act V) (dt E : ℚ) (raises : Bool)

/-- Where a particle can be. `E`: the end of the run. -/
structure Walk (q r : TP V) : Prop where
  tag : r.1 = q.1
  path : Path f act dt q.2.time q.2.vars r.2.time r.2.vars
  sign : 0 < r.2.dt * sgn dt
  small : 1 / 100000000 < |r.2.dt|
  le : |r.2.dt| ≤ |dt|
  end_ : (r.2.time - E) * sgn dt ≤ 0 ∨ r.2.time = q.2.time

/-- At the stop `T`. -/
def There (T : ℚ) (r : TP V) : Prop := (T - r.2.time) * sgn dt ≤ 1 / 100000000

/-- Before a pass. -/
def Go (T : ℚ) (q r : TP V) : Prop :=
  Walk f act dt E q r ∧ (r.2.state = .evaluate ∨ r.2.state = .success ∧ There dt T r)

/-- After a pass. -/
def Mid (T : ℚ) (q r : TP V) : Prop :=
  Walk f act dt E q r ∧ ((r.2.state = .success ∨ r.2.state = .evaluate) ∧ There dt T r ∨
    ∃ e h, Step dt h ∧ r.2.state = Exc.code e ∧ f r.2.time h r.2.vars = .error e)

theorem loop_path (hdt : 1 / 100000000 < |dt|) {T : ℚ} (hT : (T - E) * sgn dt ≤ 0) (q : TP V) (i : ℕ) : ∀ (fuel : ℕ) (s s' : LS Unit V),
    s.p.state = .evaluate → s.nextDt = none → 1 / 100000000 < s.dtPos → s.dtPos ≤ |dt| → s.dtPos ≤ (T - s.p.time) * sgn dt → Walk f act dt E q (i, s.p) →
    KernelLoop.loop (kernel f) T dt fuel s = some s' → Mid f act dt E T q (i, s'.p) := by
  intro fuel
  induction fuel with
  | zero => intro s s' _ _ _ _ _ _ h; cases h
  | succ fuel ih =>
    intro s s' hst hn hp hp1 hp2 hw h
    obtain ⟨k1, k2⟩ := step_path f T dt hdt s hst hn hp hp1
    obtain ⟨a1, a2⟩ := step_of hdt (by linarith : 0 < s.dtPos) hp1
    have sq := sgn_sq hdt
    rw [KernelLoop.loop, if_pos (show KernelLoop.cond dt s from Or.inl hst)] at h
    cases hf : f s.p.time (sgn dt * s.dtPos) s.p.vars with
    | ok v =>
      obtain ⟨s1, st, e1, e2, e3, e4⟩ := k1 v hf
      rw [e1] at h
      simp only at h
      have hw1 : Walk f act dt E q (i, s1.p) := by
        rw [e2]
        refine ⟨hw.tag, hw.path.step a1 hf, a1.1, by simp only [a2]; exact hp, by simp only [a2]; exact hp1, Or.inl ?_⟩
        have : (s.p.time + sgn dt * s.dtPos - E) * sgn dt = (T - E) * sgn dt - (T - s.p.time) * sgn dt + s.dtPos * (sgn dt * sgn dt) := by ring
        simp only [this, sq]
        linarith
      rcases e4 with ⟨g1, g2⟩ | ⟨g1, g2, g3, g4⟩
      · have hs' : s' = s1 := by
          cases fuel with
          | zero => cases h
          | succ fuel =>
            rw [KernelLoop.loop, if_neg] at h
            · exact (Option.some.inj h).symm
            · rintro (c | c | c)
              · rw [e2] at c; simp [g1] at c
              · rw [e2] at c; simp [g1] at c
              · rw [not_close hdt] at c; cases c
        subst hs'
        exact ⟨hw1, Or.inl ⟨Or.inl (by rw [e2]; exact g1), g2⟩⟩
      · exact ih s1 s' (by rw [e2]; exact g1) e3 g2 (by linarith) g4 hw1 h
    | error e =>
      obtain ⟨s1, e1, e2⟩ := k2 e hf
      rw [e1] at h
      obtain rfl := Option.some.inj h
      refine ⟨?_, Or.inr ⟨e, _, a1, by rw [e2], by rw [e2]; exact hf⟩⟩
      rw [e2]
      exact ⟨hw.tag, hw.path, a1.1, by simp only [a2]; exact hp, by simp only [a2]; exact hp1, hw.end_⟩

theorem exec1_path (hdt : 1 / 100000000 < |dt|) {T : ℚ} (hT : (T - E) * sgn dt ≤ 0) (q : TP V) (i : ℕ) (p : Particle V) (fuel : ℕ) (w : Unit)
    (bk : Option (Particle V)) (s : LS Unit V) (hg : Go f act dt E T q (i, p)) (h : KernelLoop.exec1 (kernel f) T dt fuel w bk p = some s) :
    Mid f act dt E T q (i, s.p) := by
  have hne := ne_zero_of hdt
  obtain ⟨hw, hst⟩ := hg
  unfold KernelLoop.exec1 at h
  simp only [] at h
  by_cases hs : KernelLoop.skips T dt p
  · rw [if_pos hs] at h
    obtain rfl := Option.some.inj h
    have ht : There dt T (i, p) := by
      unfold There
      rcases hs.1 with c | c
      · rw [ne_eq, sgn_eq_of_ne_zero hne, not_lt] at c
        have : (T - (i, p).2.time) * sgn dt = (T - p.time) * sgn dt := rfl
        linarith
      · rw [isclose_zero_iff, abs_of_nonneg (le_min (abs_nonneg _) (abs_nonneg _)), min_le_iff] at c
        have h1 : 1 / 100000000 < |p.dt| := hw.small
        rcases c with c | c
        · linarith
        · have h2 : |(T - p.time) * sgn dt| ≤ 1 / 100000000 := by
            rw [abs_mul]
            have : |sgn dt| = 1 := by rcases sgn_cases dt with ⟨-, h⟩ | ⟨-, h⟩ | ⟨h, -⟩ <;> first | exact absurd h hne | (rw [h]; norm_num)
            rw [this, mul_one]; exact c
          exact le_trans (le_abs_self _) h2
    dsimp only
    obtain ⟨w1, w2, w3, w4, w5, w6⟩ := hw
    split
    · exact ⟨⟨w1, w2, w3, w4, w5, w6⟩, Or.inl ⟨Or.inl rfl, ht⟩⟩
    · exact ⟨⟨w1, w2, w3, w4, w5, w6⟩, Or.inl ⟨hst.elim Or.inr fun h => Or.inl h.1, ht⟩⟩
  · rw [if_neg hs] at h
    have hs2 : sgn (T - p.time) = sgn dt ∧ ¬ isclose (min |p.dt| |T - p.time|) 0 = true := by
      by_contra c
      apply hs
      refine ⟨?_, not_close hdt⟩
      by_cases c1 : sgn (T - p.time) = sgn dt
      · exact Or.inr (by by_contra c2; exact c ⟨c1, c2⟩)
      · exact Or.inl c1
    obtain ⟨c1, c2⟩ := hs2
    rw [isclose_zero_iff, abs_of_nonneg (le_min (abs_nonneg _) (abs_nonneg _)), not_le] at c2
    have hab := abs_eq_mul_sgn hne ((sgn_eq_of_ne_zero hne).mp c1).le
    have h1 : 1 / 100000000 < (T - p.time) * sgn dt := by
      rw [← hab]; exact lt_of_lt_of_le c2 (min_le_right _ _)
    have hev : p.state = .evaluate := by
      rcases hst with hst | ⟨-, hst⟩
      · exact hst
      · have h2 : (T - p.time) * sgn dt ≤ 1 / 100000000 := hst
        linarith
    exact loop_path f act dt E hdt hT q i fuel _ s hev rfl c2 (le_trans (min_le_left _ _) hw.le) (by rw [← hab]; exact min_le_right _ _) hw h

end Steps

theorem Account.pass {R R' : TP V → TP V → Prop} {gone : TP V → Prop} {qs rs rs' : List (TP V)} (h : Account R gone qs rs)
    (h2 : List.Forall₂ (fun a b => ∀ q, R q a → R' q b) rs rs') : Account R' gone qs rs' := by
  induction h generalizing rs' with
  | nil => cases h2; exact .nil
  | keep hr _ ih => cases h2 with | cons h3 h4 => exact .keep (h3 _ hr) (ih h4)
  | drop hg _ ih => exact .drop hg (ih h2)

theorem Account.right {R : TP V → TP V → Prop} {gone : TP V → Prop} {qs rs : List (TP V)} (h : Account R gone qs rs) : ∀ r ∈ rs, ∃ q ∈ qs, R q r := by
  induction h with
  | nil => intro r hr; cases hr
  | keep hr _ ih =>
    intro r h
    rcases List.mem_cons.mp h with rfl | h
    · exact ⟨_, List.mem_cons_self, hr⟩
    · obtain ⟨q, hq, hq'⟩ := ih r h
      exact ⟨q, List.mem_cons_of_mem _ hq, hq'⟩
  | drop _ _ ih =>
    intro r h
    obtain ⟨q, hq, hq'⟩ := ih r h
    exact ⟨q, List.mem_cons_of_mem _ hq, hq'⟩

theorem Account.imp {R R' : TP V → TP V → Prop} {gone gone' : TP V → Prop} {qs rs : List (TP V)} (h : Account R gone qs rs)
    (h1 : ∀ q ∈ qs, ∀ r ∈ rs, R q r → R' q r) (h2 : ∀ q ∈ qs, gone q → gone' q) : Account R' gone' qs rs := by
  induction h with
  | nil => exact .nil
  | keep hr _ ih =>
    exact .keep (h1 _ List.mem_cons_self _ List.mem_cons_self hr)
      (ih (fun q hq r hr => h1 q (List.mem_cons_of_mem _ hq) r (List.mem_cons_of_mem _ hr)) fun q hq => h2 q (List.mem_cons_of_mem _ hq))
  | drop hg _ ih =>
    exact .drop (h2 _ List.mem_cons_self hg) (ih (fun q hq r hr => h1 q (List.mem_cons_of_mem _ hq) r hr) fun q hq => h2 q (List.mem_cons_of_mem _ hq))

section Exec

variable (f : Scheme V) (act : Act V) (dt E : ℚ) (raises : Bool)

/-- Why a particle is missing. -/
def Gone (q : TP V) : Prop := raises = false ∧ Fails f act dt q

/-- One round of recovery. -/
theorem handle_path {user : RMap Unit V} (hu : Recovers user act raises) {T : ℚ} {qs rs : List (TP V)}
    (h : Account (Mid f act dt E T) (Gone f act dt raises) qs rs) :
    (∃ rs1, Recovery.handleAll (Recovery.recoveryMap user) () rs = .done () rs1 ∧
      Account (Go f act dt E T) (Gone f act dt raises) qs (Recovery.kept rs1)) ∨
    (raises = true ∧ Recovery.handleAll (Recovery.recoveryMap user) () rs = .raised ∧ ∃ q ∈ qs, Fails f act dt q) := by
  induction h with
  | nil => exact Or.inl ⟨[], rfl, .nil⟩
  | @drop q qs rs hg _ ih =>
    rcases ih with ⟨rs1, e1, e2⟩ | ⟨e1, e2, x, hx, hx'⟩
    · exact Or.inl ⟨rs1, e1, .drop hg e2⟩
    · exact Or.inr ⟨e1, e2, x, List.mem_cons_of_mem _ hx, hx'⟩
  | @keep q r qs rs hr _ ih =>
    obtain ⟨hw, ⟨hst, ht⟩ | ⟨e, hh, hstep, hst, hf⟩⟩ := hr
    · have hne : ¬ Recovery.isError r.2 := by
        rintro ⟨c1, c2⟩
        rcases hst with c | c
        · exact c1 c
        · exact c2 c
      have hnd : r.2.state ≠ .delete := by rcases hst with c | c <;> rw [c] <;> decide
      rcases ih with ⟨rs1, e1, e2⟩ | ⟨e1, e2, x, hx, hx'⟩
      · refine Or.inl ⟨r :: rs1, by rw [Recovery.handleAll, if_neg hne, e1], ?_⟩
        unfold Recovery.kept at e2 ⊢
        rw [List.filter_cons_of_pos (by simpa using hnd)]
        exact .keep ⟨hw, hst.symm.imp id fun c => ⟨c, ht⟩⟩ e2
      · exact Or.inr ⟨e1, by rw [Recovery.handleAll, if_neg hne, e2], x, List.mem_cons_of_mem _ hx, hx'⟩
    · obtain ⟨c1, c2, c3, c4, c5⟩ := WholeRun.exc_code e
      have hne : Recovery.isError r.2 := by
        constructor <;> rw [hst] <;> assumption
      obtain ⟨hd, h1, h2⟩ := hu e
      have h3 := h2 () { r.2 with state := .success }
      dsimp only at h3
      cases ha : act e r.2.time r.2.vars with
      | some v =>
        rw [ha] at h3
        simp only at h3
        have hh : Recovery.handleOne (Recovery.recoveryMap user) () r.2 = .cont () { r.2 with state := .evaluate, vars := v } := by
          unfold Recovery.handleOne
          rw [hst, if_neg c5, if_neg c4, if_neg c2, h1]
          simp only [h3, if_true]
        rcases ih with ⟨rs1, e1, e2⟩ | ⟨e1, e2, x, hx, hx'⟩
        · refine Or.inl ⟨(r.1, { r.2 with state := .evaluate, vars := v }) :: rs1, by rw [Recovery.handleAll, if_pos hne, hh]; simp only [e1], ?_⟩
          unfold Recovery.kept at e2 ⊢
          rw [List.filter_cons_of_pos (by simp)]
          exact .keep ⟨⟨hw.tag, hw.path.repair hstep hf ha, hw.sign, hw.small, hw.le, hw.end_⟩, Or.inl rfl⟩ e2
        · exact Or.inr ⟨e1, by rw [Recovery.handleAll, if_pos hne, hh]; simp only [e2], x, List.mem_cons_of_mem _ hx, hx'⟩
      | none =>
        rw [ha] at h3
        simp only at h3
        have hnone : Fails f act dt q := ⟨_, _, _, _, hw.path, hstep, hf, ha⟩
        cases raises with
        | true =>
          simp only [if_true] at h3
          refine Or.inr ⟨rfl, ?_, q, List.mem_cons_self, hnone⟩
          have hh : ∃ w', Recovery.handleOne (Recovery.recoveryMap user) () r.2 = .raised w' := by
            unfold Recovery.handleOne
            rw [hst, if_neg c5, if_neg c4, if_neg c2, h1]
            simp only
            rcases hgg : hd () { r.2 with state := .success } with ⟨w', o⟩
            rw [hgg] at h3
            simp only at h3
            subst h3
            exact ⟨w', rfl⟩
          obtain ⟨w', hh⟩ := hh
          rw [Recovery.handleAll, if_pos hne, hh]
        | false =>
          simp only [Bool.false_eq_true, if_false] at h3
          have hh : Recovery.handleOne (Recovery.recoveryMap user) () r.2 = .cont () { r.2 with state := .delete } := by
            unfold Recovery.handleOne
            rw [hst, if_neg c5, if_neg c4, if_neg c2, h1]
            simp [h3]
          rcases ih with ⟨rs1, e1, e2⟩ | ⟨e1, -⟩
          · refine Or.inl ⟨(r.1, { r.2 with state := .delete }) :: rs1, by rw [Recovery.handleAll, if_pos hne, hh]; simp only [e1], ?_⟩
            unfold Recovery.kept at e2 ⊢
            rw [List.filter_cons_of_neg (by simp)]
            exact .drop ⟨rfl, hnone⟩ e2
          · cases e1

theorem mid_error {T : ℚ} {q r : TP V} (h : Mid f act dt E T q r) :
    r.2.state ≠ .delete ∧ (¬ Recovery.isError r.2 → Walk f act dt E q r ∧ There dt T r) := by
  obtain ⟨hw, ⟨hst, ht⟩ | ⟨e, hh, hstep, hst, hf⟩⟩ := h
  · exact ⟨by rcases hst with c | c <;> rw [c] <;> decide, fun _ => ⟨hw, ht⟩⟩
  · obtain ⟨c1, c2, c3, -⟩ := WholeRun.exc_code e
    exact ⟨by rw [hst]; exact c2, fun c => absurd ⟨by rw [hst]; exact c1, by rw [hst]; exact c3⟩ c⟩

theorem Account.there {T : ℚ} {gone : TP V → Prop} {qs rs : List (TP V)} (h : Account (Mid f act dt E T) gone qs rs)
    (hno : ¬ (rs.any fun p => decide (Recovery.isError p.2)) = true) : Account (fun q r => Walk f act dt E q r ∧ There dt T r) gone qs rs := by
  refine h.imp (fun q _ r hr hm => (mid_error f act dt E hm).2 fun he => hno ?_) fun q _ hq => hq
  rw [List.any_eq_true]
  exact ⟨r, hr, by simpa using he⟩

/-- The end of `Kernel.execute`. -/
def Ends (T : ℚ) (qs : List (TP V)) (e : Recovery.Ending) (rs : List (TP V)) : Prop :=
  (e = .normal ∧ Account (fun q r => Walk f act dt E q r ∧ There dt T r) (Gone f act dt raises) qs rs) ∨
  (raises = true ∧ e = .raised ∧ ∃ q ∈ qs, Fails f act dt q)

theorem pass_path (hdt : 1 / 100000000 < |dt|) {T : ℚ} (hT : (T - E) * sgn dt ≤ 0) {gone : TP V → Prop} {qs rs rs' : List (TP V)}
    (h : Account (Go f act dt E T) gone qs rs) (fuel : ℕ) (w w' : Unit) (cs)
    (hp : Recovery.runPass (kernel f) T dt fuel w rs = some (w', rs', cs)) : Account (Mid f act dt E T) gone qs rs' :=
  h.pass (WholeRun.runPass_forall (kernel f) T dt fuel (fun a b' => ∀ q, Go f act dt E T q a → Mid f act dt E T q b') rs rs' w w' cs
    (fun i p w bk s _ hs q hq => exec1_path f act dt E hdt hT q i p fuel w bk s hq hs) hp)

theorem go_dt {T : ℚ} {gone : TP V → Prop} {qs rs : List (TP V)} (h : Account (Go f act dt E T) gone qs rs) : ∀ r ∈ rs, r.2.dt ≠ 0 := by
  intro r hr
  obtain ⟨q, -, hq⟩ := h.right r hr
  exact ne_zero_of hq.1.small

theorem rounds_path (hdt : 1 / 100000000 < |dt|) {T : ℚ} (hT : (T - E) * sgn dt ≤ 0) {user : RMap Unit V} (hu : Recovers user act raises) (fuel : ℕ) (qs : List (TP V)) :
    ∀ (n : ℕ) (rs removed : List (TP V)) (calls) (res),
      Account (Mid f act dt E T) (Gone f act dt raises) qs rs →
      Recovery.rounds (kernel f) (Recovery.recoveryMap user) T dt fuel n () rs removed calls = some res → Ends f act dt E raises T qs res.ending res.ps := by
  intro n
  induction n with
  | zero => intro rs removed calls res _ h; cases h
  | succ n ih =>
    intro rs removed calls res hk h
    rw [Recovery.rounds] at h
    split at h
    · rcases handle_path f act dt E raises hu hk with ⟨rs1, e1, e2⟩ | ⟨e1, e2, e3⟩
      · rw [e1] at h
        simp only at h
        split at h
        · cases h
        rename_i w2 ps2 cs hp
        exact ih _ _ _ res (pass_path f act dt E hdt hT e2 fuel _ _ _ hp) h
      · rw [e2] at h
        obtain rfl := Option.some.inj h
        exact Or.inr ⟨e1, rfl, e3⟩
    · rename_i hno
      obtain rfl := Option.some.inj h
      exact Or.inl ⟨rfl, hk.there f act dt E hno⟩

theorem jrounds_path (hdt : 1 / 100000000 < |dt|) {T : ℚ} (hT : (T - E) * sgn dt ≤ 0) {user : RMap Unit V} (hu : Recovers user act raises) (fuel : ℕ) (qs : List (TP V)) :
    ∀ (n : ℕ) (rs removed : List (TP V)) (res),
      Account (Mid f act dt E T) (Gone f act dt raises) qs rs →
      JitExec.rounds (kernel f) id (Recovery.recoveryMap user) T dt fuel n ((), none) rs removed = some res → Ends f act dt E raises T qs res.1 res.2.1 := by
  intro n
  induction n with
  | zero => intro rs removed res _ h; cases h
  | succ n ih =>
    intro rs removed res hk h
    rw [JitExec.rounds] at h
    split at h
    · rcases handle_path f act dt E raises hu hk with ⟨rs1, e1, e2⟩ | ⟨e1, e2, e3⟩
      · rw [e1] at h
        simp only at h
        split at h
        · cases h
        rename_i w2 ps2 hp
        obtain ⟨hw, cs, hp'⟩ := WholeRun.jrunPass f dt T hdt fuel _ ps2 () w2 (go_dt f act dt E e2) hp
        obtain ⟨⟨⟩, g⟩ := w2
        simp only at hw
        subst hw
        exact ih _ _ res (pass_path f act dt E hdt hT e2 (fuel + 1) _ _ _ hp') h
      · rw [e2] at h
        obtain rfl := Option.some.inj h
        exact Or.inr ⟨e1, rfl, e3⟩
    · rename_i hno
      obtain rfl := Option.some.inj h
      exact Or.inl ⟨rfl, hk.there f act dt E hno⟩

theorem start_path (T : ℚ) {gone : TP V → Prop} {qs ps : List (TP V)} (h : Account (Walk f act dt E) gone qs ps) :
    Account (Go f act dt E T) gone qs (ps.map fun q : TP V => (q.1, { q.2 with state := Code.evaluate })) := by
  induction h with
  | nil => exact .nil
  | keep hr _ ih => exact .keep ⟨⟨hr.tag, hr.path, hr.sign, hr.small, hr.le, hr.end_⟩, Or.inl rfl⟩ ih
  | drop hg _ ih => exact .drop hg ih

theorem kept_path {T : ℚ} {gone : TP V → Prop} {qs rs : List (TP V)} (h : Account (Mid f act dt E T) gone qs rs) : Recovery.kept rs = rs :=
  WholeRun.kept_all rs fun r hr => by
    obtain ⟨q, -, hq⟩ := h.right r hr
    exact (mid_error f act dt E hq).1

end Exec

theorem scipy_path {f : Scheme V} {act : Act V} {user : RMap Unit V} {raises : Bool} (hu : Recovers user act raises) {dt E T : ℚ} (hdt : 1 / 100000000 < |dt|)
    (hT : (T - E) * sgn dt ≤ 0) {fuel nRounds : ℕ} {qs ps ps' : List (TP V)} {e : Recovery.Ending} (hps : Account (Walk f act dt E) (Gone f act dt raises) qs ps)
    (h : scipyExec (kernel f) user fuel nRounds T dt ps = some (e, ps')) : Ends f act dt E raises T qs e ps' := by
  unfold scipyExec at h
  rw [Option.map_eq_some_iff] at h
  obtain ⟨r, h, hr⟩ := h
  obtain ⟨rfl, rfl⟩ := Prod.mk.inj hr
  unfold Recovery.execute at h
  split at h
  · cases h
  rename_i w1 ps1 cs hp1
  have h1 := pass_path f act dt E hdt hT (start_path f act dt E T hps) fuel _ _ _ hp1
  rw [kept_path f act dt E h1] at h
  exact rounds_path f act dt E raises hdt hT hu fuel qs nRounds ps1 _ _ _ h1 h

theorem jit_path {f : Scheme V} {act : Act V} {user : RMap Unit V} {raises : Bool} (hu : Recovers user act raises) {dt E T : ℚ} (hdt : 1 / 100000000 < |dt|)
    (hT : (T - E) * sgn dt ≤ 0) {fuel nRounds : ℕ} {qs ps ps' : List (TP V)} {e : Recovery.Ending} (hps : Account (Walk f act dt E) (Gone f act dt raises) qs ps)
    (h : jitExec (kernel f) user fuel nRounds T dt ps = some (e, ps')) : Ends f act dt E raises T qs e ps' := by
  unfold jitExec at h
  rw [Option.map_eq_some_iff] at h
  obtain ⟨r, h, hr⟩ := h
  obtain ⟨rfl, rfl⟩ := Prod.mk.inj hr
  unfold JitExec.execute at h
  split at h
  · cases h
  rename_i w1 ps1 hp1
  have h0 := start_path f act dt E T hps
  obtain ⟨hw, cs, hp2⟩ := WholeRun.jrunPass f dt T hdt fuel _ ps1 () w1 (go_dt f act dt E h0) hp1
  obtain ⟨⟨⟩, g⟩ := w1
  simp only at hw
  subst hw
  have h1 := pass_path f act dt E hdt hT h0 (fuel + 1) _ _ _ hp2
  rw [kept_path f act dt E h1] at h
  exact jrounds_path f act dt E raises hdt hT hu fuel qs nRounds ps1 _ _ h1 h

end Parcels.PathRun
