import Verif.Proofs.AdaptiveRun

namespace Parcels.AdaptiveRun

open KernelLoop (Particle Kern Exc LS)
open JitLoop (JS)
open Recovery (TP RMap)
open WholeRun (scipyExec jitExec ne_zero_of not_close)
open RepairRun (Act Recovers)
open PathRun (Account sgn_sq)

variable {V : Type}

section Steps

variable (g : Adaptive V) (act : Act V) (dt E : ℚ) (raises : Bool)

/-- Where a particle can be. `E`: the end of the run. -/
structure Walk (q r : TP V) : Prop where
  tag : r.1 = q.1
  path : Path g act dt q.2.time q.2.vars r.2.time r.2.vars
  sign : 0 < r.2.dt * sgn dt
  tiny : |r.2.dt| ≤ 1 / 100000000 → Stuck g dt r.2.time r.2.vars
  end_ : (r.2.time - E) * sgn dt ≤ 0 ∨ r.2.time = q.2.time

/-- At the stop `T`, or stuck. -/
def There (T : ℚ) (r : TP V) : Prop := (T - r.2.time) * sgn dt ≤ 1 / 100000000 ∨ |r.2.dt| ≤ 1 / 100000000

/-- Before a pass. -/
def Go (T : ℚ) (q r : TP V) : Prop :=
  Walk g act dt E q r ∧ (r.2.state = .evaluate ∨ r.2.state = .success ∧ There dt T r)

/-- After a pass. -/
def Mid (T : ℚ) (q r : TP V) : Prop :=
  Walk g act dt E q r ∧ ((r.2.state = .success ∨ r.2.state = .evaluate) ∧ There dt T r ∨ r.2.state = .repeat ∨
    ∃ e h, 0 < h * sgn dt ∧ r.2.state = Exc.code e ∧ 1 / 100000000 < |r.2.dt| ∧ g r.2.time h r.2.vars = .fail e)

/-- One turn. -/
theorem turn_path (hg : Sensible g) (hdt : 1 / 100000000 < |dt|) {T : ℚ} (hT : (T - E) * sgn dt ≤ 0) (q : TP V) (i : ℕ) (p p' : Particle V) (d d' : ℚ) (brk : Bool)
    (hp : 1 / 100000000 < d) (hp2 : d ≤ (T - p.time) * sgn dt) (hw : Walk g act dt E q (i, p)) (ht : Turn g dt T p (sgn dt * d) p' d' brk) :
    Walk g act dt E q (i, p') ∧
    ((brk = true ∧ Mid g act dt E T q (i, p')) ∨
     (brk = false ∧ p'.state = .success ∧ p'.dt ≠ 0 ∧ Mid g act dt E T q (i, p')) ∨
     (brk = false ∧ p'.state = .evaluate ∧ 1 / 100000000 < d' ∧ d' ≤ (T - p'.time) * sgn dt)) := by
  have sq := sgn_sq hdt
  have habs := abs_sgn_mul (ne_zero_of hdt) (by linarith : 0 ≤ d)
  have hh : 0 < sgn dt * d * sgn dt := by
    have : sgn dt * d * sgn dt = d * (sgn dt * sgn dt) := by ring
    rw [this, sq]; linarith
  rcases ht with ⟨v, n, e, hb, e1, e2, e3, e4⟩ | ⟨h', e, hb, rfl⟩ | ⟨e0, e, hb, rfl⟩
  · obtain ⟨s1, s2⟩ := next_sign hg hdt hh e
    have hw1 : Walk g act dt E q (i, p') := by
      refine ⟨hw.tag, ?_, by simp only [e2]; exact s1, fun c => ?_, Or.inl ?_⟩
      · simp only [e1, e3]; exact hw.path.step hh e
      · simp only [e2] at c
        rw [habs] at s2
        linarith
      · have : (p.time + sgn dt * d - E) * sgn dt = (T - E) * sgn dt - (T - p.time) * sgn dt + d * (sgn dt * sgn dt) := by ring
        simp only [e1, this, sq]
        linarith
    refine ⟨hw1, Or.inr ?_⟩
    rcases e4 with ⟨c1, c2⟩ | ⟨c1, c2, c3⟩
    · refine Or.inl ⟨hb, c1, ?_, hw1, Or.inl ⟨Or.inl c1, c2⟩⟩
      intro h0
      rw [e2] at h0
      rw [h0] at s1
      norm_num at s1
    · exact Or.inr ⟨hb, c1, c2, c3⟩
  · have hw1 : Walk g act dt E q (i, ⟨p.time, h', .repeat, p.vars⟩) :=
      ⟨hw.tag, hw.path, retry_sign hg hdt hh e, fun c => ⟨_, _, hh, by rw [habs]; exact hp, e, c⟩, hw.end_⟩
    exact ⟨hw1, Or.inl ⟨hb, hw1, Or.inr (Or.inl rfl)⟩⟩
  · have hw1 : Walk g act dt E q (i, ⟨p.time, sgn dt * d, e0.code, p.vars⟩) :=
      ⟨hw.tag, hw.path, hh, fun c => by simp only [habs] at c; linarith, hw.end_⟩
    exact ⟨hw1, Or.inl ⟨hb, hw1, Or.inr (Or.inr ⟨e0, _, hh, rfl, by simp only [habs]; exact hp, e⟩)⟩⟩

theorem loop_path (hg : Sensible g) (hdt : 1 / 100000000 < |dt|) {T : ℚ} (hT : (T - E) * sgn dt ≤ 0) (q : TP V) (i : ℕ) : ∀ (fuel : ℕ) (s s' : LS Unit V),
    s.p.state = .evaluate → s.nextDt = none → 1 / 100000000 < s.dtPos → s.dtPos ≤ (T - s.p.time) * sgn dt → Walk g act dt E q (i, s.p) →
    KernelLoop.loop (kernel g) T dt fuel s = some s' → Mid g act dt E T q (i, s'.p) := by
  intro fuel
  induction fuel with
  | zero => intro s s' _ _ _ _ _ h; cases h
  | succ fuel ih =>
    intro s s' hst hn hp hp2 hw h
    obtain ⟨s1, brk, e1, e2, ht⟩ := step_scipy g T dt hdt s hst hn hp
    obtain ⟨hw1, hc⟩ := turn_path g act dt E hg hdt hT q i _ _ _ _ _ hp hp2 hw ht
    rw [KernelLoop.loop, if_pos (show KernelLoop.cond dt s from Or.inl hst), e1] at h
    rcases hc with ⟨rfl, hm⟩ | ⟨rfl, c1, -, hm⟩ | ⟨rfl, c1, c2, c3⟩
    · obtain rfl := Option.some.inj h
      exact hm
    · have hs' : s' = s1 := by
        cases fuel with
        | zero => cases h
        | succ fuel =>
          simp only at h
          rw [KernelLoop.loop, if_neg] at h
          · exact (Option.some.inj h).symm
          · rintro (c | c | c)
            · rw [c1] at c; cases c
            · rw [c1] at c; cases c
            · rw [not_close hdt] at c; cases c
      rw [hs']
      exact hm
    · exact ih s1 s' c1 e2 c2 c3 hw1 h

theorem jloop_path (hg : Sensible g) (hdt : 1 / 100000000 < |dt|) {T : ℚ} (hT : (T - E) * sgn dt ≤ 0) (q : TP V) (i : ℕ) : ∀ (fuel : ℕ) (s s' : JS Unit V),
    s.p.state = .evaluate → s.nextDt = none → 1 / 100000000 < s.dtPos → s.dtPos ≤ (T - s.p.time) * sgn dt → Walk g act dt E q (i, s.p) →
    JitLoop.loop (kernel g) T dt fuel s = some s' → Mid g act dt E T q (i, s'.p) ∧ s'.nextDt = none := by
  intro fuel
  induction fuel with
  | zero => intro s s' _ _ _ _ _ h; cases h
  | succ fuel ih =>
    intro s s' hst hn hp hp2 hw h
    obtain ⟨s1, brk, e1, e2, ht⟩ := step_jit g hg T dt hdt s hst hn hp
    obtain ⟨hw1, hc⟩ := turn_path g act dt E hg hdt hT q i _ _ _ _ _ hp hp2 hw ht
    rw [JitLoop.loop, if_pos (show JitLoop.cond s from Or.inl hst), e1] at h
    rcases hc with ⟨rfl, hm⟩ | ⟨rfl, c1, c0, hm⟩ | ⟨rfl, c1, c2, c3⟩
    · obtain rfl := Option.some.inj h
      exact ⟨hm, e2⟩
    · have hs' : s' = s1 := by
        cases fuel with
        | zero => cases h
        | succ fuel =>
          simp only at h
          rw [JitLoop.loop, if_neg] at h
          · exact (Option.some.inj h).symm
          · rintro (c | c | c)
            · rw [c1] at c; cases c
            · rw [c1] at c; cases c
            · rw [isZero_of c0] at c; cases c
      rw [hs']
      exact ⟨hm, e2⟩
    · exact ih s1 s' c1 e2 c2 c3 hw1 h

theorem there_of_close (hdt : 1 / 100000000 < |dt|) {T : ℚ} {i : ℕ} {p : Particle V} (c : isclose (min |p.dt| |T - p.time|) 0 = true) : There dt T (i, p) := by
  have hne := ne_zero_of hdt
  rw [isclose_zero_iff, abs_of_nonneg (le_min (abs_nonneg _) (abs_nonneg _)), min_le_iff] at c
  rcases c with c | c
  · exact Or.inr c
  · have h2 : |(T - p.time) * sgn dt| ≤ 1 / 100000000 := by
      rw [abs_mul]
      have : |sgn dt| = 1 := by rcases sgn_cases dt with ⟨-, h⟩ | ⟨-, h⟩ | ⟨h, -⟩ <;> first | exact absurd h hne | (rw [h]; norm_num)
      rw [this, mul_one]; exact c
    exact Or.inl (le_trans (le_abs_self _) h2)

theorem skip_path {T : ℚ} {q : TP V} {i : ℕ} {p : Particle V} (hw : Walk g act dt E q (i, p)) (hst : p.state = .evaluate ∨ p.state = .success ∧ There dt T (i, p))
    (ht : There dt T (i, p)) : Mid g act dt E T q (i, if |p.time| ≥ |T| then { p with state := .success } else p) := by
  obtain ⟨w1, w2, w3, w4, w5⟩ := hw
  split
  · exact ⟨⟨w1, w2, w3, w4, w5⟩, Or.inl ⟨Or.inl rfl, ht⟩⟩
  · exact ⟨⟨w1, w2, w3, w4, w5⟩, Or.inl ⟨hst.elim Or.inr fun h => Or.inl h.1, ht⟩⟩

theorem exec1_path (hg : Sensible g) (hdt : 1 / 100000000 < |dt|) {T : ℚ} (hT : (T - E) * sgn dt ≤ 0) (q : TP V) (i : ℕ) (p : Particle V) (fuel : ℕ) (w : Unit)
    (bk : Option (Particle V)) (s : LS Unit V) (hgo : Go g act dt E T q (i, p)) (h : KernelLoop.exec1 (kernel g) T dt fuel w bk p = some s) :
    Mid g act dt E T q (i, s.p) := by
  have hne := ne_zero_of hdt
  obtain ⟨hw, hst⟩ := hgo
  unfold KernelLoop.exec1 at h
  simp only [] at h
  by_cases hs : KernelLoop.skips T dt p
  · rw [if_pos hs] at h
    obtain rfl := Option.some.inj h
    refine skip_path g act dt E hw hst ?_
    rcases hs.1 with c | c
    · rw [ne_eq, sgn_eq_of_ne_zero hne, not_lt] at c
      exact Or.inl (le_trans c (by norm_num))
    · exact there_of_close dt hdt c
  · rw [if_neg hs] at h
    have hs2 : sgn (T - p.time) = sgn dt ∧ ¬ isclose (min |p.dt| |T - p.time|) 0 = true := by
      by_contra c
      apply hs
      refine ⟨?_, not_close hdt⟩
      by_cases c1 : sgn (T - p.time) = sgn dt
      · exact Or.inr (by by_contra c2; exact c ⟨c1, c2⟩)
      · exact Or.inl c1
    obtain ⟨c1, c2⟩ := hs2
    rw [isclose_zero_iff, abs_of_nonneg (le_min (abs_nonneg _) (abs_nonneg _)), not_le] at c2
    have hab := abs_eq_mul_sgn hne ((sgn_eq_of_ne_zero hne).mp c1).le
    have h1 : 1 / 100000000 < (T - p.time) * sgn dt := by
      rw [← hab]; exact lt_of_lt_of_le c2 (min_le_right _ _)
    have h2 : 1 / 100000000 < |p.dt| := lt_of_lt_of_le c2 (min_le_left _ _)
    have hev : p.state = .evaluate := by
      rcases hst with hst | ⟨-, hst | hst⟩
      · exact hst
      · have h2 : (T - p.time) * sgn dt ≤ 1 / 100000000 := hst
        linarith
      · have h2 : |p.dt| ≤ 1 / 100000000 := hst
        linarith
    exact loop_path g act dt E hg hdt hT q i fuel _ s hev rfl c2 (by rw [← hab]; exact min_le_right _ _) hw h

theorem jexec1_path (hg : Sensible g) (hdt : 1 / 100000000 < |dt|) {T : ℚ} (hT : (T - E) * sgn dt ≤ 0) (q : TP V) (i : ℕ) (p : Particle V) (fuel : ℕ) (w : Unit)
    (s : JS Unit V) (hgo : Go g act dt E T q (i, p)) (h : JitLoop.exec1 (kernel g) T dt fuel w none p = some s) :
    Mid g act dt E T q (i, s.p) ∧ s.nextDt = none := by
  have hne := ne_zero_of hdt
  obtain ⟨hw, hst⟩ := hgo
  have hp0 : p.dt ≠ 0 := by
    intro h0
    have := hw.sign
    simp only [h0] at this
    norm_num at this
  unfold JitLoop.exec1 at h
  simp only [] at h
  have close : ∀ {c : Prop}, (isclose (min |p.dt| |T - p.time|) 0 = true → c) → (¬ isclose (min |p.dt| |T - p.time|) 0 = true → T - p.time ≠ 0 → c) → c := by
    intro c h1 h2
    by_cases hz : isclose (min |p.dt| |T - p.time|) 0 = true
    · exact h1 hz
    · refine h2 hz fun h0 => hz ?_
      rw [h0, isclose_zero_iff, abs_zero, min_eq_right (abs_nonneg _), abs_zero]
      norm_num
  by_cases hs : JitLoop.skips T dt p
  · rw [if_pos hs] at h
    obtain rfl := Option.some.inj h
    refine ⟨skip_path g act dt E hw hst ?_, rfl⟩
    refine close (there_of_close dt hdt) fun hz h0 => ?_
    rcases hs.1 with c | c
    · have c' : ¬ sgn (T - p.time) = sgn dt := fun e => c ((JitLoop.csgn_eq_iff hne h0).mpr e).symm
      rw [sgn_eq_of_ne_zero hne, not_lt] at c'
      exact Or.inl (le_trans c' (by norm_num))
    · rw [isCloseC_zero] at c; exact absurd c hz
  · rw [if_neg hs] at h
    have hs2 : sgn (T - p.time) = sgn dt ∧ ¬ isclose (min |p.dt| |T - p.time|) 0 = true := by
      refine close (fun hz => ?_) fun hz h0 => ⟨?_, hz⟩
      · exact absurd ⟨Or.inr (by rw [isCloseC_zero]; exact hz), isZero_of hp0⟩ hs
      · by_contra c
        exact hs ⟨Or.inl fun e => c ((JitLoop.csgn_eq_iff hne h0).mp e.symm), isZero_of hp0⟩
    obtain ⟨c1, c2⟩ := hs2
    rw [isclose_zero_iff, abs_of_nonneg (le_min (abs_nonneg _) (abs_nonneg _)), not_le] at c2
    have hab := abs_eq_mul_sgn hne ((sgn_eq_of_ne_zero hne).mp c1).le
    have h1 : 1 / 100000000 < (T - p.time) * sgn dt := by
      rw [← hab]; exact lt_of_lt_of_le c2 (min_le_right _ _)
    have h2 : 1 / 100000000 < |p.dt| := lt_of_lt_of_le c2 (min_le_left _ _)
    have hev : p.state = .evaluate := by
      rcases hst with hst | ⟨-, hst | hst⟩
      · exact hst
      · have h2 : (T - p.time) * sgn dt ≤ 1 / 100000000 := hst
        linarith
      · have h2 : |p.dt| ≤ 1 / 100000000 := hst
        linarith
    exact jloop_path g act dt E hg hdt hT q i fuel _ s hev rfl c2 (by rw [← hab]; exact min_le_right _ _) hw h

/-- Why a particle is missing. -/
def Gone (q : TP V) : Prop := raises = false ∧ Fails g act dt q

/-- One round of recovery. -/
theorem handle_path {user : RMap Unit V} (hu : Recovers user act raises) {T : ℚ} {qs rs : List (TP V)}
    (h : Account (Mid g act dt E T) (Gone g act dt raises) qs rs) :
    (∃ rs1, Recovery.handleAll (Recovery.recoveryMap user) () rs = .done () rs1 ∧
      Account (Go g act dt E T) (Gone g act dt raises) qs (Recovery.kept rs1)) ∨
    (raises = true ∧ Recovery.handleAll (Recovery.recoveryMap user) () rs = .raised ∧ ∃ q ∈ qs, Fails g act dt q) := by
  induction h with
  | nil => exact Or.inl ⟨[], rfl, .nil⟩
  | @drop q qs rs hg _ ih =>
    rcases ih with ⟨rs1, e1, e2⟩ | ⟨e1, e2, x, hx, hx'⟩
    · exact Or.inl ⟨rs1, e1, .drop hg e2⟩
    · exact Or.inr ⟨e1, e2, x, List.mem_cons_of_mem _ hx, hx'⟩
  | @keep q r qs rs hr _ ih =>
    obtain ⟨hw, ⟨hst, ht⟩ | hst | ⟨e, hh, hstep, hst, hbig, hf⟩⟩ := hr
    · have hne : ¬ Recovery.isError r.2 := by
        rintro ⟨c1, c2⟩
        rcases hst with c | c
        · exact c1 c
        · exact c2 c
      have hnd : r.2.state ≠ .delete := by rcases hst with c | c <;> rw [c] <;> decide
      rcases ih with ⟨rs1, e1, e2⟩ | ⟨e1, e2, x, hx, hx'⟩
      · refine Or.inl ⟨r :: rs1, by rw [Recovery.handleAll, if_neg hne, e1], ?_⟩
        unfold Recovery.kept at e2 ⊢
        rw [List.filter_cons_of_pos (by simpa using hnd)]
        exact .keep ⟨hw, hst.symm.imp id fun c => ⟨c, ht⟩⟩ e2
      · exact Or.inr ⟨e1, by rw [Recovery.handleAll, if_neg hne, e2], x, List.mem_cons_of_mem _ hx, hx'⟩
    · have hne : Recovery.isError r.2 := by
        constructor <;> rw [hst] <;> decide
      have hh : Recovery.handleOne (Recovery.recoveryMap user) () r.2 = .cont () { r.2 with state := .evaluate } := by
        unfold Recovery.handleOne
        rw [hst]
        rfl
      rcases ih with ⟨rs1, e1, e2⟩ | ⟨e1, e2, x, hx, hx'⟩
      · refine Or.inl ⟨(r.1, { r.2 with state := .evaluate }) :: rs1, by rw [Recovery.handleAll, if_pos hne, hh]; simp only [e1], ?_⟩
        unfold Recovery.kept at e2 ⊢
        rw [List.filter_cons_of_pos (by simp)]
        exact .keep ⟨⟨hw.tag, hw.path, hw.sign, hw.tiny, hw.end_⟩, Or.inl rfl⟩ e2
      · exact Or.inr ⟨e1, by rw [Recovery.handleAll, if_pos hne, hh]; simp only [e2], x, List.mem_cons_of_mem _ hx, hx'⟩
    · obtain ⟨c1, c2, c3, c4, c5⟩ := WholeRun.exc_code e
      have hne : Recovery.isError r.2 := by
        constructor <;> rw [hst] <;> assumption
      obtain ⟨hd, h1, h2⟩ := hu e
      have h3 := h2 () { r.2 with state := .success }
      dsimp only at h3
      cases ha : act e r.2.time r.2.vars with
      | some v =>
        rw [ha] at h3
        simp only at h3
        have hh : Recovery.handleOne (Recovery.recoveryMap user) () r.2 = .cont () { r.2 with state := .evaluate, vars := v } := by
          unfold Recovery.handleOne
          rw [hst, if_neg c5, if_neg c4, if_neg c2, h1]
          simp only [h3, if_true]
        rcases ih with ⟨rs1, e1, e2⟩ | ⟨e1, e2, x, hx, hx'⟩
        · refine Or.inl ⟨(r.1, { r.2 with state := .evaluate, vars := v }) :: rs1, by rw [Recovery.handleAll, if_pos hne, hh]; simp only [e1], ?_⟩
          unfold Recovery.kept at e2 ⊢
          rw [List.filter_cons_of_pos (by simp)]
          exact .keep ⟨⟨hw.tag, hw.path.repair hstep hf ha, hw.sign, fun c => absurd (show |r.2.dt| ≤ 1 / 100000000 from c) (not_le.mpr hbig), hw.end_⟩, Or.inl rfl⟩ e2
        · exact Or.inr ⟨e1, by rw [Recovery.handleAll, if_pos hne, hh]; simp only [e2], x, List.mem_cons_of_mem _ hx, hx'⟩
      | none =>
        rw [ha] at h3
        simp only at h3
        have hnone : Fails g act dt q := ⟨_, _, _, _, hw.path, hstep, hf, ha⟩
        cases raises with
        | true =>
          simp only [if_true] at h3
          refine Or.inr ⟨rfl, ?_, q, List.mem_cons_self, hnone⟩
          have hh : ∃ w', Recovery.handleOne (Recovery.recoveryMap user) () r.2 = .raised w' := by
            unfold Recovery.handleOne
            rw [hst, if_neg c5, if_neg c4, if_neg c2, h1]
            simp only
            rcases hgg : hd () { r.2 with state := .success } with ⟨w', o⟩
            rw [hgg] at h3
            simp only at h3
            subst h3
            exact ⟨w', rfl⟩
          obtain ⟨w', hh⟩ := hh
          rw [Recovery.handleAll, if_pos hne, hh]
        | false =>
          simp only [Bool.false_eq_true, if_false] at h3
          have hh : Recovery.handleOne (Recovery.recoveryMap user) () r.2 = .cont () { r.2 with state := .delete } := by
            unfold Recovery.handleOne
            rw [hst, if_neg c5, if_neg c4, if_neg c2, h1]
            simp [h3]
          rcases ih with ⟨rs1, e1, e2⟩ | ⟨e1, -⟩
          · refine Or.inl ⟨(r.1, { r.2 with state := .delete }) :: rs1, by rw [Recovery.handleAll, if_pos hne, hh]; simp only [e1], ?_⟩
            unfold Recovery.kept at e2 ⊢
            rw [List.filter_cons_of_neg (by simp)]
            exact .drop ⟨rfl, hnone⟩ e2
          · cases e1

theorem mid_error {T : ℚ} {q r : TP V} (h : Mid g act dt E T q r) :
    r.2.state ≠ .delete ∧ (¬ Recovery.isError r.2 → Walk g act dt E q r ∧ There dt T r) := by
  obtain ⟨hw, ⟨hst, ht⟩ | hst | ⟨e, hh, hstep, hst, hbig, hf⟩⟩ := h
  · exact ⟨by rcases hst with c | c <;> rw [c] <;> decide, fun _ => ⟨hw, ht⟩⟩
  · exact ⟨by rw [hst]; decide, fun c => absurd ⟨by rw [hst]; decide, by rw [hst]; decide⟩ c⟩
  · obtain ⟨c1, c2, c3, -⟩ := WholeRun.exc_code e
    exact ⟨by rw [hst]; exact c2, fun c => absurd ⟨by rw [hst]; exact c1, by rw [hst]; exact c3⟩ c⟩

theorem account_there {T : ℚ} {gone : TP V → Prop} {qs rs : List (TP V)} (h : Account (Mid g act dt E T) gone qs rs)
    (hno : ¬ (rs.any fun p => decide (Recovery.isError p.2)) = true) : Account (fun q r => Walk g act dt E q r ∧ There dt T r) gone qs rs := by
  refine h.imp (fun q _ r hr hm => (mid_error g act dt E hm).2 fun he => hno ?_) fun q _ hq => hq
  rw [List.any_eq_true]
  exact ⟨r, hr, by simpa using he⟩

/-- The end of `Kernel.execute`. -/
def Ends (T : ℚ) (qs : List (TP V)) (e : Recovery.Ending) (rs : List (TP V)) : Prop :=
  (e = .normal ∧ Account (fun q r => Walk g act dt E q r ∧ There dt T r) (Gone g act dt raises) qs rs) ∨
  (raises = true ∧ e = .raised ∧ ∃ q ∈ qs, Fails g act dt q)

theorem pass_path (hg : Sensible g) (hdt : 1 / 100000000 < |dt|) {T : ℚ} (hT : (T - E) * sgn dt ≤ 0) {gone : TP V → Prop} {qs rs rs' : List (TP V)}
    (h : Account (Go g act dt E T) gone qs rs) (fuel : ℕ) (w w' : Unit) (cs)
    (hp : Recovery.runPass (kernel g) T dt fuel w rs = some (w', rs', cs)) : Account (Mid g act dt E T) gone qs rs' :=
  h.pass (WholeRun.runPass_forall (kernel g) T dt fuel (fun a b' => ∀ q, Go g act dt E T q a → Mid g act dt E T q b') rs rs' w w' cs
    (fun i p w bk s _ hs q hq => exec1_path g act dt E hg hdt hT q i p fuel w bk s hq hs) hp)

/-- All particles, in compiled code. -/
theorem jpass_path (hg : Sensible g) (hdt : 1 / 100000000 < |dt|) {T : ℚ} (hT : (T - E) * sgn dt ≤ 0) {gone : TP V → Prop} (fuel : ℕ) {qs rs : List (TP V)}
    (h : Account (Go g act dt E T) gone qs rs) : ∀ (w w' : Unit) (b : Option ℚ) (out),
    JitLoop.pass (kernel g) T dt fuel w none (rs.map Prod.snd) = some (w', b, out) →
    b = none ∧ Account (Mid g act dt E T) gone qs (List.zipWith (fun a r => (a.1, r.1)) rs out) := by
  induction h with
  | nil =>
    intro w w' b out hp
    simp only [List.map_nil, JitLoop.pass, Option.some.injEq, Prod.mk.injEq] at hp
    obtain ⟨-, rfl, rfl⟩ := hp
    exact ⟨rfl, .nil⟩
  | @drop q qs rs hgone _ ih =>
    intro w w' b out hp
    obtain ⟨i1, i2⟩ := ih w w' b out hp
    exact ⟨i1, .drop hgone i2⟩
  | @keep q r qs rs hr _ ih =>
    intro w w' b out hp
    rw [List.map_cons, JitLoop.pass] at hp
    split at hp
    · cases hp
    rename_i s hs
    obtain ⟨k1, k2⟩ := jexec1_path g act dt E hg hdt hT q r.1 r.2 fuel w s hr hs
    rw [k2] at hp
    split at hp
    · cases hp
    rename_i w2 b2 rs2 hp2
    simp only [Option.some.injEq, Prod.mk.injEq] at hp
    obtain ⟨-, rfl, rfl⟩ := hp
    obtain ⟨i1, i2⟩ := ih _ _ _ _ hp2
    exact ⟨i1, .keep k1 i2⟩

theorem jrun_path (hg : Sensible g) (hdt : 1 / 100000000 < |dt|) {T : ℚ} (hT : (T - E) * sgn dt ≤ 0) {gone : TP V → Prop} (fuel : ℕ) {qs rs rs' : List (TP V)}
    (h : Account (Go g act dt E T) gone qs rs) (w : Unit) (w' : Unit × Option ℚ) (hp : JitExec.runPass (kernel g) id T dt fuel (w, none) rs = some (w', rs')) :
    w' = ((), none) ∧ Account (Mid g act dt E T) gone qs rs' := by
  unfold JitExec.runPass at hp
  split at hp
  · cases hp
  rename_i w1 b out hp1
  simp only [Option.some.injEq, Prod.mk.injEq] at hp
  obtain ⟨rfl, rfl⟩ := hp
  obtain ⟨i1, i2⟩ := jpass_path g act dt E hg hdt hT fuel h _ _ _ _ hp1
  exact ⟨by rw [i1], i2⟩

theorem rounds_path (hg : Sensible g) (hdt : 1 / 100000000 < |dt|) {T : ℚ} (hT : (T - E) * sgn dt ≤ 0) {user : RMap Unit V} (hu : Recovers user act raises) (fuel : ℕ)
    (qs : List (TP V)) : ∀ (n : ℕ) (rs removed : List (TP V)) (calls) (res),
      Account (Mid g act dt E T) (Gone g act dt raises) qs rs →
      Recovery.rounds (kernel g) (Recovery.recoveryMap user) T dt fuel n () rs removed calls = some res → Ends g act dt E raises T qs res.ending res.ps := by
  intro n
  induction n with
  | zero => intro rs removed calls res _ h; cases h
  | succ n ih =>
    intro rs removed calls res hk h
    rw [Recovery.rounds] at h
    split at h
    · rcases handle_path g act dt E raises hu hk with ⟨rs1, e1, e2⟩ | ⟨e1, e2, e3⟩
      · rw [e1] at h
        simp only at h
        split at h
        · cases h
        rename_i w2 ps2 cs hp
        exact ih _ _ _ res (pass_path g act dt E hg hdt hT e2 fuel _ _ _ hp) h
      · rw [e2] at h
        obtain rfl := Option.some.inj h
        exact Or.inr ⟨e1, rfl, e3⟩
    · rename_i hno
      obtain rfl := Option.some.inj h
      exact Or.inl ⟨rfl, account_there g act dt E hk hno⟩

theorem jrounds_path (hg : Sensible g) (hdt : 1 / 100000000 < |dt|) {T : ℚ} (hT : (T - E) * sgn dt ≤ 0) {user : RMap Unit V} (hu : Recovers user act raises) (fuel : ℕ)
    (qs : List (TP V)) : ∀ (n : ℕ) (rs removed : List (TP V)) (res),
      Account (Mid g act dt E T) (Gone g act dt raises) qs rs →
      JitExec.rounds (kernel g) id (Recovery.recoveryMap user) T dt fuel n ((), none) rs removed = some res → Ends g act dt E raises T qs res.1 res.2.1 := by
  intro n
  induction n with
  | zero => intro rs removed res _ h; cases h
  | succ n ih =>
    intro rs removed res hk h
    rw [JitExec.rounds] at h
    split at h
    · rcases handle_path g act dt E raises hu hk with ⟨rs1, e1, e2⟩ | ⟨e1, e2, e3⟩
      · rw [e1] at h
        simp only at h
        split at h
        · cases h
        rename_i w2 ps2 hp
        obtain ⟨rfl, hp'⟩ := jrun_path g act dt E hg hdt hT fuel e2 _ _ hp
        exact ih _ _ res hp' h
      · rw [e2] at h
        obtain rfl := Option.some.inj h
        exact Or.inr ⟨e1, rfl, e3⟩
    · rename_i hno
      obtain rfl := Option.some.inj h
      exact Or.inl ⟨rfl, account_there g act dt E hk hno⟩

theorem start_path (T : ℚ) {gone : TP V → Prop} {qs ps : List (TP V)} (h : Account (Walk g act dt E) gone qs ps) :
    Account (Go g act dt E T) gone qs (ps.map fun q : TP V => (q.1, { q.2 with state := Code.evaluate })) := by
  induction h with
  | nil => exact .nil
  | keep hr _ ih => exact .keep ⟨⟨hr.tag, hr.path, hr.sign, hr.tiny, hr.end_⟩, Or.inl rfl⟩ ih
  | drop hg _ ih => exact .drop hg ih

theorem kept_path {T : ℚ} {gone : TP V → Prop} {qs rs : List (TP V)} (h : Account (Mid g act dt E T) gone qs rs) : Recovery.kept rs = rs :=
  WholeRun.kept_all rs fun r hr => by
    obtain ⟨q, -, hq⟩ := h.right r hr
    exact (mid_error g act dt E hq).1

end Steps

theorem scipy_path {g : Adaptive V} (hg : Sensible g) {act : Act V} {user : RMap Unit V} {raises : Bool} (hu : Recovers user act raises) {dt E T : ℚ} (hdt : 1 / 100000000 < |dt|)
    (hT : (T - E) * sgn dt ≤ 0) {fuel nRounds : ℕ} {qs ps ps' : List (TP V)} {e : Recovery.Ending} (hps : Account (Walk g act dt E) (Gone g act dt raises) qs ps)
    (h : scipyExec (kernel g) user fuel nRounds T dt ps = some (e, ps')) : Ends g act dt E raises T qs e ps' := by
  unfold scipyExec at h
  rw [Option.map_eq_some_iff] at h
  obtain ⟨r, h, hr⟩ := h
  obtain ⟨rfl, rfl⟩ := Prod.mk.inj hr
  unfold Recovery.execute at h
  split at h
  · cases h
  rename_i w1 ps1 cs hp1
  have h1 := pass_path g act dt E hg hdt hT (start_path g act dt E T hps) fuel _ _ _ hp1
  rw [kept_path g act dt E h1] at h
  exact rounds_path g act dt E raises hg hdt hT hu fuel qs nRounds ps1 _ _ _ h1 h

theorem jit_path {g : Adaptive V} (hg : Sensible g) {act : Act V} {user : RMap Unit V} {raises : Bool} (hu : Recovers user act raises) {dt E T : ℚ} (hdt : 1 / 100000000 < |dt|)
    (hT : (T - E) * sgn dt ≤ 0) {fuel nRounds : ℕ} {qs ps ps' : List (TP V)} {e : Recovery.Ending} (hps : Account (Walk g act dt E) (Gone g act dt raises) qs ps)
    (h : jitExec (kernel g) user fuel nRounds T dt ps = some (e, ps')) : Ends g act dt E raises T qs e ps' := by
  unfold jitExec at h
  rw [Option.map_eq_some_iff] at h
  obtain ⟨r, h, hr⟩ := h
  obtain ⟨rfl, rfl⟩ := Prod.mk.inj hr
  unfold JitExec.execute at h
  split at h
  · cases h
  rename_i w1 ps1 hp1
  obtain ⟨rfl, h1⟩ := jrun_path g act dt E hg hdt hT fuel (start_path g act dt E T hps) _ _ hp1
  rw [kept_path g act dt E h1] at h
  exact jrounds_path g act dt E raises hg hdt hT hu fuel qs nRounds ps1 _ _ h1 h

end Parcels.AdaptiveRun
