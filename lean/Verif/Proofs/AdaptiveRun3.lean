import Verif.Proofs.AdaptiveRun2

namespace Parcels.AdaptiveRun

open KernelLoop (Particle Kern Exc LS)
open Recovery (TP RMap)
open WholeRun (St Run Exec Opts write records core loop execute args startTime_eq ne_zero_of)
open RepairRun (Act Recovers)
open PathRun (Account endOf Starts write_sub stop_le args_dt)

variable {V : Type}

section Loop

variable {R : ℚ → TP V → TP V → Prop} {D : ℚ → TP V → Prop} {P : TP V → ℕ × ℚ × V → Prop} {gone : TP V → Prop} {bad : Prop} {exec : Exec V} {a : Schedule.Args} {qs : List (TP V)}

/-- The records lie on the paths. -/
def Recs (P : TP V → ℕ × ℚ × V → Prop) (qs : List (TP V)) (s : St V) : Prop :=
  ∀ c ∈ records s, ∃ q ∈ qs, P q c

theorem write_recs {E : ℚ} (hP : ∀ q r, R E q r → P q (core r)) {hasFile : Bool} {s s' : St V} {t : ℚ} (h : write hasFile s t = some s')
    (ha : Account (R E) gone qs s.ps) (hr : Recs P qs s) : Recs P qs s' := by
  intro c hc
  rcases (write_sub h).2.2 c hc with hc | ⟨r, h1, rfl⟩
  · exact hr c hc
  · obtain ⟨q, hq, hw⟩ := ha.right r h1
    exact ⟨q, hq, hP q r hw⟩

theorem loop_run (hP : ∀ q r, R a.E q r → P q (core r)) (hne : a.dt ≠ 0)
    (hex : ∀ T, (T - a.E) * sgn a.dt ≤ 0 → ∀ ps e ps', Account (R a.E) gone qs ps → exec T a.dt ps = some (e, ps') →
      (e = .normal ∧ Account (fun q r => R a.E q r ∧ D T r) gone qs ps') ∨ (e = .raised ∧ bad)) :
    ∀ (n : ℕ) (s : St V) (r : Run V), Account (R a.E) gone qs s.ps → Recs P qs s →
      loop a exec n s = some r →
      (∀ s', r = .done s' → Account (R a.E) gone qs s'.ps ∧ Recs P qs s' ∧
        (Schedule.continues a s.sched → s'.sched.time = a.E ∧ ∀ x ∈ s'.ps, D a.E x)) ∧
      (∀ s', r = .raised s' → bad) := by
  intro n
  induction n with
  | zero => intro s r _ _ h; cases h
  | succ n ih =>
    intro s r ha hr h
    rw [loop] at h
    split at h
    swap
    · rename_i hc
      obtain rfl := Option.some.inj h
      refine ⟨fun s' e => ?_, fun s' e => by cases e⟩
      cases e
      exact ⟨ha, hr, fun c => absurd c hc⟩
    rename_i hc
    split at h
    swap
    · obtain rfl := Option.some.inj h
      exact ⟨fun s' e => (by cases e), fun s' e => (by cases e)⟩
    rename_i t hstop
    have hle := stop_le hne hstop
    split at h
    · cases h
    · rename_i ps he
      obtain rfl := Option.some.inj h
      refine ⟨fun s' e => (by cases e), fun s' e => ?_⟩
      rcases hex t hle _ _ _ ha he with ⟨c, -⟩ | ⟨-, c2⟩
      · cases c
      · exact c2
    · rename_i e ps hnr he
      have hacc : Account (fun q r => R a.E q r ∧ D t r) gone qs ps := by
        rcases hex t hle _ _ _ ha he with ⟨-, c⟩ | ⟨c, -⟩
        · exact c
        · exact absurd (by rw [c]) hnr
      have hacc1 : Account (R a.E) gone qs ps := hacc.imp (fun q _ r _ h => h.1) fun q _ h => h
      split at h
      · obtain rfl := Option.some.inj h
        exact ⟨fun s' e => (by cases e), fun s' e => (by cases e)⟩
      · rename_i s2 hw
        have h2 : s2.ps = ps ∧ Recs P qs s2 := by
          cases hb : Schedule.near t (s.sched.next .output) with
          | true =>
            rw [hb, cond_true] at hw
            exact ⟨(write_sub hw).1, write_recs hP hw hacc1 hr⟩
          | false =>
            rw [hb, cond_false] at hw
            obtain rfl := Option.some.inj hw
            exact ⟨rfl, hr⟩
        split at h
        · obtain rfl := Option.some.inj h
          exact ⟨fun s' e => (by cases e), fun s' e => (by cases e)⟩
        obtain ⟨i1, i2⟩ := ih { s2 with sched := Schedule.fire a s.sched t } r (by simp only [h2.1]; exact hacc1) h2.2 h
        refine ⟨fun s' e => ?_, i2⟩
        obtain ⟨j1, j2, j3⟩ := i1 s' e
        refine ⟨j1, j2, fun _ => ?_⟩
        by_cases hc2 : Schedule.continues a (Schedule.fire a s.sched t)
        · exact j3 hc2
        · have hE : t = a.E := by
            unfold Schedule.continues at hc2
            rw [not_or, not_or] at hc2
            obtain ⟨d1, d2, -⟩ := hc2
            have ht : (Schedule.fire a s.sched t).time = t := rfl
            rw [ht] at d1 d2
            rcases Schedule.pos_or_neg hne with ⟨p1, p2⟩ | ⟨p1, p2⟩
            · rw [p2] at hle
              have : ¬ t < a.E := fun c => d1 ⟨c, p1⟩
              linarith
            · rw [p2] at hle
              have : ¬ t > a.E := fun c => d2 ⟨c, p1⟩
              linarith
          cases n with
          | zero => cases h
          | succ n =>
            rw [loop, if_neg hc2] at h
            obtain rfl := Option.some.inj h
            cases e
            refine ⟨hE, fun x hx => ?_⟩
            rw [h2.1] at hx
            obtain ⟨q, -, -, hq⟩ := hacc.right x hx
            rw [← hE]
            exact hq

end Loop

theorem run_path {R : ℚ → TP V → TP V → Prop} {D : ℚ → TP V → Prop} {P : TP V → ℕ × ℚ × V → Prop} {gone : TP V → Prop} {bad : Prop} {exec : Exec V}
    {o : Opts} {S : ℚ} {ps : List (TP V)} (h : Starts o S ps) (hP : ∀ q r, R (endOf o S) q r → P q (core r))
    (hex : ∀ T, (T - endOf o S) * sgn o.dt ≤ 0 → ∀ rs e rs', Account (R (endOf o S)) gone ps rs → exec T o.dt rs = some (e, rs') →
      (e = .normal ∧ Account (fun q r => R (endOf o S) q r ∧ D T r) gone ps rs') ∨ (e = .raised ∧ bad))
    (hacc : Account (R (endOf o S)) gone ps (ps.map fun q => (q.1, { q.2 with dt := o.dt })))
    (fuel : ℕ) (file : Output.PFile) (r : Run V) (hr : execute o exec fuel file ps = some r) :
    (∀ s, r = .done s → Account (R (endOf o S)) gone ps s.ps ∧ Recs P ps s ∧ s.sched.time = endOf o S ∧ ∀ x ∈ s.ps, D (endOf o S) x) ∧
    (∀ s, r = .raised s → bad) := by
  have hne := ne_zero_of h.step
  obtain ⟨a1, a2, a3⟩ := args_dt h
  unfold execute at hr
  rw [startTime_eq hne ps h.others h.first] at hr
  simp only at hr
  split at hr
  · obtain rfl := Option.some.inj hr
    exact ⟨fun s e => (by cases e), fun s e => (by cases e)⟩
  rename_i s1 hw
  obtain ⟨w1, w2, -⟩ := write_sub hw
  have hrec : Recs P ps s1 := by
    refine write_recs (R := R) (gone := gone) hP hw ?_ ?_
    · simp only [a1]; exact hacc
    · intro c hc; cases hc
  have hacc1 : Account (R (args o S).E) gone ps s1.ps := by
    rw [w1]; simp only [a1, a2]; exact hacc
  have hcont : Schedule.continues (args o S) s1.sched := by
    rw [w2, Schedule.continues_iff (by rw [a1]; exact hne)]
    unfold Schedule.After
    have : (Schedule.init (args o S)).time = S := a3
    simp only [this, a1, a2]
    linarith [h.length]
  split at hr
  · cases hr
  · rename_i s2 hl
    obtain ⟨i1, -⟩ := loop_run (R := R) (D := D) (P := P) (gone := gone) (bad := bad) (qs := ps) (by rw [a2]; exact hP) (by rw [a1]; exact hne) (by rw [a1, a2]; exact hex) fuel s1 _ hacc1 hrec hl
    obtain ⟨j1, j2, j3⟩ := i1 s2 rfl
    obtain ⟨j3, j4⟩ := j3 hcont
    rw [a2] at j1 j4
    split at hr
    · obtain rfl := Option.some.inj hr
      exact ⟨fun s e => (by cases e), fun s e => (by cases e)⟩
    · rename_i s3 hw3
      obtain rfl := Option.some.inj hr
      obtain ⟨v1, v2, -⟩ := write_sub hw3
      refine ⟨fun s e => ?_, fun s e => (by cases e)⟩
      cases e
      exact ⟨by rw [v1]; exact j1, write_recs hP hw3 j1 j2, by rw [v2, j3, a2], by rw [v1]; exact j4⟩
  · rename_i r' hnd hl
    obtain rfl := Option.some.inj hr
    obtain ⟨-, i2⟩ := loop_run (R := R) (D := D) (P := P) (gone := gone) (bad := bad) (qs := ps) (by rw [a2]; exact hP) (by rw [a1]; exact hne) (by rw [a1, a2]; exact hex) fuel s1 _ hacc1 hrec hl
    exact ⟨fun s e => absurd e (hnd s), i2⟩

end Parcels.AdaptiveRun
