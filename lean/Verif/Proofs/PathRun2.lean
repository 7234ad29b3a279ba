import Verif.Proofs.PathRun

namespace Parcels.PathRun

open KernelLoop (Particle Kern Exc LS)
open Recovery (TP RMap)
open WholeRun
open RepairRun (Act Recovers)

variable {V : Type}

/-- The records come from the particles of the set. -/
theorem write_sub {hasFile : Bool} {s s' : St V} {t : ℚ} (h : write hasFile s t = some s') : s'.ps = s.ps ∧ s'.sched = s.sched ∧
    ∀ c ∈ records s', c ∈ records s ∨ ∃ r ∈ s.ps, c = core r := by
  unfold write at h
  cases hasFile with
  | false =>
    obtain rfl := Option.some.inj h
    exact ⟨rfl, rfl, fun c hc => Or.inl hc⟩
  | true =>
    rw [cond_true] at h
    cases hd : Output.toDict s.file (s.ps.map view) t .regular with
    | none => rw [hd] at h; cases h
    | some r =>
      rw [hd] at h
      obtain rfl := Option.some.inj h
      refine ⟨rfl, rfl, fun c hc => ?_⟩
      have hsub : ∀ p ∈ r.2.1, p ∈ s.ps.map view := by
        unfold Output.toDict at hd
        split at hd
        · split at hd
          · obtain rfl := Option.some.inj hd
            intro p hp; cases hp
          · dsimp only at hd
            split at hd
            · cases hd
            · obtain rfl := Option.some.inj hd
              intro p hp
              dsimp only [Output.choose] at hp
              cases hb : ((s.ps.map view).any fun p => Output.toWrite p t) with
              | true => rw [hb, cond_true] at hp; exact (List.mem_filter.mp hp).1
              | false => rw [hb, cond_false] at hp; cases hp
        · obtain rfl := Option.some.inj hd
          intro p hp; cases hp
      unfold records at hc ⊢
      rw [List.flatMap_append, List.mem_append] at hc
      rcases hc with hc | hc
      · exact Or.inl hc
      · right
        rw [List.flatMap_cons, List.flatMap_nil, List.append_nil, List.mem_filterMap] at hc
        obtain ⟨p, hp, hc⟩ := hc
        obtain ⟨x, hx, rfl⟩ := List.mem_map.mp (hsub p hp)
        refine ⟨x, hx, ?_⟩
        simp only [view, Option.map_some, Option.some.injEq, Int.toNat_natCast] at hc
        exact hc.symm

theorem stop_le {a : Schedule.Args} (hdt : a.dt ≠ 0) {s : Schedule.St} {t : ℚ} (h : Schedule.nextStop a s = .fin t) : (t - a.E) * sgn a.dt ≤ 0 := by
  have h1 := ((Schedule.nextStop_nb hdt s t).mp (by rw [h]; simp [Schedule.NB, Schedule.NotBefore])).2.2
  unfold Schedule.NotBefore at h1
  have : (t - a.E) * sgn a.dt = -((a.E - t) * sgn a.dt) := by ring
  rw [this]
  linarith

section Loop

variable {f : Scheme V} {act : Act V} {user : RMap Unit V} {raises : Bool} {exec : Exec V} {a : Schedule.Args} {qs : List (TP V)}

/-- The records lie on the paths. -/
def Recs (f : Scheme V) (act : Act V) (dt : ℚ) (qs : List (TP V)) (s : St V) : Prop :=
  ∀ c ∈ records s, ∃ q ∈ qs, c.1 = q.1 ∧ Path f act dt q.2.time q.2.vars c.2.1 c.2.2

theorem write_recs {E : ℚ} {gone : TP V → Prop} {hasFile : Bool} {s s' : St V} {t : ℚ} (h : write hasFile s t = some s') {dt : ℚ}
    (ha : Account (Walk f act dt E) gone qs s.ps) (hr : Recs f act dt qs s) : Recs f act dt qs s' := by
  intro c hc
  rcases (write_sub h).2.2 c hc with hc | ⟨r, h1, rfl⟩
  · exact hr c hc
  · obtain ⟨q, hq, hw⟩ := ha.right r h1
    exact ⟨q, hq, hw.tag, hw.path⟩

theorem loop_run (hu : Recovers user act raises) (hm : IsMode (kernel f) user exec) (hdt : 1 / 100000000 < |a.dt|) :
    ∀ (n : ℕ) (s : St V) (r : Run V), Account (Walk f act a.dt a.E) (Gone f act a.dt raises) qs s.ps → Recs f act a.dt qs s →
      loop a exec n s = some r →
      (∀ s', r = .done s' → Account (Walk f act a.dt a.E) (Gone f act a.dt raises) qs s'.ps ∧ Recs f act a.dt qs s' ∧
        (Schedule.continues a s.sched → s'.sched.time = a.E ∧ ∀ x ∈ s'.ps, There a.dt a.E x)) ∧
      (∀ s', r = .raised s' → raises = true ∧ ∃ q ∈ qs, Fails f act a.dt q) := by
  have hne := ne_zero_of hdt
  have hex : ∀ T, (T - a.E) * sgn a.dt ≤ 0 → ∀ ps e ps', Account (Walk f act a.dt a.E) (Gone f act a.dt raises) qs ps → exec T a.dt ps = some (e, ps') →
      Ends f act a.dt a.E raises T qs e ps' := by
    obtain ⟨fuel, nRounds, rfl | rfl⟩ := hm
    · exact fun T hT ps e ps' hps h => scipy_path hu hdt hT hps h
    · exact fun T hT ps e ps' hps h => jit_path hu hdt hT hps h
  intro n
  induction n with
  | zero => intro s r _ _ h; cases h
  | succ n ih =>
    intro s r ha hr h
    rw [loop] at h
    split at h
    swap
    · rename_i hc
      obtain rfl := Option.some.inj h
      refine ⟨fun s' e => ?_, fun s' e => by cases e⟩
      cases e
      exact ⟨ha, hr, fun c => absurd c hc⟩
    rename_i hc
    split at h
    swap
    · obtain rfl := Option.some.inj h
      exact ⟨fun s' e => (by cases e), fun s' e => (by cases e)⟩
    rename_i t hstop
    have hle := stop_le hne hstop
    split at h
    · cases h
    · rename_i ps he
      obtain rfl := Option.some.inj h
      refine ⟨fun s' e => (by cases e), fun s' e => ?_⟩
      rcases hex t hle _ _ _ ha he with ⟨c, -⟩ | ⟨c1, -, c2⟩
      · cases c
      · exact ⟨c1, c2⟩
    · rename_i e ps hnr he
      have hacc : Account (fun q r => Walk f act a.dt a.E q r ∧ There a.dt t r) (Gone f act a.dt raises) qs ps := by
        rcases hex t hle _ _ _ ha he with ⟨-, c⟩ | ⟨-, c, -⟩
        · exact c
        · exact absurd (by rw [c]) hnr
      have hacc1 : Account (Walk f act a.dt a.E) (Gone f act a.dt raises) qs ps := hacc.imp (fun q _ r _ h => h.1) fun q _ h => h
      split at h
      · obtain rfl := Option.some.inj h
        exact ⟨fun s' e => (by cases e), fun s' e => (by cases e)⟩
      · rename_i s2 hw
        have h2 : s2.ps = ps ∧ Recs f act a.dt qs s2 := by
          cases hb : Schedule.near t (s.sched.next .output) with
          | true =>
            rw [hb, cond_true] at hw
            exact ⟨(write_sub hw).1, write_recs hw (E := a.E) (gone := Gone f act a.dt raises) hacc1 hr⟩
          | false =>
            rw [hb, cond_false] at hw
            obtain rfl := Option.some.inj hw
            exact ⟨rfl, hr⟩
        split at h
        · obtain rfl := Option.some.inj h
          exact ⟨fun s' e => (by cases e), fun s' e => (by cases e)⟩
        obtain ⟨i1, i2⟩ := ih { s2 with sched := Schedule.fire a s.sched t } r (by simp only [h2.1]; exact hacc1) h2.2 h
        refine ⟨fun s' e => ?_, i2⟩
        obtain ⟨j1, j2, j3⟩ := i1 s' e
        refine ⟨j1, j2, fun _ => ?_⟩
        by_cases hc2 : Schedule.continues a (Schedule.fire a s.sched t)
        · exact j3 hc2
        · have hE : t = a.E := by
            unfold Schedule.continues at hc2
            rw [not_or, not_or] at hc2
            obtain ⟨d1, d2, -⟩ := hc2
            have ht : (Schedule.fire a s.sched t).time = t := rfl
            rw [ht] at d1 d2
            rcases Schedule.pos_or_neg hne with ⟨p1, p2⟩ | ⟨p1, p2⟩
            · rw [p2] at hle
              have : ¬ t < a.E := fun c => d1 ⟨c, p1⟩
              linarith
            · rw [p2] at hle
              have : ¬ t > a.E := fun c => d2 ⟨c, p1⟩
              linarith
          cases n with
          | zero => cases h
          | succ n =>
            rw [loop, if_neg hc2] at h
            obtain rfl := Option.some.inj h
            cases e
            refine ⟨hE, fun x hx => ?_⟩
            rw [h2.1] at hx
            obtain ⟨q, -, -, hq⟩ := hacc.right x hx
            rw [← hE]
            exact hq

end Loop

theorem args_dt {o : Opts} {S : ℚ} {ps : List (TP V)} (h : Starts o S ps) : (args o S).dt = o.dt ∧ (args o S).E = endOf o S ∧ (args o S).S = S := by
  have hne := ne_zero_of h.step
  have hl := h.length
  have hab : |endOf o S - S| = (endOf o S - S) * sgn o.dt := abs_eq_mul_sgn hne (by linarith)
  have hz : o.until_.zero = false := by
    cases hu : o.until_ with
    | runtime r =>
      simp only [Until.zero, decide_eq_false_iff_not]
      intro hr
      rw [endOf, hu, hr] at hl
      norm_num at hl
    | endtime e => rfl
  have hc : ¬ (|endOf o S - S| < 1 / 100000 ∨ o.dt = 0 ∨ o.until_.zero = true) := by
    rintro (c | c | c)
    · linarith
    · exact hne c
    · rw [hz] at c; cases c
  have e : args o S = { S := S, E := endOf o S, dt := o.dt, hasFile := o.hasFile, outputdt := o.outputdt, moviedt := o.moviedt, callbackdt := o.callbackdt, repeatdt := none,
                        rs := S, hasFieldset := true, input := o.input } := by
    unfold args Schedule.normalise
    exact if_neg hc
  rw [e]
  exact ⟨rfl, rfl, rfl⟩

theorem first_path (f : Scheme V) (act : Act V) {dt E : ℚ} (hdt : 1 / 100000000 < |dt|) (gone : TP V → Prop) : ∀ ps : List (TP V),
    Account (Walk f act dt E) gone ps (ps.map fun q => (q.1, { q.2 with dt := dt }))
  | [] => .nil
  | q :: ps => .keep ⟨rfl, .here, by simp only [mul_sgn_self]; linarith, hdt, le_rfl, Or.inr rfl⟩ (first_path f act hdt gone ps)

theorem run_path {f : Scheme V} {act : Act V} {user : RMap Unit V} {raises : Bool} (hu : Recovers user act raises) {exec : Exec V} (hm : IsMode (kernel f) user exec)
    {o : Opts} {S : ℚ} {ps : List (TP V)} (h : Starts o S ps) (fuel : ℕ) (file : Output.PFile) (r : Run V) (hr : execute o exec fuel file ps = some r) :
    (∀ s, r = .done s → Account (Walk f act o.dt (endOf o S)) (Gone f act o.dt raises) ps s.ps ∧ Recs f act o.dt ps s ∧
      s.sched.time = endOf o S ∧ ∀ x ∈ s.ps, There o.dt (endOf o S) x) ∧
    (∀ s, r = .raised s → raises = true ∧ ∃ q ∈ ps, Fails f act o.dt q) := by
  have hne := ne_zero_of h.step
  obtain ⟨a1, a2, a3⟩ := args_dt h
  unfold execute at hr
  rw [startTime_eq hne ps h.others h.first] at hr
  simp only at hr
  have hacc := first_path f act (E := endOf o S) h.step (Gone f act o.dt raises) ps
  split at hr
  · obtain rfl := Option.some.inj hr
    exact ⟨fun s e => (by cases e), fun s e => (by cases e)⟩
  rename_i s1 hw
  obtain ⟨w1, w2, -⟩ := write_sub hw
  have hrec : Recs f act o.dt ps s1 := by
    refine write_recs (E := endOf o S) (gone := Gone f act o.dt raises) hw ?_ ?_
    · simp only [a1]; exact hacc
    · intro c hc; cases hc
  have hacc1 : Account (Walk f act (args o S).dt (args o S).E) (Gone f act (args o S).dt raises) ps s1.ps := by
    rw [w1]; simp only [a1, a2]; exact hacc
  have hcont : Schedule.continues (args o S) s1.sched := by
    rw [w2, Schedule.continues_iff (by rw [a1]; exact hne)]
    unfold Schedule.After
    have : (Schedule.init (args o S)).time = S := a3
    simp only [this, a1, a2]
    linarith [h.length]
  split at hr
  · cases hr
  · rename_i s2 hl
    obtain ⟨i1, -⟩ := loop_run hu hm (by rw [a1]; exact h.step) fuel s1 _ hacc1 (by rw [a1]; exact hrec) hl
    obtain ⟨j1, j2, j3⟩ := i1 s2 rfl
    obtain ⟨j3, j4⟩ := j3 hcont
    rw [a1, a2] at j1 j4
    rw [a1] at j2
    split at hr
    · obtain rfl := Option.some.inj hr
      exact ⟨fun s e => (by cases e), fun s e => (by cases e)⟩
    · rename_i s3 hw3
      obtain rfl := Option.some.inj hr
      obtain ⟨v1, v2, -⟩ := write_sub hw3
      refine ⟨fun s e => ?_, fun s e => (by cases e)⟩
      cases e
      exact ⟨by rw [v1]; exact j1, write_recs hw3 j1 j2, by rw [v2, j3, a2], by rw [v1]; exact j4⟩
  · rename_i r' hnd hl
    obtain rfl := Option.some.inj hr
    obtain ⟨-, i2⟩ := loop_run hu hm (by rw [a1]; exact h.step) fuel s1 _ hacc1 (by rw [a1]; exact hrec) hl
    rw [a1] at i2
    exact ⟨fun s e => absurd e (hnd s), i2⟩

end Parcels.PathRun
