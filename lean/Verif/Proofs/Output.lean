import Verif.Spec.Output
import Mathlib.Tactic.Linarith
import Mathlib.Tactic.Ring
import Mathlib.Data.List.Nodup
import Mathlib.Algebra.Order.Group.Unbundled.Abs
import Mathlib.Algebra.Order.AbsoluteValue.Basic

namespace Parcels.Output

variable {V : Type}

theorem byMask_sublist {α : Type} (l : List α) (m : List Bool) : (byMask l m).Sublist l := by
  have h1 : ((l.zip m).filter (·.2)).Sublist (l.zip m) := List.filter_sublist
  refine (h1.map (·.1)).trans ?_
  induction l generalizing m with
  | nil => simp
  | cons a l ih =>
    cases m with
    | nil => simp
    | cons b m =>
      rw [List.zip_cons_cons, List.map_cons]
      exact (ih m List.filter_sublist).cons_cons a

/-- Everything that one call can do, for the two kinds of calls the library makes. -/
theorem toDict_cases {f f' : PFile} {e : Event V} {d o : List (P V)} (hl : LibraryCall e)
    (h : toDict f e.ps e.time e.req = some (f', d, o)) :
    f'.writeOndelete = f.writeOndelete ∧ f'.hasOnce = f.hasOnce ∧
    d.Sublist e.ps ∧ o.Sublist e.ps ∧
    (f.lasttime = some e.time → f' = f ∧ d = [] ∧ o = []) ∧
    (e.req = .regular → f'.lasttime = some e.time ∨ (f' = f ∧ d = [] ∧ o = [])) ∧
    (e.req ≠ .regular → f'.lasttime = f.lasttime ∧ ∀ p ∈ d, p.id ∈ deletedIDs e) := by
  unfold toDict at h
  split at h
  · rename_i hc
    split at h
    · injection h with h
      injection h with h1 h2
      injection h2 with h2 h3
      subst h2; subst h3
      refine ⟨?_, ?_, by simp, by simp, fun hh => absurd hh hc.1, ?_, ?_⟩
      · rw [← h1]; split <;> rfl
      · rw [← h1]; split <;> rfl
      · intro hr; rw [if_pos hr] at h1; exact Or.inl (by rw [← h1])
      · intro hr; rw [if_neg hr] at h1; exact ⟨by rw [← h1], by simp⟩
    · simp only at h
      split at h
      · cases h
      · injection h with h
        injection h with h1 h2
        injection h2 with h2 h3
        subst h2; subst h3
        have hsub : (choose e.ps e.time e.req).1.Sublist e.ps := by
          rcases hl with hr | ⟨m, hr, _⟩
          · rw [hr]; exact List.filter_sublist
          · rw [hr]; exact byMask_sublist _ _
        refine ⟨by rw [← h1], by rw [← h1], ?_, ?_, fun hh => absurd hh hc.1, ?_, ?_⟩
        · cases (choose e.ps e.time e.req).2
          · simp
          · exact hsub
        · split
          · exact List.filter_sublist
          · simp
        · intro hr; left; rw [← h1]; simp [hr]
        · intro hr
          refine ⟨by rw [← h1]; simp [hr], ?_⟩
          intro p hp
          rcases hl with hr' | ⟨m, hr', _⟩
          · exact absurd hr' hr
          · rw [hr'] at hp
            unfold deletedIDs
            rw [hr']
            simp only [choose] at hp
            rcases hany : m.any id with _ | _
            · rw [hany] at hp; simp at hp
            · rw [hany] at hp; exact List.mem_map_of_mem hp
  · rename_i hc
    injection h with h
    injection h with h1 h2
    injection h2 with h2 h3
    subst h2; subst h3; subst h1
    exact ⟨rfl, rfl, by simp, by simp, fun _ => ⟨rfl, rfl, rfl⟩, fun _ => Or.inr ⟨rfl, rfl, rfl⟩,
      fun _ => ⟨rfl, by simp⟩⟩

theorem run_cons_some {f f' : PFile} {e : Event V} {es : List (Event V)} {d o : List (P V)}
    (h : toDict f e.ps e.time e.req = some (f', d, o)) :
    (run f (e :: es)).2.1 = { time := e.time, data := d, once := o } :: (run f' es).2.1 ∧
    (run f (e :: es)).1 = (run f' es).1 ∧ (run f (e :: es)).2.2 = (run f' es).2.2 := by
  simp [run, h]

theorem run_cons_none {f : PFile} {e : Event V} {es : List (Event V)}
    (h : toDict f e.ps e.time e.req = none) : run f (e :: es) = (f, [], true) := by
  simp [run, h]

theorem IsRun.tail {s : ℚ} {e : Event V} {es : List (Event V)} (h : IsRun s (e :: es)) : IsRun s es where
  lib := fun x hx => h.lib x (by simp [hx])
  mono := (List.pairwise_cons.mp h.mono).2
  unique := fun x hx => h.unique x (by simp [hx])
  gone := (List.pairwise_cons.mp h.gone).2

/-- Every stored record comes from a call: its time is the time of a call, its particle is in the set. -/
theorem run_key_mem {s : ℚ} : ∀ (es : List (Event V)) (f : PFile), IsRun s es →
    ∀ k ∈ recordKeys (run f es).2.1, ∃ e ∈ es, k.1 = e.time ∧ k.2 ∈ e.ps.map (·.id) := by
  intro es
  induction es with
  | nil => intro f _ k hk; simp [run, recordKeys] at hk
  | cons e es ih =>
    intro f hr k hk
    rcases h : toDict f e.ps e.time e.req with _ | ⟨f', d, o⟩
    · rw [run_cons_none h] at hk; simp [recordKeys] at hk
    · rw [(run_cons_some h).1] at hk
      simp only [recordKeys, List.flatMap_cons, List.mem_append, List.mem_map] at hk
      rcases hk with ⟨p, hp, rfl⟩ | hk
      · obtain ⟨_, _, h3, _⟩ := toDict_cases (hr.lib e (by simp)) h
        exact ⟨e, by simp, rfl, List.mem_map_of_mem (h3.subset hp)⟩
      · obtain ⟨e', he', h1, h2⟩ := ih f' hr.tail k hk
        exact ⟨e', by simp [he'], h1, h2⟩

/-- No record is stored any more at the time of the last regular write. -/
theorem run_no_key_at_last {s : ℚ} (hs : s ≠ 0) : ∀ (es : List (Event V)) (f : PFile) (T : ℚ), IsRun s es →
    f.lasttime = some T → (∀ e ∈ es, s * T ≤ s * e.time) →
    ∀ k ∈ recordKeys (run f es).2.1, k.1 ≠ T := by
  intro es
  induction es with
  | nil => intro f T _ _ _ k hk; simp [run, recordKeys] at hk
  | cons e es ih =>
    intro f T hr hT hle k hk
    rcases h : toDict f e.ps e.time e.req with _ | ⟨f', d, o⟩
    · rw [run_cons_none h] at hk; simp [recordKeys] at hk
    · obtain ⟨_, _, h3, _, h5, h6, h7⟩ := toDict_cases (hr.lib e (by simp)) h
      rw [(run_cons_some h).1] at hk
      simp only [recordKeys, List.flatMap_cons, List.mem_append, List.mem_map] at hk
      by_cases he : e.time = T
      · rw [he] at h5
        obtain ⟨e1, e2, _⟩ := h5 hT
        subst e1; subst e2
        rcases hk with ⟨p, hp, _⟩ | hk
        · simp at hp
        · exact ih f' T hr.tail hT (fun x hx => hle x (by simp [hx])) k hk
      · rcases hk with ⟨p, hp, rfl⟩ | hk
        · exact he
        · obtain ⟨e', he', h1, _⟩ := run_key_mem es f' hr.tail k hk
          intro hc
          have m1 := (List.pairwise_cons.mp hr.mono).1 e' he'
          have m2 := hle e (by simp)
          rw [← h1, hc] at m1
          have : s * e.time = s * T := le_antisymm m1 m2
          exact he (mul_left_cancel₀ hs this)

theorem run_keys_nodup {s : ℚ} (hs : s ≠ 0) : ∀ (es : List (Event V)) (f : PFile), IsRun s es →
    (recordKeys (run f es).2.1).Nodup := by
  intro es
  induction es with
  | nil => intro f _; simp [run, recordKeys]
  | cons e es ih =>
    intro f hr
    rcases h : toDict f e.ps e.time e.req with _ | ⟨f', d, o⟩
    · rw [run_cons_none h]; simp [recordKeys]
    · obtain ⟨_, _, h3, _, h5, h6, h7⟩ := toDict_cases (hr.lib e (by simp)) h
      rw [(run_cons_some h).1]
      simp only [recordKeys, List.flatMap_cons]
      rw [List.nodup_append]
      have hnd : (d.map (·.id)).Nodup := (hr.unique e (by simp)).sublist (h3.map _)
      refine ⟨?_, ih f' hr.tail, ?_⟩
      · have : (d.map fun p => (e.time, p.id)) = (d.map (·.id)).map fun i => (e.time, i) := by
          rw [List.map_map]; rfl
        rw [this]
        exact hnd.map (fun a b hab => by simpa using hab)
      · intro k hk k' hk' hkk
        subst hkk
        simp only [List.mem_map] at hk
        obtain ⟨p, hp, rfl⟩ := hk
        by_cases hreg : e.req = .regular
        · rcases h6 hreg with hl | ⟨_, hd, _⟩
          · exact run_no_key_at_last hs es f' e.time hr.tail hl
              (fun x hx => (List.pairwise_cons.mp hr.mono).1 x hx) _ hk' rfl
          · rw [hd] at hp; simp at hp
        · have hdel := (h7 hreg).2 p hp
          obtain ⟨e', he', _, h2⟩ := run_key_mem es f' hr.tail _ hk'
          exact (List.pairwise_cons.mp hr.gone).1 e' he' _ hdel h2

theorem toWrite_iff (p : P V) (T : ℚ) :
    toWrite p T = true ↔ ∃ t, p.time = some t ∧ T - |p.dt| / 2 ≤ t ∧ t ≤ T + |p.dt| / 2 := by
  have habs : |p.dt / 2| = |p.dt| / 2 := by
    rw [abs_div]; norm_num
  unfold toWrite
  rcases h : p.time with _ | t
  · simp
  · simp [habs]

theorem active_iff (p : P V) (T : ℚ) : (toWrite p T && started p T) = true ↔ active p T := by
  rw [Bool.and_eq_true, toWrite_iff]
  unfold started active
  constructor
  · rintro ⟨⟨t, ht, h1, h2⟩, h3⟩
    rw [ht] at h3
    simp only [Bool.or_eq_true, decide_eq_true_eq, isclose] at h3
    exact ⟨t, ht, h1, h2, h3⟩
  · rintro ⟨t, ht, h1, h2, h3⟩
    refine ⟨⟨t, ht, h1, h2⟩, ?_⟩
    rw [ht]
    simp only [Bool.or_eq_true, decide_eq_true_eq, isclose]
    exact h3

end Parcels.Output
