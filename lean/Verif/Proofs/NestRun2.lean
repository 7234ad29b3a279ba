import Verif.Proofs.NestRun

namespace Parcels.NestRun

open Search Interp TimeInterp FieldLists
open KernelLoop (Exc)
open GridRun (Fld Hint Sound FieldValue HintOk Hints Grids exc snap bare strip)
open WholeRun (Scheme solution trajectory record core Regular startTime)
open Recovery (TP)
open PathRun (Path Step Fails)

variable {V : Type}

/-! ### Programs -/

theorem nests_exists {fs : Nat → Fld} (hf : ∀ i, Sound (fs i)) (ns : Nat → List (List Nat)) : ∃ val, Nests fs ns val := by
  refine ⟨fun n t z y x => (nestedS fs (ns n) t z y x).toOption, fun n t z y x w => ?_⟩
  rw [← nested_iff hf]
  show (nestedS fs (ns n) t z y x).toOption = some w ↔ _
  cases nestedS fs (ns n) t z y x with
  | error e => exact ⟨fun h => (by cases h), fun h => by cases h⟩
  | ok v => exact ⟨fun h => (by rw [← Option.some.inj h]), fun h => by injection h with h; rw [← h]; rfl⟩

theorem follow_scipy {fs : Nat → Fld} (hf : ∀ i, Sound (fs i)) {val : Nat → (t z y x : ℚ) → Option (List ℚ)} {ns : Nat → List (List Nat)} (hv : Nests fs ns val) :
    ∀ p : Prog V, (∀ v, follow val p = some v → scipy fs ns p = .ok v) ∧ (follow val p = none → ∃ e, scipy fs ns p = .error e) := by
  intro p
  induction p with
  | ret v => exact ⟨fun w h => by rw [← Option.some.inj h]; rfl, fun h => by cases h⟩
  | fail e => exact ⟨fun w h => (by cases h), fun _ => ⟨e, rfl⟩⟩
  | get n t z y x k ih =>
    rw [follow, scipy]
    cases hw : val n t z y x with
    | none =>
      refine ⟨fun w h => (by cases h), fun _ => ?_⟩
      cases he : nestedS fs (ns n) t z y x with
      | error e => exact ⟨_, rfl⟩
      | ok w =>
        rw [nested_iff hf, ← hv, hw] at he
        cases he
    | some w =>
      rw [(nested_iff hf t z y x _ w).mpr ((hv _ _ _ _ _ _).mp hw)]
      exact ih w

theorem follow_jit {fs : Nat → Fld} (hf : ∀ i, Sound (fs i)) (hg : Grids fs) {val : Nat → (t z y x : ℚ) → Option (List ℚ)} {ns : Nat → List (List Nat)} (hv : Nests fs ns val) :
    ∀ (p : Prog V) (hs : Nat → Hint), Hints fs hs →
      (∀ v, follow val p = some v → ∃ hs', jit fs ns p hs = .ok (v, hs') ∧ Hints fs hs') ∧ (follow val p = none → ∃ e, jit fs ns p hs = .error e) := by
  intro p
  induction p with
  | ret v => exact fun hs hh => ⟨fun w h => ⟨hs, by rw [← Option.some.inj h]; rfl, hh⟩, fun h => by cases h⟩
  | fail e => exact fun hs hh => ⟨fun w h => (by cases h), fun _ => ⟨e, rfl⟩⟩
  | get n t z y x k ih =>
    intro hs hh
    rw [follow, jit]
    obtain ⟨c1, c2⟩ := cNest_eq hf hg t z y x (ns n) hs hh
    rcases hc : cNest fs t z y x (ns n) hs with ⟨r, hs'⟩
    rw [hc] at c1 c2
    dsimp only at c1 c2
    cases hw : val n t z y x with
    | none =>
      refine ⟨fun w h => (by cases h), fun _ => ?_⟩
      cases r with
      | error e => exact ⟨_, rfl⟩
      | ok w =>
        have := c1.symm
        rw [nested_iff hf, ← hv, hw] at this
        cases this
    | some w =>
      rw [(nested_iff hf t z y x _ w).mpr ((hv _ _ _ _ _ _).mp hw)] at c1
      subst c1
      exact ih w _ c2

/-! ### Solutions -/

theorem solution_scipy {fs : Nat → Fld} (hf : ∀ i, Sound (fs i)) {val : Nat → (t z y x : ℚ) → Option (List ℚ)} {ns : Nat → List (List Nat)} (hv : Nests fs ns val) (b : Body V) (dt : ℚ) :
    ∀ (n : Nat) (t : ℚ) (v : V), solution (scipyScheme fs ns b) dt n t v = solution (refScheme val b) dt n t v := by
  intro n
  induction n with
  | zero => intro t v; rfl
  | succ n ih =>
    intro t v
    rw [solution, solution]
    obtain ⟨h1, h2⟩ := follow_scipy hf hv (b t dt v)
    unfold refScheme scipyScheme
    cases hw : follow val (b t dt v) with
    | none =>
      obtain ⟨e, he⟩ := h2 hw
      rw [he]
    | some v' =>
      rw [h1 v' hw]
      exact ih _ _

theorem solution_jit {fs : Nat → Fld} (hf : ∀ i, Sound (fs i)) (hg : Grids fs) {val : Nat → (t z y x : ℚ) → Option (List ℚ)} {ns : Nat → List (List Nat)} (hv : Nests fs ns val)
    (b : Body V) (dt : ℚ) : ∀ (n : Nat) (t : ℚ) (v : V) (hs : Nat → Hint), Hints fs hs →
      (solution (jitScheme fs ns b) dt n t (v, hs)).map Prod.fst = solution (refScheme val b) dt n t v := by
  intro n
  induction n with
  | zero => intro t v hs _; rfl
  | succ n ih =>
    intro t v hs hh
    rw [solution, solution]
    obtain ⟨h1, h2⟩ := follow_jit hf hg hv (b t dt v) hs hh
    unfold refScheme jitScheme
    dsimp only
    cases hw : follow val (b t dt v) with
    | none =>
      obtain ⟨e, he⟩ := h2 hw
      rw [he]
      rfl
    | some v' =>
      obtain ⟨hs', he, hh'⟩ := h1 v' hw
      rw [he]
      exact ih _ _ _ hh'

theorem trajectory_scipy {fs : Nat → Fld} (hf : ∀ i, Sound (fs i)) {val : Nat → (t z y x : ℚ) → Option (List ℚ)} {ns : Nat → List (List Nat)} (hv : Nests fs ns val) (b : Body V) :
    trajectory (scipyScheme fs ns b) = trajectory (refScheme val b) := by
  funext dt t q
  unfold trajectory
  rw [solution_scipy hf hv]

theorem trajectory_jit {fs : Nat → Fld} (hf : ∀ i, Sound (fs i)) (hg : Grids fs) {val : Nat → (t z y x : ℚ) → Option (List ℚ)} {ns : Nat → List (List Nat)} (hv : Nests fs ns val)
    (b : Body V) (dt t : ℚ) (q : TP (V × (Nat → Hint))) (hq : Hints fs q.2.vars.2) :
    (trajectory (jitScheme fs ns b) dt t q).map bare = trajectory (refScheme val b) dt t (strip q) := by
  unfold trajectory
  by_cases c : 0 < (q.2.time - t) * sgn dt
  · rw [if_pos c, if_pos (show 0 < ((strip q).2.time - t) * sgn dt from c)]
    rfl
  · rw [if_neg c, if_neg (show ¬ 0 < ((strip q).2.time - t) * sgn dt from c)]
    have := solution_jit hf hg hv b dt ⌊(t - q.2.time) / dt⌋₊ q.2.time q.2.vars.1 q.2.vars.2 hq
    show Option.map bare (Option.map _ (solution (jitScheme fs ns b) dt ⌊(t - q.2.time) / dt⌋₊ q.2.time (q.2.vars.1, q.2.vars.2))) =
      Option.map _ (solution (refScheme val b) dt ⌊(t - q.2.time) / dt⌋₊ q.2.time q.2.vars.1)
    rw [← this, Option.map_map, Option.map_map]
    rfl

theorem record_jit {fs : Nat → Fld} (hf : ∀ i, Sound (fs i)) (hg : Grids fs) {val : Nat → (t z y x : ℚ) → Option (List ℚ)} {ns : Nat → List (List Nat)} (hv : Nests fs ns val)
    (b : Body V) (dt t : ℚ) (q : TP (V × (Nat → Hint))) (hq : Hints fs q.2.vars.2) :
    (record (jitScheme fs ns b) dt t q).map bare = record (refScheme val b) dt t (strip q) := by
  unfold record
  by_cases c : 0 < (q.2.time - t) * sgn dt
  · rw [if_pos c, if_pos (show 0 < ((strip q).2.time - t) * sgn dt from c)]
    rfl
  · rw [if_neg c, if_neg (show ¬ 0 < ((strip q).2.time - t) * sgn dt from c)]
    exact trajectory_jit hf hg hv b dt t q hq

/-! ### Paths -/

theorem ref_ok {val : Nat → (t z y x : ℚ) → Option (List ℚ)} {b : Body V} {t d : ℚ} {v v' : V} : refScheme val b t d v = .ok v' ↔ follow val (b t d v) = some v' := by
  unfold refScheme
  cases follow val (b t d v) with
  | none => exact ⟨fun h => (by cases h), fun h => by cases h⟩
  | some w => exact ⟨fun h => (by rw [Except.ok.inj h]), fun h => by rw [Option.some.inj h]⟩

theorem path_scipy {fs : Nat → Fld} (hf : ∀ i, Sound (fs i)) {val : Nat → (t z y x : ℚ) → Option (List ℚ)} {ns : Nat → List (List Nat)} (hv : Nests fs ns val) (b : Body V)
    {dt t t' : ℚ} {v v' : V} (h : Path (scipyScheme fs ns b) (fun _ _ _ => none) dt t v t' v') : Path (refScheme val b) (fun _ _ _ => none) dt t v t' v' := by
  induction h with
  | here => exact .here
  | repair _ _ _ h => cases h
  | @step t1 v1 d v2 _ hs he ih =>
    refine ih.step hs (ref_ok.mpr ?_)
    obtain ⟨h1, h2⟩ := follow_scipy hf hv (b t1 d v1)
    unfold scipyScheme at he
    cases hw : follow val (b t1 d v1) with
    | none => obtain ⟨e, h2⟩ := h2 hw; rw [h2] at he; cases he
    | some w => rw [h1 w hw] at he; rw [Except.ok.inj he]

theorem fails_scipy {fs : Nat → Fld} (hf : ∀ i, Sound (fs i)) {val : Nat → (t z y x : ℚ) → Option (List ℚ)} {ns : Nat → List (List Nat)} (hv : Nests fs ns val) (b : Body V)
    {dt : ℚ} {q : TP V} (h : Fails (scipyScheme fs ns b) (fun _ _ _ => none) dt q) : Fails (refScheme val b) (fun _ _ _ => none) dt q := by
  obtain ⟨t, v, d, e, hp, hs, he, -⟩ := h
  refine ⟨t, v, d, .anyOther, path_scipy hf hv b hp, hs, ?_, rfl⟩
  obtain ⟨h1, -⟩ := follow_scipy hf hv (b t d v)
  unfold refScheme
  cases hw : follow val (b t d v) with
  | none => rfl
  | some w => unfold scipyScheme at he; rw [h1 w hw] at he; cases he

theorem path_jit {fs : Nat → Fld} (hf : ∀ i, Sound (fs i)) (hg : Grids fs) {val : Nat → (t z y x : ℚ) → Option (List ℚ)} {ns : Nat → List (List Nat)} (hv : Nests fs ns val)
    (b : Body V) {dt t t' : ℚ} {s s' : V × (Nat → Hint)} (hh : Hints fs s.2) (h : Path (jitScheme fs ns b) (fun _ _ _ => none) dt t s t' s') :
    Path (refScheme val b) (fun _ _ _ => none) dt t s.1 t' s'.1 ∧ Hints fs s'.2 := by
  induction h with
  | here => exact ⟨.here, hh⟩
  | repair _ _ _ h => cases h
  | @step t1 v1 d v2 _ hs he ih =>
    obtain ⟨h1, h2⟩ := follow_jit hf hg hv (b t1 d v1.1) v1.2 ih.2
    unfold jitScheme at he
    cases hw : follow val (b t1 d v1.1) with
    | none => obtain ⟨e, h2⟩ := h2 hw; rw [h2] at he; cases he
    | some w =>
      obtain ⟨hs', e1, e2⟩ := h1 w hw
      rw [e1] at he
      have := Except.ok.inj he
      subst this
      exact ⟨ih.1.step hs (ref_ok.mpr hw), e2⟩

theorem fails_jit {fs : Nat → Fld} (hf : ∀ i, Sound (fs i)) (hg : Grids fs) {val : Nat → (t z y x : ℚ) → Option (List ℚ)} {ns : Nat → List (List Nat)} (hv : Nests fs ns val)
    (b : Body V) {dt : ℚ} {q : TP (V × (Nat → Hint))} (hh : Hints fs q.2.vars.2) (h : Fails (jitScheme fs ns b) (fun _ _ _ => none) dt q) :
    Fails (refScheme val b) (fun _ _ _ => none) dt (strip q) := by
  obtain ⟨t, v, d, e, hp, hs, he, -⟩ := h
  obtain ⟨p1, p2⟩ := path_jit hf hg hv b hh hp
  refine ⟨t, v.1, d, .anyOther, p1, hs, ?_, rfl⟩
  obtain ⟨h1, -⟩ := follow_jit hf hg hv (b t d v.1) v.2 p2
  unfold refScheme
  cases hw : follow val (b t d v.1) with
  | none => rfl
  | some w =>
    unfold jitScheme at he
    obtain ⟨hs', e1, -⟩ := h1 w hw
    rw [e1] at he
    cases he

end Parcels.NestRun
