import Verif.Proofs.SphereRun3

namespace Parcels.SphereRun

open Search Interp TimeInterp
open GridRun (Fld Hint HintOk Prog Body TimeValue follow refScheme strip bare snap remember)
open KernelLoop (Exc)
open WholeRun (Scheme solution trajectory record core)
open Recovery (TP)

variable {V : Type}

/-! ### Programs -/

theorem follow_scipy {fs : Nat → SFld} {U : Nat → List ℚ} (hf : ∀ i, Sound (fs i).fld (U i)) {cosd : ℚ → ℚ} {val : Nat → (t z y x : ℚ) → Option ℚ}
    (hv : Interpolates cosd fs U val) : ∀ p : Prog V, (∀ v, follow val p = some v → scipy cosd fs p = .ok v) ∧
      ((∀ i, Regional (fs i).fld.grid (U i)) → follow val p = none → ∃ e, scipy cosd fs p = .error e) := by
  intro p
  induction p with
  | ret v => exact ⟨fun w h => by rw [← Option.some.inj h]; rfl, fun _ h => by cases h⟩
  | fail e => exact ⟨fun w h => (by cases h), fun _ _ => ⟨e, rfl⟩⟩
  | get f t z y x k ih =>
    rw [follow, scipy]
    cases hw : val f t z y x with
    | none =>
      refine ⟨fun w h => (by cases h), fun hr _ => ?_⟩
      cases he : eval cosd (fs f) t z y x with
      | error e => exact ⟨e, rfl⟩
      | ok w =>
        rw [eval_iff (hf f) (hr f), ← hv, hw] at he
        cases he
    | some w =>
      obtain ⟨h1, h2⟩ := (hv _ _ _ _ _ _).mp hw
      rw [eval_value (hf f) cosd h1 h2]
      exact ih w

theorem follow_jit {fs : Nat → SFld} {U : Nat → List ℚ} (hf : ∀ i, Sound (fs i).fld (U i)) (hg : Grids fs) {cosd : ℚ → ℚ}
    {val : Nat → (t z y x : ℚ) → Option ℚ} (hv : Interpolates cosd fs U val) : ∀ (p : Prog V) (hs : Nat → Hint), Hints fs hs →
      (∀ v, follow val p = some v → ∃ hs', jit cosd fs p hs = .ok (v, hs') ∧ Hints fs hs') ∧
      ((∀ i, Regional (fs i).fld.grid (U i)) → follow val p = none → ∃ e, jit cosd fs p hs = .error e) := by
  intro p
  induction p with
  | ret v => exact fun hs hh => ⟨fun w h => ⟨hs, by rw [← Option.some.inj h]; rfl, hh⟩, fun _ h => by cases h⟩
  | fail e => exact fun hs hh => ⟨fun w h => (by cases h), fun _ _ => ⟨e, rfl⟩⟩
  | get f t z y x k ih =>
    intro hs hh
    have hf' : HintOk (fs f).fld (hs (fs f).fld.igrid) := GridRun.hint_ok hh f
    rw [follow, jit]
    cases hw : val f t z y x with
    | none =>
      refine ⟨fun w h => (by cases h), fun hr _ => ?_⟩
      cases he : cEval cosd (fs f) t z y x (hs (fs f).fld.igrid) with
      | error e => exact ⟨e, rfl⟩
      | ok r =>
        obtain ⟨w, h'⟩ := r
        have := (cEval_iff (hf f) (hr f) cosd hf' t z y x w).mp ⟨h', he⟩
        rw [← hv, hw] at this
        cases this
    | some w =>
      obtain ⟨h1, h2⟩ := (hv _ _ _ _ _ _).mp hw
      obtain ⟨h3, h4⟩ := value_covers (hf f) h2
      rw [cEval_value (hf f) cosd h1 h2 hf']
      exact ih w _ (GridRun.hints_update hg hh f (remember_ok (hf f) t h1 h3 h4 hf'))

/-! ### Solutions -/

theorem solution_scipy {fs : Nat → SFld} {U : Nat → List ℚ} (hf : ∀ i, Sound (fs i).fld (U i)) {cosd : ℚ → ℚ} {val : Nat → (t z y x : ℚ) → Option ℚ}
    (hv : Interpolates cosd fs U val) (b : Body V) (dt : ℚ) : ∀ (n : Nat) (t : ℚ) (v : V),
      ((∀ i, Regional (fs i).fld.grid (U i)) ∨ (solution (refScheme val b) dt n t v).isSome) →
      solution (scipyScheme cosd fs b) dt n t v = solution (refScheme val b) dt n t v := by
  intro n
  induction n with
  | zero => intro t v _; rfl
  | succ n ih =>
    intro t v hok
    rw [solution] at hok
    rw [solution, solution]
    obtain ⟨h1, h2⟩ := follow_scipy hf hv (b t dt v)
    unfold refScheme at hok
    unfold refScheme scipyScheme
    cases hw : follow val (b t dt v) with
    | none =>
      rw [hw] at hok
      obtain ⟨e, he⟩ := h2 (hok.resolve_right (by simp)) hw
      rw [he]
    | some v' =>
      rw [hw] at hok
      rw [h1 v' hw]
      exact ih _ _ hok

theorem solution_jit {fs : Nat → SFld} {U : Nat → List ℚ} (hf : ∀ i, Sound (fs i).fld (U i)) (hg : Grids fs) {cosd : ℚ → ℚ}
    {val : Nat → (t z y x : ℚ) → Option ℚ} (hv : Interpolates cosd fs U val) (b : Body V) (dt : ℚ) :
    ∀ (n : Nat) (t : ℚ) (v : V) (hs : Nat → Hint), Hints fs hs →
      ((∀ i, Regional (fs i).fld.grid (U i)) ∨ (solution (refScheme val b) dt n t v).isSome) →
      (solution (jitScheme cosd fs b) dt n t (v, hs)).map Prod.fst = solution (refScheme val b) dt n t v := by
  intro n
  induction n with
  | zero => intro t v hs _ _; rfl
  | succ n ih =>
    intro t v hs hh hok
    rw [solution] at hok
    rw [solution, solution]
    obtain ⟨h1, h2⟩ := follow_jit hf hg hv (b t dt v) hs hh
    unfold refScheme at hok
    unfold refScheme jitScheme
    dsimp only
    cases hw : follow val (b t dt v) with
    | none =>
      rw [hw] at hok
      obtain ⟨e, he⟩ := h2 (hok.resolve_right (by simp)) hw
      rw [he]
      rfl
    | some v' =>
      rw [hw] at hok
      obtain ⟨hs', he, hh'⟩ := h1 v' hw
      rw [he]
      exact ih _ _ _ hh' hok

theorem trajectory_scipy {fs : Nat → SFld} {U : Nat → List ℚ} (hf : ∀ i, Sound (fs i).fld (U i)) {cosd : ℚ → ℚ} {val : Nat → (t z y x : ℚ) → Option ℚ}
    (hv : Interpolates cosd fs U val) (b : Body V) (dt t : ℚ) (q : TP V)
    (hok : (∀ i, Regional (fs i).fld.grid (U i)) ∨ (trajectory (refScheme val b) dt t q).isSome) :
    trajectory (scipyScheme cosd fs b) dt t q = trajectory (refScheme val b) dt t q := by
  unfold trajectory at hok ⊢
  by_cases c : 0 < (q.2.time - t) * sgn dt
  · rw [if_pos c, if_pos c]
  · rw [if_neg c] at hok
    rw [if_neg c, if_neg c, solution_scipy hf hv]
    rwa [Option.isSome_map] at hok

theorem trajectory_jit {fs : Nat → SFld} {U : Nat → List ℚ} (hf : ∀ i, Sound (fs i).fld (U i)) (hg : Grids fs) {cosd : ℚ → ℚ}
    {val : Nat → (t z y x : ℚ) → Option ℚ} (hv : Interpolates cosd fs U val) (b : Body V) (dt t : ℚ) (q : TP (V × (Nat → Hint)))
    (hq : Hints fs q.2.vars.2) (hok : (∀ i, Regional (fs i).fld.grid (U i)) ∨ (trajectory (refScheme val b) dt t (strip q)).isSome) :
    (trajectory (jitScheme cosd fs b) dt t q).map bare = trajectory (refScheme val b) dt t (strip q) := by
  unfold trajectory at hok ⊢
  by_cases c : 0 < (q.2.time - t) * sgn dt
  · rw [if_pos c, if_pos (show 0 < ((strip q).2.time - t) * sgn dt from c)]
    rfl
  · rw [if_neg (show ¬ 0 < ((strip q).2.time - t) * sgn dt from c), Option.isSome_map] at hok
    rw [if_neg c, if_neg (show ¬ 0 < ((strip q).2.time - t) * sgn dt from c)]
    have := solution_jit hf hg hv b dt ⌊(t - q.2.time) / dt⌋₊ q.2.time q.2.vars.1 q.2.vars.2 hq hok
    show Option.map bare (Option.map _ (solution (jitScheme cosd fs b) dt ⌊(t - q.2.time) / dt⌋₊ q.2.time (q.2.vars.1, q.2.vars.2))) =
      Option.map _ (solution (refScheme val b) dt ⌊(t - q.2.time) / dt⌋₊ q.2.time q.2.vars.1)
    rw [← this, Option.map_map, Option.map_map]
    rfl

theorem record_scipy {fs : Nat → SFld} {U : Nat → List ℚ} (hf : ∀ i, Sound (fs i).fld (U i)) {cosd : ℚ → ℚ} {val : Nat → (t z y x : ℚ) → Option ℚ}
    (hv : Interpolates cosd fs U val) (b : Body V) (dt t : ℚ) (q : TP V) (hok : ∀ i, Regional (fs i).fld.grid (U i)) :
    record (scipyScheme cosd fs b) dt t q = record (refScheme val b) dt t q := by
  unfold record
  rw [trajectory_scipy hf hv b dt t q (Or.inl hok)]

theorem record_jit {fs : Nat → SFld} {U : Nat → List ℚ} (hf : ∀ i, Sound (fs i).fld (U i)) (hg : Grids fs) {cosd : ℚ → ℚ}
    {val : Nat → (t z y x : ℚ) → Option ℚ} (hv : Interpolates cosd fs U val) (b : Body V) (dt t : ℚ) (q : TP (V × (Nat → Hint)))
    (hq : Hints fs q.2.vars.2) (hok : ∀ i, Regional (fs i).fld.grid (U i)) :
    (record (jitScheme cosd fs b) dt t q).map bare = record (refScheme val b) dt t (strip q) := by
  unfold record
  by_cases c : 0 < (q.2.time - t) * sgn dt
  · rw [if_pos c, if_pos (show 0 < ((strip q).2.time - t) * sgn dt from c)]
    rfl
  · rw [if_neg c, if_neg (show ¬ 0 < ((strip q).2.time - t) * sgn dt from c)]
    exact trajectory_jit hf hg hv b dt t q hq (Or.inl hok)

end Parcels.SphereRun
