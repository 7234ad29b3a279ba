import Verif.Spec.PeriodRun
import Verif.Proofs.GridRun3
import Verif.Props.TimeInterp

namespace Parcels.PeriodRun

open Search Interp TimeInterp
open KernelLoop (Exc)
open GridRun (Fld Hint Sound FieldValue SpaceValue HintOk Hints Grids exc snap Prog Body follow refScheme bare strip space_cases space_scipy space_jit evalTime_err cEvalTime_err hint_ok hints_update)
open WholeRun (Scheme solution trajectory record core)
open Recovery (TP)

variable {V : Type}

/-! ### Programs with any way to sample -/

section Generic

variable {ev : Nat → (t z y x : ℚ) → Except Exc ℚ} {val : Nat → (t z y x : ℚ) → Option ℚ} (he : ∀ i t z y x w, ev i t z y x = .ok w ↔ val i t z y x = some w)
  {cev : Nat → (t z y x : ℚ) → Hint → Except Exc (ℚ × Hint)} {ig : Nat → Nat} {H : (Nat → Hint) → Prop}
  (hc : ∀ hs, H hs → ∀ i t z y x, (∀ w, val i t z y x = some w → ∃ h, cev i t z y x (hs (ig i)) = .ok (w, h) ∧ H (Function.update hs (ig i) h)) ∧
    (val i t z y x = none → ∃ e, cev i t z y x (hs (ig i)) = .error e))

include he in
theorem follow_scipy : ∀ p : Prog V, (∀ v, follow val p = some v → scipyOf ev p = .ok v) ∧ (follow val p = none → ∃ e, scipyOf ev p = .error e) := by
  intro p
  induction p with
  | ret v => exact ⟨fun w h => by rw [← Option.some.inj h]; rfl, fun h => by cases h⟩
  | fail e => exact ⟨fun w h => (by cases h), fun _ => ⟨e, rfl⟩⟩
  | get f t z y x k ih =>
    rw [follow, scipyOf]
    cases hw : val f t z y x with
    | none =>
      refine ⟨fun w h => (by cases h), fun _ => ?_⟩
      cases hr : ev f t z y x with
      | error e => exact ⟨e, rfl⟩
      | ok w =>
        rw [he, hw] at hr
        cases hr
    | some w =>
      rw [(he f t z y x w).mpr hw]
      exact ih w

include hc in
theorem follow_jit : ∀ (p : Prog V) (hs : Nat → Hint), H hs →
    (∀ v, follow val p = some v → ∃ hs', jitOf cev ig p hs = .ok (v, hs') ∧ H hs') ∧ (follow val p = none → ∃ e, jitOf cev ig p hs = .error e) := by
  intro p
  induction p with
  | ret v => exact fun hs hh => ⟨fun w h => ⟨hs, by rw [← Option.some.inj h]; rfl, hh⟩, fun h => by cases h⟩
  | fail e => exact fun hs hh => ⟨fun w h => (by cases h), fun _ => ⟨e, rfl⟩⟩
  | get f t z y x k ih =>
    intro hs hh
    rw [follow, jitOf]
    obtain ⟨c1, c2⟩ := hc hs hh f t z y x
    cases hw : val f t z y x with
    | none =>
      refine ⟨fun w h => (by cases h), fun _ => ?_⟩
      obtain ⟨e, h⟩ := c2 hw
      rw [h]
      exact ⟨e, rfl⟩
    | some w =>
      obtain ⟨h, h1, h2⟩ := c1 w hw
      rw [h1]
      exact ih w _ h2

include he in
theorem solution_scipy (b : Body V) (dt : ℚ) : ∀ (n : Nat) (t : ℚ) (v : V), solution (fun t dt v => scipyOf ev (b t dt v)) dt n t v = solution (refScheme val b) dt n t v := by
  intro n
  induction n with
  | zero => intro t v; rfl
  | succ n ih =>
    intro t v
    rw [solution, solution]
    obtain ⟨h1, h2⟩ := follow_scipy he (b t dt v)
    unfold refScheme
    cases hw : follow val (b t dt v) with
    | none =>
      obtain ⟨e, he⟩ := h2 hw
      rw [he]
    | some v' =>
      rw [h1 v' hw]
      exact ih _ _

include hc in
theorem solution_jit (b : Body V) (dt : ℚ) : ∀ (n : Nat) (t : ℚ) (v : V) (hs : Nat → Hint), H hs →
      (solution (fun t dt (s : V × (Nat → Hint)) => jitOf cev ig (b t dt s.1) s.2) dt n t (v, hs)).map Prod.fst = solution (refScheme val b) dt n t v := by
  intro n
  induction n with
  | zero => intro t v hs _; rfl
  | succ n ih =>
    intro t v hs hh
    rw [solution, solution]
    obtain ⟨h1, h2⟩ := follow_jit hc (b t dt v) hs hh
    unfold refScheme
    dsimp only
    cases hw : follow val (b t dt v) with
    | none =>
      obtain ⟨e, he⟩ := h2 hw
      rw [he]
      rfl
    | some v' =>
      obtain ⟨hs', he, hh'⟩ := h1 v' hw
      rw [he]
      exact ih _ _ _ hh'

include he in
theorem trajectory_scipy (b : Body V) : trajectory (fun t dt v => scipyOf ev (b t dt v)) = trajectory (refScheme val b) := by
  funext dt t q
  unfold trajectory
  rw [solution_scipy he]

include hc in
theorem trajectory_jit (b : Body V) (dt t : ℚ) (q : TP (V × (Nat → Hint))) (hq : H q.2.vars.2) :
    (trajectory (fun t dt (s : V × (Nat → Hint)) => jitOf cev ig (b t dt s.1) s.2) dt t q).map bare = trajectory (refScheme val b) dt t (strip q) := by
  unfold trajectory
  by_cases c : 0 < (q.2.time - t) * sgn dt
  · rw [if_pos c, if_pos (show 0 < ((strip q).2.time - t) * sgn dt from c)]
    rfl
  · rw [if_neg c, if_neg (show ¬ 0 < ((strip q).2.time - t) * sgn dt from c)]
    have := solution_jit hc b dt ⌊(t - q.2.time) / dt⌋₊ q.2.time q.2.vars.1 q.2.vars.2 hq
    show Option.map bare (Option.map _ (solution _ dt ⌊(t - q.2.time) / dt⌋₊ q.2.time (q.2.vars.1, q.2.vars.2))) =
      Option.map _ (solution (refScheme val b) dt ⌊(t - q.2.time) / dt⌋₊ q.2.time q.2.vars.1)
    rw [← this, Option.map_map, Option.map_map]
    rfl

include hc in
theorem record_jit (b : Body V) (dt t : ℚ) (q : TP (V × (Nat → Hint))) (hq : H q.2.vars.2) :
    (record (fun t dt (s : V × (Nat → Hint)) => jitOf cev ig (b t dt s.1) s.2) dt t q).map bare = record (refScheme val b) dt t (strip q) := by
  unfold record
  by_cases c : 0 < (q.2.time - t) * sgn dt
  · rw [if_pos c, if_pos (show 0 < ((strip q).2.time - t) * sgn dt from c)]
    rfl
  · rw [if_neg c, if_neg (show ¬ 0 < ((strip q).2.time - t) * sgn dt from c)]
    exact trajectory_jit hc b dt t q hq

end Generic

/-! ### Periodic times -/

theorem locates_last {T : List ℚ} (hT : Increasing T) {t : ℚ} {i : Nat} {r : ℚ} (h : Locates T t i r) (v : Nat → ℚ) (ht : t = T.getD (T.length - 1) 0) :
    lerp r (v i) (v (i + 1)) = v (T.length - 1) := by
  obtain ⟨n, a, b, e, ha, hb, r0, r1, hx⟩ := h
  have e : i = n := by exact_mod_cast e
  subst e
  have hi := (List.getElem?_eq_some_iff.mp hb).1
  have e1 : T.getD (i + 1) 0 = b := by rw [List.getD_eq_getElem?_getD, hb]; rfl
  have e0 : T.getD i 0 = a := by rw [List.getD_eq_getElem?_getD, ha]; rfl
  have hab : a < b := by rw [← e0, ← e1]; exact inc_lt hT (show i < i + 1 by omega) hi
  have hle := inc_le hT (show i + 1 ≤ T.length - 1 by omega) (by omega)
  rw [e1] at hle
  have hr : r = 1 := by
    by_contra hne
    have : r < 1 := lt_of_le_of_ne r1 hne
    nlinarith
  have hbl : ¬ i + 1 < T.length - 1 := by
    intro hlt
    have := inc_lt hT hlt (show T.length - 1 < T.length by omega)
    rw [e1] at this
    subst hr
    linarith
  subst hr
  rw [show T.length - 1 = i + 1 by omega]
  unfold lerp
  ring

/-- The value at a time in the first period. -/
theorem period_normal {T : List ℚ} (hT : Increasing T) (hlen : 2 ≤ T.length) {v : Nat → ℚ} (hv : v 0 = v (T.length - 1)) {t : ℚ} {k : ℤ} {i : Nat} {r w : ℚ}
    (h : Locates T (t - k * (T.getD (T.length - 1) 0 - T.getD 0 0)) i r) (hw : w = lerp r (v i) (v (i + 1))) :
    ∃ (t' : ℚ) (k' : ℤ) (i' : Nat) (r' : ℚ), t = t' + k' * (T.getD (T.length - 1) 0 - T.getD 0 0) ∧ T.getD 0 0 ≤ t' ∧ t' < T.getD (T.length - 1) 0 ∧ Locates T t' i' r' ∧
      w = lerp r' (v i') (v (i' + 1)) := by
  obtain ⟨-, h1, h2⟩ := locates_range hT h
  rcases lt_or_eq_of_le h2 with c | c
  · exact ⟨_, k, i, r, by ring, h1, c, h, hw⟩
  · have h0 := inc_lt hT (show 0 < T.length - 1 by omega) (by omega)
    refine ⟨T.getD 0 0, k + 1, 0, 0, by push_cast; linarith, le_rfl, h0, ?_, ?_⟩
    · refine ⟨0, T.getD 0 0, T.getD 1 0, rfl, getD_some (by omega), getD_some (by omega), le_rfl, by norm_num, by ring⟩
    · rw [hw, locates_last hT h v c, ← hv]
      unfold lerp
      ring

theorem period_scipy {T : List ℚ} (hT : Increasing T) (hlen : 2 ≤ T.length) (extrap : Bool) {sn : Nat → Except Err ℚ} {v : Nat → ℚ} (hs : ∀ j, j < T.length → sn j = .ok (v j))
    (hv : v 0 = v (T.length - 1)) {t : ℚ} {k : ℤ} {i : Nat} {r w : ℚ} (h : Locates T (t - k * (T.getD (T.length - 1) 0 - T.getD 0 0)) i r) (hw : w = lerp r (v i) (v (i + 1))) :
    evalTime (TAxis.full T true extrap) sn t = .ok w := by
  obtain ⟨t', k', i', r', rfl, h1, h2, h3, rfl⟩ := period_normal hT hlen hv h hw
  exact periodic_value hT hlen extrap hs k' h2 h3

theorem period_jit {T : List ℚ} (hT : Increasing T) (hlen : 2 ≤ T.length) (extrap : Bool) {sn : Nat → Except Err ℚ} {v : Nat → ℚ} (hs : ∀ j, j < T.length → sn j = .ok (v j))
    (hv : v 0 = v (T.length - 1)) {ti : ℤ} (hti : ti < T.length) {t : ℚ} {k : ℤ} {i : Nat} {r w : ℚ} (h : Locates T (t - k * (T.getD (T.length - 1) 0 - T.getD 0 0)) i r)
    (hw : w = lerp r (v i) (v (i + 1))) : cEvalTime (TAxis.full T true extrap) sn 2 t ti = some (.ok w) := by
  obtain ⟨t', k', i', r', rfl, h1, h2, h3, rfl⟩ := period_normal hT hlen hv h hw
  by_cases c : t' = T.getD 0 0 ∧ k' = 1
  · obtain ⟨rfl, rfl⟩ := c
    rw [show T.getD 0 0 + ((1 : ℤ) : ℚ) * (T.getD (T.length - 1) 0 - T.getD 0 0) = T.getD (T.length - 1) 0 by push_cast; ring]
    rw [c_periodic_end hT hlen extrap hs 1 ti hti, ← hv]
    obtain ⟨n, a, b, e, ha, hb, r0, r1, hx⟩ := h3
    have e : i' = n := by exact_mod_cast e
    subst e
    have hi := (List.getElem?_eq_some_iff.mp hb).1
    have e1 : T.getD (i' + 1) 0 = b := by rw [List.getD_eq_getElem?_getD, hb]; rfl
    have e0 : T.getD i' 0 = a := by rw [List.getD_eq_getElem?_getD, ha]; rfl
    have hab : a < b := by rw [← e0, ← e1]; exact inc_lt hT (show i' < i' + 1 by omega) hi
    have hle := inc_le hT (show 0 ≤ i' by omega) (by omega)
    rw [e0] at hle
    have hr : r' = 0 := by
      by_contra hne
      have : 0 < r' := lt_of_le_of_ne r0 (Ne.symm hne)
      nlinarith
    have hi0 : i' = 0 := by
      by_contra hne
      have := inc_lt hT (show 0 < i' by omega) (by omega)
      rw [e0] at this
      subst hr
      linarith
    subst hr hi0
    congr 2
    unfold lerp
    ring
  · exact c_periodic_value hT hlen extrap hs 0 ti hti k' h2 h3 (fun c1 c2 => c ⟨c1, c2⟩)

theorem period_total {T : List ℚ} (hT : Increasing T) (hlen : 2 ≤ T.length) (t : ℚ) :
    ∃ (k : ℤ) (i : Nat) (r : ℚ), Locates T (t - k * (T.getD (T.length - 1) 0 - T.getD 0 0)) i r := by
  have h0 := inc_lt hT (show 0 < T.length - 1 by omega) (by omega)
  obtain ⟨t', k, h1, h2, e⟩ := reduce_time (lo := T.getD 0 0) (P := T.getD (T.length - 1) 0 - T.getD 0 0) (by linarith) t
  obtain ⟨i, r, hl⟩ := locate hT hlen h1 (by linarith)
  exact ⟨k, i, r, by rw [e, add_sub_cancel_right]; exact hl⟩

/-- The index that is remembered is an index of the axis. -/
theorem search_bound {T : List ℚ} (hT : Increasing T) (hlen : 1 ≤ T.length) (per : Bool) (hp : per = true → 2 ≤ T.length) (t : ℚ) (ti : ℤ) (hti : ti < T.length) :
    ∃ t' n kk, cSearchTime T per (T.headD 0) (T.getLastD 0) 2 t ti 0 = some (t', n, kk) ∧ n < T.length := by
  have hst : startIdx ti < T.length := by unfold startIdx; split_ifs <;> omega
  have hw : ∀ s i, i < T.length → cWalk ltB T s i < T.length := by
    intro s i hi
    rcases lt_or_ge s (T.getD 0 0) with c | c
    · rw [walk_before hT _ hi c]; omega
    · exact (walk_in hT _ hi c).1
  cases per with
  | false => exact ⟨_, _, _, cSearch_direct (T := T) false _ _ 1 t ti 0 (Or.inl rfl), hw _ _ hst⟩
  | true =>
    have hlen := hp rfl
    have h0 := inc_lt hT (show 0 < T.length - 1 by omega) (by omega)
    have hP : 0 < T.getLastD 0 - T.headD 0 := by rw [headD_getD, getLastD_getD]; linarith
    have f1 := Int.floor_le ((t - T.headD 0) / (T.getLastD 0 - T.headD 0))
    have f2 := Int.lt_floor_add_one ((t - T.headD 0) / (T.getLastD 0 - T.headD 0))
    rw [le_div_iff₀ hP] at f1
    rw [div_lt_iff₀ hP] at f2
    set k := ⌊(t - T.headD 0) / (T.getLastD 0 - T.headD 0)⌋ with hk
    have a1 : T.headD 0 ≤ t - k * (T.getLastD 0 - T.headD 0) := by linarith
    have a2 : t - k * (T.getLastD 0 - T.headD 0) ≤ T.getLastD 0 := by nlinarith
    have d := fun (s : ℤ) => cSearch_direct (T := T) true (T.headD 0) (T.getLastD 0) 0 (t - k * (T.getLastD 0 - T.headD 0)) s k
      (Or.inr ⟨by rw [← headD_getD]; exact a1, by rw [← getLastD_getD]; exact a2⟩)
    by_cases hlow : t < T.headD 0
    · have e1 : cSearchTime T true (T.headD 0) (T.getLastD 0) 2 t ti 0 =
          (cSearchTime T true (T.headD 0) (T.getLastD 0) 1 (t - k * (T.getLastD 0 - T.headD 0)) ((T.length : ℤ) - 1) k).bind
            (fun r => some (r.1, cWalk ltB T r.1 r.2.1, r.2.2)) := by
        rw [cSearchTime]
        simp only [hlow, and_self, if_true, ← hk, if_neg (not_lt.mpr a1)]
      rw [e1, d]
      refine ⟨_, _, _, rfl, hw _ _ (hw _ _ ?_)⟩
      unfold startIdx
      split_ifs <;> omega
    · by_cases hhigh : T.getLastD 0 < t
      · have e1 : cSearchTime T true (T.headD 0) (T.getLastD 0) 2 t ti 0 =
            (cSearchTime T true (T.headD 0) (T.getLastD 0) 1 (t - k * (T.getLastD 0 - T.headD 0)) 0 k).bind
              (fun r => some (r.1, cWalk ltB T r.1 r.2.1, r.2.2)) := by
          rw [cSearchTime]
          simp only [hlow, hhigh, and_self, and_false, if_true, if_false, ← hk]
        rw [e1, d]
        refine ⟨_, _, _, rfl, hw _ _ (hw _ _ ?_)⟩
        unfold startIdx
        split_ifs <;> omega
      · refine ⟨_, _, _, cSearch_direct (T := T) true (T.headD 0) (T.getLastD 0) 1 t ti 0 (Or.inr ⟨by rw [← headD_getD]; linarith, by rw [← getLastD_getD]; linarith⟩), hw _ _ hst⟩

/-! ### Samples -/

theorem spaceValue_unique {f : Fld} (hf : Sound f) {d : Arr} {z y x w w' : ℚ} (h : SpaceValue f.grid d z y x w) (h' : SpaceValue f.grid d z y x w') : w = w' := by
  have a := space_scipy hf d h
  rw [space_scipy hf d h'] at a
  exact (Option.some.inj (Except.ok.inj a)).symm

theorem span_eq (f : Fld) : span f = f.time.getD (f.time.length - 1) 0 - f.time.getD 0 0 := by
  unfold span
  rw [headD_getD, getLastD_getD]

theorem eval_false (f : Fld) : eval false f = GridRun.eval f := rfl

theorem eval_iff {per : Bool} {f : Fld} (hf : Sound f) (hp : per = true → Closed f) (t z y x w : ℚ) : eval per f t z y x = .ok w ↔ Value per f t z y x w := by
  cases per with
  | false => exact GridRun.eval_iff hf t z y x w
  | true =>
    have hcl := hp rfl
    have hfwd : ∀ w, Value true f t z y x w → eval true f t z y x = .ok w := by
      rintro w ⟨v, hv, k, i, r, hl, hw⟩
      have hs : ∀ j, j < f.time.length → snap f z y x j = .ok (v j) := by
        intro j hj
        unfold snap
        rw [space_scipy hf _ (hv j hj)]
      have h0 : v 0 = v (f.time.length - 1) := by
        have a := hv 0 hf.timeLen
        rw [hcl.same] at a
        exact spaceValue_unique hf a (hv _ (by have := hcl.two; omega))
      unfold eval
      rw [span_eq] at hl
      rw [period_scipy hf.timeInc hcl.two f.extrap hs h0 hl hw]
    refine ⟨fun h => ?_, hfwd w⟩
    rcases space_cases hf z y x with ⟨⟨val, hval⟩, -⟩ | ⟨⟨e, he⟩, -⟩
    · obtain ⟨k, i, r, hl⟩ := period_total hf.timeInc hcl.two t
      rw [← span_eq] at hl
      have hv : Value true f t z y x (lerp r (val (f.data i)) (val (f.data (i + 1)))) := ⟨fun i => val (f.data i), fun i _ => hval _, k, i, r, hl, rfl⟩
      rw [hfwd _ hv] at h
      rw [← Except.ok.inj h]
      exact hv
    · exfalso
      have hs : ∀ i, snap f z y x i = .error e := by
        intro i
        unfold snap sample
        rw [he]
      obtain ⟨e', h'⟩ := evalTime_err (TAxis.full f.time true f.extrap) _ e hs t
      unfold eval at h
      rw [h'] at h
      cases h

theorem remember_ok {per : Bool} {f : Fld} (hf : Sound f) (hp : per = true → Closed f) (t z y x : ℚ) {h : Hint} (hh : HintOk f h) : HintOk f (remember per f t z y x h) := by
  obtain ⟨t', n, kk, e, hn⟩ := search_bound hf.timeInc hf.timeLen per (fun c => (hp c).two) t h.ti hh.2.2.2
  unfold remember
  rw [e]
  rcases space_cases hf z y x with ⟨-, hc⟩ | ⟨-, hc⟩
  · obtain ⟨p, hp, p1, p2, p3⟩ := hc h hh
    rw [hp]
    exact ⟨p1, p2, p3, show (n : ℤ) < _ by exact_mod_cast hn⟩
  · obtain ⟨e, he⟩ := hc h hh
    rw [he]
    exact hh

theorem time_jit2 {f : Fld} (hf : Sound f) (sn : Nat → Except Err ℚ) (t : ℚ) (ti : ℤ) :
    cEvalTime (TAxis.full f.time false f.extrap) sn 2 t ti = cEvalTime (TAxis.full f.time false f.extrap) sn 1 t ti := by
  unfold cEvalTime
  have e1 : (TAxis.full f.time false f.extrap).time.take (TAxis.full f.time false f.extrap).tdim = f.time := List.take_length
  rw [e1, show (TAxis.full f.time false f.extrap).periodic = false from rfl, cSearch_direct (T := f.time) false _ _ 0 t ti 0 (Or.inl rfl),
    cSearch_direct (T := f.time) false _ _ 1 t ti 0 (Or.inl rfl)]

theorem cEval_cases {per : Bool} {f : Fld} (hf : Sound f) (hp : per = true → Closed f) {hi : Hint} (hh : HintOk f hi) (t z y x : ℚ) :
    (∀ w, Value per f t z y x w → cEval per f t z y x hi = .ok (w, remember per f t z y x hi)) ∧ ((∀ w, ¬ Value per f t z y x w) → ∃ e, cEval per f t z y x hi = .error e) := by
  have hfwd : ∀ w, Value per f t z y x w → cEval per f t z y x hi = .ok (w, remember per f t z y x hi) := by
    intro w h
    cases per with
    | false =>
      obtain ⟨v, hv, ht⟩ := h
      have hs : ∀ j, j < f.time.length → cSample f.grid .nemo .linear (f.data j) x y z hi.xi hi.yi hi.zi = .ok (v j) := fun j hj => space_jit hf _ (hf.fits j) (hv j hj) hh
      unfold cEval
      rw [GridRun.time_jit hf.timeInc hf.timeLen f.extrap _ v hs 1 hi.ti hh.2.2.2 t w ht]
    | true =>
      have hcl := hp rfl
      obtain ⟨v, hv, k, i, r, hl, hw⟩ := h
      have hs : ∀ j, j < f.time.length → cSample f.grid .nemo .linear (f.data j) x y z hi.xi hi.yi hi.zi = .ok (v j) := fun j hj => space_jit hf _ (hf.fits j) (hv j hj) hh
      have h0 : v 0 = v (f.time.length - 1) := by
        have a := hv 0 hf.timeLen
        rw [hcl.same] at a
        exact spaceValue_unique hf a (hv _ (by have := hcl.two; omega))
      unfold cEval
      rw [span_eq] at hl
      rw [period_jit hf.timeInc hcl.two f.extrap hs h0 hh.2.2.2 hl hw]
  refine ⟨hfwd, fun hno => ?_⟩
  cases hr : cEval per f t z y x hi with
  | error e => exact ⟨e, rfl⟩
  | ok r =>
    exfalso
    rcases space_cases hf z y x with ⟨⟨val, hval⟩, -⟩ | ⟨-, he⟩
    · cases per with
      | false =>
        have hs : ∀ j, j < f.time.length → cSample f.grid .nemo .linear (f.data j) x y z hi.xi hi.yi hi.zi = .ok (val (f.data j)) := fun j _ => space_jit hf _ (hf.fits j) (hval _) hh
        rcases GridRun.time_total hf.timeInc hf.timeLen f.extrap t (fun i => val (f.data i)) with ⟨w, hw⟩ | ⟨c, hc⟩
        · exact hno w ⟨fun i => val (f.data i), fun i _ => hval _, hw⟩
        · have hne : f.time ≠ [] := List.length_pos_iff.mp hf.timeLen
          obtain ⟨o1, o2⟩ := C32_jit_outside f.time hf.timeInc hne _ _ hs 1 hi.ti hh.2.2.2 t
          unfold cEval at hr
          rw [c] at hr
          rcases hc with hc | hc
          · rw [(o1 hc).1] at hr; cases hr
          · rw [(o2 hc).1] at hr; cases hr
      | true =>
        obtain ⟨k, i, r, hl⟩ := period_total hf.timeInc (hp rfl).two t
        rw [← span_eq] at hl
        exact hno _ ⟨fun i => val (f.data i), fun i _ => hval _, k, i, r, hl, rfl⟩
    · obtain ⟨e, he⟩ := he hi hh
      have hs : ∀ i, cSample f.grid .nemo .linear (f.data i) x y z hi.xi hi.yi hi.zi = .error e := by
        intro i
        unfold cSample
        rw [he]
      have h' := cEvalTime_err (TAxis.full f.time per f.extrap) _ e hs 2 t hi.ti
      unfold cEval at hr
      split at hr
      · rename_i v hv; exact h' v hv
      · cases hr
      · cases hr

/-- What the generic lemmas need. -/
theorem jit_ok {per : Nat → Bool} {fs : Nat → Fld} (hf : ∀ i, Sound (fs i)) (hg : Grids fs) (hp : ∀ i, per i = true → Closed (fs i))
    {val : Nat → (t z y x : ℚ) → Option ℚ} (hv : Gives per fs val) : ∀ hs, Hints fs hs → ∀ i t z y x,
      (∀ w, val i t z y x = some w → ∃ h, cEval (per i) (fs i) t z y x (hs (fs i).igrid) = .ok (w, h) ∧ Hints fs (Function.update hs (fs i).igrid h)) ∧
      (val i t z y x = none → ∃ e, cEval (per i) (fs i) t z y x (hs (fs i).igrid) = .error e) := by
  intro hs hh i t z y x
  obtain ⟨h1, h2⟩ := cEval_cases (hf i) (hp i) (hint_ok hh i) t z y x
  refine ⟨fun w hw => ⟨_, h1 w ((hv _ _ _ _ _ _).mp hw), hints_update hg hh i (remember_ok (hf i) (hp i) t z y x (hint_ok hh i))⟩, fun hn => h2 fun w hw => ?_⟩
  rw [← hv, hn] at hw
  cases hw

theorem scipy_ok {per : Nat → Bool} {fs : Nat → Fld} (hf : ∀ i, Sound (fs i)) (hp : ∀ i, per i = true → Closed (fs i))
    {val : Nat → (t z y x : ℚ) → Option ℚ} (hv : Gives per fs val) : ∀ i t z y x w, eval (per i) (fs i) t z y x = .ok w ↔ val i t z y x = some w := by
  intro i t z y x w
  rw [eval_iff (hf i) (hp i), hv]

theorem gives_exists {per : Nat → Bool} {fs : Nat → Fld} (hf : ∀ i, Sound (fs i)) (hp : ∀ i, per i = true → Closed (fs i)) : ∃ val, Gives per fs val := by
  refine ⟨fun i t z y x => (eval (per i) (fs i) t z y x).toOption, fun i t z y x w => ?_⟩
  rw [← eval_iff (hf i) (hp i)]
  show (eval (per i) (fs i) t z y x).toOption = some w ↔ _
  cases eval (per i) (fs i) t z y x with
  | error e => exact ⟨fun h => (by cases h), fun h => by cases h⟩
  | ok v => exact ⟨fun h => (by rw [← Option.some.inj h]), fun h => by injection h with h; rw [← h]; rfl⟩

/-! ### The same, later -/

theorem value_later {per : Bool} {f : Fld} {c : ℚ} (h : Repeats per f c) (hf : Sound f) (t z y x w : ℚ) : Value per f (t + c) z y x w ↔ Value per f t z y x w := by
  rcases h with ⟨rfl, m, rfl⟩ | ⟨rfl, h1, h2⟩
  · constructor
    · rintro ⟨v, hv, k, i, r, hl, hw⟩
      exact ⟨v, hv, k - m, i, r, by rw [show t - ((k - m : ℤ) : ℚ) * span f = t + m * span f - k * span f by push_cast; ring]; exact hl, hw⟩
    · rintro ⟨v, hv, k, i, r, hl, hw⟩
      exact ⟨v, hv, k + m, i, r, by rw [show t + m * span f - ((k + m : ℤ) : ℚ) * span f = t - k * span f by push_cast; ring]; exact hl, hw⟩
  · have key : ∀ t t', FieldValue f t z y x w → FieldValue f t' z y x w := by
      rintro t t' ⟨v, hv, ht⟩
      have e : w = v 0 := by
        rcases ht with ⟨i, hi, rfl⟩ | ⟨i, r, hl, rfl⟩ | ⟨-, -, rfl⟩ | ⟨-, -, rfl⟩
        · have := (List.getElem?_eq_some_iff.mp hi).1
          rw [show i = 0 by omega]
        · have := (locates_range hf.timeInc hl).1
          omega
        · rfl
        · rw [h1]
      refine ⟨v, hv, ?_⟩
      obtain ⟨a, ha⟩ := List.length_eq_one_iff.mp h1
      rcases le_total t' a with c | c
      · exact Or.inr (Or.inr (Or.inl ⟨h2, by rw [ha]; simpa using c, e⟩))
      · exact Or.inr (Or.inr (Or.inr ⟨h2, by rw [ha]; simpa using c, by rw [e, h1]⟩))
    exact ⟨key _ _, key _ _⟩

theorem follow_delay {val : Nat → (t z y x : ℚ) → Option ℚ} {c : ℚ} (hv : ∀ i t z y x, val i (t + c) z y x = val i t z y x) : ∀ p : Prog V, follow val (delay c p) = follow val p := by
  intro p
  induction p with
  | ret v => rfl
  | fail e => rfl
  | get f t z y x k ih =>
    rw [delay, follow, follow, hv]
    cases val f t z y x with
    | none => rfl
    | some w => exact ih w

theorem solution_later {f : Scheme V} {c : ℚ} (hf : ∀ t dt v, f (t + c) dt v = f t dt v) (dt : ℚ) : ∀ (n : Nat) (t : ℚ) (v : V), solution f dt n (t + c) v = solution f dt n t v := by
  intro n
  induction n with
  | zero => intro t v; rfl
  | succ n ih =>
    intro t v
    rw [solution, solution, hf]
    cases f t dt v with
    | error e => rfl
    | ok v' =>
      dsimp only
      rw [show t + c + dt = t + dt + c by ring, ih]

theorem trajectory_later {f : Scheme V} {c : ℚ} (hf : ∀ t dt v, f (t + c) dt v = f t dt v) (dt t : ℚ) (q : TP V) :
    trajectory f dt (t + c) (later c q) = (trajectory f dt t q).map (postpone c) := by
  unfold trajectory
  have e : (later c q).2.time - (t + c) = q.2.time - t := by show q.2.time + c - (t + c) = _; ring
  rw [e]
  by_cases h : 0 < (q.2.time - t) * sgn dt
  · rw [if_pos h, if_pos h]
    rfl
  · rw [if_neg h, if_neg h]
    show Option.map _ (solution f dt ⌊(t + c - (q.2.time + c)) / dt⌋₊ (q.2.time + c) q.2.vars) = _
    rw [solution_later hf, show t + c - (q.2.time + c) = t - q.2.time by ring, Option.map_map]
    rfl

theorem record_later {f : Scheme V} {c : ℚ} (hf : ∀ t dt v, f (t + c) dt v = f t dt v) (dt t : ℚ) (q : TP V) :
    record f dt (t + c) (later c q) = (record f dt t q).map (postpone c) := by
  unfold record
  rw [show (later c q).2.time - (t + c) = q.2.time - t by show q.2.time + c - (t + c) = _; ring]
  by_cases h : 0 < (q.2.time - t) * sgn dt
  · rw [if_pos h, if_pos h]
    rfl
  · rw [if_neg h, if_neg h]
    exact trajectory_later hf dt t q

theorem ref_later {per : Nat → Bool} {fs : Nat → Fld} (hf : ∀ i, Sound (fs i)) {val : Nat → (t z y x : ℚ) → Option ℚ} (hv : Gives per fs val) {b : Body V} (hb : Timeless b) {c : ℚ}
    (hc : ∀ i, Repeats (per i) (fs i) c) : ∀ t dt v, refScheme val b (t + c) dt v = refScheme val b t dt v := by
  intro t dt v
  have : ∀ i t z y x, val i (t + c) z y x = val i t z y x := by
    intro i t z y x
    ext w
    show val i (t + c) z y x = some w ↔ val i t z y x = some w
    rw [hv, hv, value_later (hc i) (hf i)]
  unfold refScheme
  rw [hb, follow_delay this]

theorem timeless_rk4 : Timeless GridRun.rk4 := by
  intro c t dt v
  unfold GridRun.rk4 GridRun.uv
  simp only [delay]
  rw [show t + c + 1 / 2 * dt = t + 1 / 2 * dt + c by ring, show t + c + dt = t + dt + c by ring]

theorem timeless_ee : Timeless GridRun.ee := by
  intro c t dt v
  rfl

theorem timeless_rk4_3D : Timeless GridRun.rk4_3D := by
  intro c t dt v
  unfold GridRun.rk4_3D GridRun.uvw
  simp only [delay]
  rw [show t + c + 1 / 2 * dt = t + 1 / 2 * dt + c by ring, show t + c + dt = t + dt + c by ring]

end Parcels.PeriodRun
