import Verif.Spec.NestRun
import Verif.Proofs.GridRun3
import Verif.Props.PathRun

namespace Parcels.NestRun

open Search Interp TimeInterp FieldLists
open KernelLoop (Exc)
open GridRun (Fld Hint Sound FieldValue HintOk Hints Grids exc snap eval_iff)

variable {V : Type}

/-! ### One field -/

theorem outside_horizontal {f : Fld} (hf : Sound f) (z y x : ℚ) (hin : ¬ (InRange f.grid.lon x ∧ InRange f.grid.lat y)) :
    searchRect f.grid x y z = .error .outOfBounds ∧ ∀ a b c, cSearchRect f.grid x y z a b c = .error .outOfBounds := by
  have h2 : 1 < f.grid.lon.length := by have := hf.lonLen; omega
  have h3 : 1 < f.grid.lat.length := by have := hf.latLen; omega
  rw [inRange_inc hf.lonInc hf.lonLen, inRange_inc hf.latInc hf.latLen] at hin
  constructor
  · unfold searchRect
    rw [minL_inc hf.lonInc, maxL_inc hf.lonInc, minL_inc hf.latInc, maxL_inc hf.latInc]
    by_cases hx : f.grid.lon.getD 0 0 ≤ x ∧ x ≤ f.grid.lon.getD (f.grid.lon.length - 1) 0
    · rw [if_neg (by rintro ⟨_, _, h | h⟩ <;> linarith [hx.1, hx.2]), if_pos]
      refine ⟨h3, ?_⟩
      by_contra hh
      rw [not_or, not_lt, not_lt] at hh
      exact hin ⟨hx, hh⟩
    · rw [if_pos]
      refine ⟨h2, hf.noHalo, ?_⟩
      by_contra hh
      rw [not_or, not_lt, not_lt] at hh
      exact hx hh
  · intro a b c
    unfold cSearchRect
    rw [minL_inc hf.lonInc, maxL_inc hf.lonInc, minL_inc hf.latInc, maxL_inc hf.latInc]
    by_cases hx : f.grid.lon.getD 0 0 ≤ x ∧ x ≤ f.grid.lon.getD (f.grid.lon.length - 1) 0
    · rw [if_neg (by rintro ⟨_, _, h | h⟩ <;> linarith [hx.1, hx.2]), if_pos]
      refine ⟨h3, ?_⟩
      by_contra hh
      rw [not_or, not_lt, not_lt] at hh
      exact hin ⟨hx, hh⟩
    · rw [if_pos]
      refine ⟨hf.noHalo, h2, ?_⟩
      by_contra hh
      rw [not_or, not_lt, not_lt] at hh
      exact hx hh

theorem beyond_iff {d : List ℚ} (hd : Increasing d) (hl : 2 ≤ d.length) (z : ℚ) : BeyondLast d z ↔ ∀ a ∈ d, a < z := by
  constructor
  · rintro (⟨-, h⟩ | ⟨h, -⟩)
    · intro a ha
      obtain ⟨i, hi, rfl⟩ := List.mem_iff_getElem.mp ha
      rw [getLastD_getD] at h
      have h2 : d.getD i 0 ≤ d.getD (d.length - 1) 0 := by
        rcases Nat.lt_or_ge i (d.length - 1) with c | c
        · exact le_of_lt (inc_lt hd c (by omega))
        · rw [show i = d.length - 1 by omega]
      rw [List.getD_eq_getElem d 0 hi] at h2
      linarith
    · exfalso
      have a := first_lt_last hd hl
      rw [headD_getD, getLastD_getD] at a
      have b := dec_gt h (i := 0) (j := d.length - 1) (by omega) (by omega)
      linarith
  · intro h
    refine Or.inl ⟨hd, h _ ?_⟩
    rw [getLastD_getD, List.getD_eq_getElem d 0 (by omega)]
    exact List.getElem_mem _

/-- What the searches find, in both modes: the position is in a cell; it is outside; or it is above the first level. -/
theorem search_cases {f : Fld} (hf : Sound f) (z y x : ℚ) :
    (∃ val : Arr → ℚ, ∀ d, GridRun.SpaceValue f.grid d z y x (val d)) ∨
    (Outside f z y x ∧ searchRect f.grid x y z = .error .outOfBounds ∧ ∀ hi, HintOk f hi → cSearchRect f.grid x y z hi.xi hi.yi hi.zi = .error .outOfBounds) ∨
    (¬ Outside f z y x ∧ searchRect f.grid x y z = .error .throughSurface ∧ ∀ hi, HintOk f hi → cSearchRect f.grid x y z hi.xi hi.yi hi.zi = .error .throughSurface) := by
  have hg := hf.flatGrid
  by_cases hin : InRange f.grid.lon x ∧ InRange f.grid.lat y
  · rcases GridRun.space_cases hf z y x with ⟨c, -⟩ | ⟨⟨e, he⟩, -⟩
    · exact Or.inl c
    · right
      rcases Nat.lt_or_ge f.grid.depth.length 2 with c | c
      · exfalso
        obtain ⟨p, hp, -⟩ := (C24_scipy f.grid hg (by omega) x y z).1 hin
        rw [hp] at he
        cases he
      · have hdep := hf.depth.resolve_left (by omega : ¬ f.grid.depth.length ≤ 1)
        obtain ⟨q1, q2, q3⟩ := C24_scipy_3D f.grid hg (Or.inl hdep) c hf.mom5 x y z hin.1 hin.2
        by_cases b : BeyondLast f.grid.depth z
        · refine Or.inl ⟨Or.inr (Or.inr ⟨c, (beyond_iff hdep c z).mp b⟩), q2 b, ?_⟩
          rintro hi ⟨a1, a2, a3, -⟩
          exact (C24_jit_3D f.grid hg (Or.inl hdep) c hf.mom5 x y z hi.xi hi.yi hi.zi a1 a2 a3 hin.1 hin.2).2.1 b
        · by_cases b' : BeforeFirst f.grid.depth z
          · refine Or.inr ⟨?_, q1 b', ?_⟩
            · rintro (h | h | ⟨-, h⟩)
              · exact h hin.1
              · exact h hin.2
              · exact b ((beyond_iff hdep c z).mpr h)
            · rintro hi ⟨a1, a2, a3, -⟩
              exact (C24_jit_3D f.grid hg (Or.inl hdep) c hf.mom5 x y z hi.xi hi.yi hi.zi a1 a2 a3 hin.1 hin.2).1 b'
          · exfalso
            obtain ⟨p, hp, -⟩ := q3 b' b
            rw [hp] at he
            cases he
  · obtain ⟨h1, h2⟩ := outside_horizontal hf z y x hin
    refine Or.inr (Or.inl ⟨?_, h1, fun hi _ => h2 _ _ _⟩)
    rw [not_and_or] at hin
    exact hin.imp id Or.inl

theorem timeOk_iff {f : Fld} (hf : Sound f) (t : ℚ) : TimeOk f t ↔ ¬ (f.extrap = false ∧ (t < f.time.headD 0 ∨ f.time.getLastD 0 < t)) := by
  have key : InRange f.time t ↔ ¬ (t < f.time.headD 0 ∨ f.time.getLastD 0 < t) := by
    rw [not_or, not_lt, not_lt, headD_getD, getLastD_getD]
    rcases Nat.lt_or_ge f.time.length 2 with c | c
    · have hl := hf.timeLen
      have e : f.time.length - 1 = 0 := by omega
      rw [e]
      constructor
      · rintro ⟨a, b, ha, hb, h1, h2⟩
        have : ∀ a ∈ f.time, a = f.time.getD 0 0 := by
          intro a ha
          obtain ⟨i, hi, rfl⟩ := List.mem_iff_getElem.mp ha
          rw [List.getD_eq_getElem _ _ (by omega)]
          congr 1
          omega
        rw [this a ha] at h1
        rw [this b hb] at h2
        exact ⟨h1, h2⟩
      · rintro ⟨h1, h2⟩
        have m : f.time.getD 0 0 ∈ f.time := by rw [List.getD_eq_getElem _ _ (by omega)]; exact List.getElem_mem _
        exact ⟨_, _, m, m, h1, h2⟩
    · exact inRange_inc hf.timeInc c t
  unfold TimeOk
  rw [key]
  cases f.extrap <;> simp

/-- The outcome of a sample of one field. -/
inductive Outcome (f : Fld) (t z y x : ℚ) : Except SErr ℚ → Prop
  | value {w} : FieldValue f t z y x w → Outcome f t z y x (.ok w)
  | outside : TimeOk f t → Outside f z y x → Outcome f t z y x (.error oob)
  | surface : TimeOk f t → ¬ Outside f z y x → (∀ w, ¬ FieldValue f t z y x w) → Outcome f t z y x (.error (.space .throughSurface))
  | time : ¬ TimeOk f t → Outcome f t z y x (.error .time)

theorem evalTime_space {T : List ℚ} {extrap : Bool} {sn : Nat → Except Err ℚ} {e : Err} (h : ∀ i, sn i = .error e) {t : ℚ}
    (ht : ¬ (extrap = false ∧ (t < T.headD 0 ∨ T.getLastD 0 < t))) : evalTime (TAxis.full T false extrap) sn t = .error (.space e) := by
  unfold evalTime
  split
  · rename_i e' he
    exfalso
    unfold timeIndex at he
    rw [if_neg (by rintro ⟨-, c⟩; exact ht c), if_neg (show ¬ (TAxis.full T false extrap).periodic = true by simp [TAxis.full])] at he
    split at he
    · cases he
    · split at he <;> cases he
  · dsimp only
    split <;> rw [h]

theorem evalS_outcome {f : Fld} (hf : Sound f) (t z y x : ℚ) : Outcome f t z y x (evalS f t z y x) := by
  by_cases ht : f.extrap = false ∧ (t < f.time.headD 0 ∨ f.time.getLastD 0 < t)
  · have : evalS f t z y x = .error .time := by
      unfold evalS evalTime
      have : timeIndex (TAxis.full f.time false f.extrap) t = .error .time := by
        unfold timeIndex
        exact if_pos ⟨rfl, ht⟩
      rw [this]
    rw [this]
    exact .time (by rw [timeOk_iff hf]; exact fun c => c ht)
  · have hT := (timeOk_iff hf t).mpr ht
    rcases search_cases hf z y x with ⟨val, hval⟩ | ⟨h1, h2, -⟩ | ⟨h1, h2, -⟩
    · rcases GridRun.time_total hf.timeInc hf.timeLen f.extrap t (fun i => val (f.data i)) with ⟨w, hw⟩ | c
      · have hv : FieldValue f t z y x w := ⟨fun i => val (f.data i), fun i _ => hval _, hw⟩
        have := (eval_iff hf t z y x w).mpr hv
        unfold GridRun.eval at this
        have : evalS f t z y x = .ok w := by
          unfold evalS
          split at this
          · rename_i v e; rw [e, ← Except.ok.inj this]
          · cases this
        rw [this]
        exact .value hv
      · exact absurd c ht
    · have hs : ∀ i, snap f z y x i = .error .outOfBounds := by
        intro i
        unfold snap sample
        rw [h2]
      have : evalS f t z y x = .error oob := evalTime_space hs ht
      rw [this]
      exact .outside hT h1
    · have hs : ∀ i, snap f z y x i = .error .throughSurface := by
        intro i
        unfold snap sample
        rw [h2]
      have : evalS f t z y x = .error (.space .throughSurface) := evalTime_space hs ht
      rw [this]
      refine .surface hT h1 fun w hw => ?_
      have e := (eval_iff hf t z y x w).mpr hw
      unfold GridRun.eval at e
      unfold evalS at this
      rw [this] at e
      cases e

theorem outcome_unique {f : Fld} (hf : Sound f) {t z y x : ℚ} {a b : Except SErr ℚ} (ha : Outcome f t z y x a) (hb : Outcome f t z y x b) : a = b := by
  have cov : ∀ {w}, FieldValue f t z y x w → TimeOk f t ∧ ¬ Outside f z y x := by
    intro w hw
    obtain ⟨c1, c2, c3, c4⟩ := GridRun.value_covers hf hw
    refine ⟨c4, ?_⟩
    rintro (h | h | ⟨h, h'⟩)
    · exact h c1
    · exact h c2
    · obtain ⟨a, b, -, hb, -, h3⟩ := c3 h
      exact absurd (h' b hb) (not_lt.mpr h3)
  cases ha with
  | value h =>
    cases hb with
    | value h' =>
      have a := (eval_iff hf t z y x _).mpr h
      rw [(eval_iff hf t z y x _).mpr h'] at a
      rw [Except.ok.inj a]
    | outside h1 h2 => exact absurd h2 (cov h).2
    | surface _ _ h3 => exact absurd h (h3 _)
    | time h1 => exact absurd (cov h).1 h1
  | outside h1 h2 =>
    cases hb with
    | value h => exact absurd h2 (cov h).2
    | outside => rfl
    | surface _ h2' => exact absurd h2 h2'
    | time h => exact absurd h1 h
  | surface h1 h2 h3 =>
    cases hb with
    | value h => exact absurd h (h3 _)
    | outside h1' h2' => exact absurd h2' h2
    | surface => rfl
    | time h => exact absurd h1 h
  | time h =>
    cases hb with
    | value h' => exact absurd (cov h').1 h
    | outside h' => exact absurd h' h
    | surface h' => exact absurd h' h
    | time => rfl

theorem cEvalTime_space {T : List ℚ} {extrap : Bool} {sn : Nat → Except Err ℚ} {e : Err} (h : ∀ i, sn i = .error e) {t : ℚ} {ti : ℤ}
    (ht : ¬ (extrap = false ∧ (t < T.headD 0 ∨ T.getLastD 0 < t))) : cEvalTime (TAxis.full T false extrap) sn 1 t ti = some (.error (.space e)) := by
  unfold cEvalTime
  rw [if_neg]
  swap
  · rintro ⟨-, c1, c2⟩
    refine ht ⟨c1, ?_⟩
    rw [getLastD_getD]
    exact c2
  have e1 : (TAxis.full T false extrap).time.take (TAxis.full T false extrap).tdim = T := List.take_length
  rw [e1, show (TAxis.full T false extrap).periodic = false from rfl, cSearch_direct (T := T) false _ _ 0 t ti 0 (Or.inl rfl)]
  dsimp only
  rw [h]

theorem walk_time {f : Fld} (hf : Sound f) (t : ℚ) {ti : ℤ} (hti : ti < f.time.length) : cWalk ltB f.time t (startIdx ti) < f.time.length := by
  have hlen := hf.timeLen
  have hst : startIdx ti < f.time.length := by unfold startIdx; split_ifs <;> omega
  rcases lt_or_ge t (f.time.getD 0 0) with c | c
  · rw [walk_before hf.timeInc _ hst c]; omega
  · exact (walk_in hf.timeInc _ hst c).1

theorem after_ok {f : Fld} (hf : Sound f) (t z y x : ℚ) {h : Hint} (hh : HintOk f h) : HintOk f (after f t z y x h) := by
  have hw := walk_time hf t hh.2.2.2
  unfold after
  rw [cSearch_direct (T := f.time) false 0 0 0 t h.ti 0 (Or.inl rfl)]
  dsimp only
  rcases GridRun.space_cases hf z y x with ⟨-, hc⟩ | ⟨-, hc⟩
  · obtain ⟨p, hp, p1, p2, p3⟩ := hc h hh
    rw [hp]
    refine ⟨p1, p2, p3, ?_⟩
    show ((cWalk ltB f.time t (startIdx h.ti) : ℕ) : ℤ) < _
    exact_mod_cast hw
  · obtain ⟨e, he⟩ := hc h hh
    rw [he]
    dsimp only
    obtain ⟨a1, a2, a3, a4⟩ := hh
    have hg := hf.flatGrid
    cases hp : cSearchRect { f.grid with depth := [] } x y z h.xi h.yi h.zi with
    | error e' =>
      refine ⟨a1, a2, a3, ?_⟩
      show ((cWalk ltB f.time t (startIdx h.ti) : ℕ) : ℤ) < _
      exact_mod_cast hw
    | ok p =>
      obtain ⟨c1, c2⟩ := C24_jit { f.grid with depth := [] } ⟨hg.flat, hg.noHalo, hg.lonInc, hg.lonLen, hg.latInc, hg.latLen⟩ (by simp) x y z h.xi h.yi h.zi a1 a2
      by_cases hin : InRange f.grid.lon x ∧ InRange f.grid.lat y
      · obtain ⟨p', hp', l1, l2⟩ := c1 hin
        rw [hp] at hp'
        obtain rfl := Except.ok.inj hp'
        obtain ⟨n', e1, e1'⟩ := locates_nat l1
        obtain ⟨m', e2, e2'⟩ := locates_nat l2
        refine ⟨?_, ?_, a3, show ((cWalk ltB f.time t (startIdx h.ti) : ℕ) : ℤ) < _ by exact_mod_cast hw⟩
        · show p.xi.toNat + 1 < f.grid.lon.length
          rw [e1]; simpa using e1'
        · show p.yi.toNat + 1 < f.grid.lat.length
          rw [e2]; simpa using e2'
      · rw [c2 hin] at hp
        cases hp

/-- In JIT mode, from every remembered cell: the same outcome, and what is remembered is again a cell. -/
theorem cEvalS_eq {f : Fld} (hf : Sound f) (t z y x : ℚ) {h : Hint} (hh : HintOk f h) :
    (cEvalS f t z y x h).1 = evalS f t z y x ∧ HintOk f (cEvalS f t z y x h).2 := by
  refine ⟨outcome_unique hf ?_ (evalS_outcome hf t z y x), ?_⟩
  swap
  · unfold cEvalS
    split
    · exact hh
    · exact hh
    · exact after_ok hf t z y x hh
  by_cases ht : f.extrap = false ∧ (t < f.time.headD 0 ∨ f.time.getLastD 0 < t)
  · have : ∀ sn, cEvalTime (TAxis.full f.time false f.extrap) sn 1 t h.ti = some (.error .time) := by
      intro sn
      unfold cEvalTime
      rw [if_pos]
      refine ⟨rfl, ht.1, ?_⟩
      have := ht.2
      rw [getLastD_getD] at this
      exact this
    unfold cEvalS
    rw [this]
    exact .time (by rw [timeOk_iff hf]; exact fun c => c ht)
  · have hT := (timeOk_iff hf t).mpr ht
    rcases search_cases hf z y x with ⟨val, hval⟩ | ⟨h1, -, h2⟩ | ⟨h1, h2', h2⟩
    · have hs : ∀ j, j < f.time.length → cSample f.grid .nemo .linear (f.data j) x y z h.xi h.yi h.zi = .ok (val (f.data j)) := by
        intro j _
        exact GridRun.space_jit hf _ (hf.fits j) (hval _) hh
      rcases GridRun.time_total hf.timeInc hf.timeLen f.extrap t (fun i => val (f.data i)) with ⟨w, hw⟩ | c
      · unfold cEvalS
        rw [GridRun.time_jit hf.timeInc hf.timeLen f.extrap _ _ hs 0 h.ti hh.2.2.2 t w hw]
        exact .value ⟨fun i => val (f.data i), fun i _ => hval _, hw⟩
      · exact absurd c ht
    · have hs : ∀ i, cSample f.grid .nemo .linear (f.data i) x y z h.xi h.yi h.zi = .error .outOfBounds := by
        intro i
        unfold cSample
        rw [h2 h hh]
      unfold cEvalS
      rw [cEvalTime_space hs ht]
      exact .outside hT h1
    · have hs : ∀ i, cSample f.grid .nemo .linear (f.data i) x y z h.xi h.yi h.zi = .error .throughSurface := by
        intro i
        unfold cSample
        rw [h2 h hh]
      unfold cEvalS
      rw [cEvalTime_space hs ht]
      refine .surface hT h1 fun w hw => ?_
      have e := evalS_outcome hf t z y x
      have e2 := outcome_unique hf e (.value hw)
      have hs : ∀ i, snap f z y x i = .error .throughSurface := by
        intro i
        unfold snap sample
        rw [h2']
      have : evalS f t z y x = .error (.space .throughSurface) := evalTime_space hs ht
      rw [this] at e2
      cases e2

/-! ### Nested fields -/

theorem cMember_eq {fs : Nat → Fld} (hf : ∀ i, Sound (fs i)) (hg : Grids fs) (t z y x : ℚ) : ∀ (m : List Nat) (hs : Nat → Hint), Hints fs hs →
    (cMember fs t z y x m hs).1 = member fs t z y x m ∧ Hints fs (cMember fs t z y x m hs).2 := by
  intro m
  induction m with
  | nil => intro hs hh; exact ⟨rfl, hh⟩
  | cons i is ih =>
    intro hs hh
    obtain ⟨e1, e2⟩ := cEvalS_eq (hf i) t z y x (GridRun.hint_ok hh i)
    have hu := GridRun.hints_update hg hh i e2
    rw [cMember, member, ← e1]
    rcases hc : cEvalS (fs i) t z y x (hs (fs i).igrid) with ⟨r, h⟩
    rw [hc] at hu
    cases r with
    | error e => exact ⟨rfl, hu⟩
    | ok w =>
      dsimp only
      obtain ⟨i1, i2⟩ := ih _ hu
      rw [← i1]
      rcases hm : cMember fs t z y x is (Function.update hs (fs i).igrid h) with ⟨r', hs'⟩
      rw [hm] at i2
      cases r' with
      | error e => exact ⟨rfl, i2⟩
      | ok ws => exact ⟨rfl, i2⟩

/-- The outcome of a member. -/
theorem member_ok {fs : Nat → Fld} (hf : ∀ i, Sound (fs i)) (t z y x : ℚ) : ∀ (m : List Nat) (ws : List ℚ),
    member fs t z y x m = .ok ws ↔ List.Forall₂ (fun i w => FieldValue (fs i) t z y x w) m ws := by
  have val : ∀ i w, evalS (fs i) t z y x = .ok w ↔ FieldValue (fs i) t z y x w := by
    intro i w
    constructor
    · intro h
      have := evalS_outcome (hf i) t z y x
      rw [h] at this
      cases this with
      | value h => exact h
    · intro h
      exact outcome_unique (hf i) (evalS_outcome (hf i) t z y x) (.value h)
  intro m
  induction m with
  | nil =>
    intro ws
    rw [member]
    constructor
    · intro h; obtain rfl := Except.ok.inj h; exact .nil
    · intro h; cases h; rfl
  | cons i is ih =>
    intro ws
    rw [member]
    constructor
    · intro h
      split at h
      · cases h
      rename_i w e1
      split at h
      · cases h
      rename_i ws' e2
      obtain rfl := Except.ok.inj h
      exact .cons ((val i w).mp e1) ((ih ws').mp e2)
    · intro h
      cases h with
      | cons h1 h2 => rw [(val _ _).mpr h1, (ih _).mpr h2]

theorem member_misses {fs : Nat → Fld} (hf : ∀ i, Sound (fs i)) (t z y x : ℚ) : ∀ (m : List Nat), member fs t z y x m = .error oob ↔ Misses fs m t z y x := by
  intro m
  induction m with
  | nil =>
    rw [member]
    constructor
    · intro h; cases h
    · rintro ⟨a, i, b, e, -⟩; simp at e
  | cons i is ih =>
    rw [member]
    constructor
    · intro h
      split at h
      · rename_i e e1
        obtain rfl := Except.error.inj h
        have := evalS_outcome (hf i) t z y x
        rw [e1] at this
        generalize hr : (Except.error oob : Except SErr ℚ) = r at this
        cases this with
        | value => cases hr
        | outside h1 h2 => exact ⟨[], i, is, rfl, fun j hj => by simp at hj, h1, h2⟩
        | surface => cases hr
        | time => cases hr
      · rename_i w e1
        split at h
        · rename_i e e2
          obtain rfl := Except.error.inj h
          obtain ⟨a, j, b, h1, h2, h3⟩ := ih.mp e2
          refine ⟨i :: a, j, b, by rw [h1]; rfl, ?_, h3⟩
          intro k hk
          rcases List.mem_cons.mp hk with rfl | hk
          · have := evalS_outcome (hf k) t z y x
            rw [e1] at this
            cases this with
            | value h => exact ⟨_, h⟩
          · exact h2 k hk
        · cases h
    · rintro ⟨a, j, b, e, h1, h2, h3⟩
      cases a with
      | nil =>
        simp only [List.nil_append, List.cons.injEq] at e
        obtain ⟨rfl, rfl⟩ := e
        rw [outcome_unique (hf i) (evalS_outcome (hf i) t z y x) (.outside h2 h3)]
      | cons k a =>
        simp only [List.cons_append, List.cons.injEq] at e
        obtain ⟨rfl, rfl⟩ := e
        obtain ⟨w, hw⟩ := h1 i List.mem_cons_self
        rw [outcome_unique (hf i) (evalS_outcome (hf i) t z y x) (.value hw), ih.mpr ⟨a, j, b, rfl, fun l hl => h1 l (List.mem_cons_of_mem _ hl), h2, h3⟩]

theorem member_caught {fs : Nat → Fld} (hf : ∀ i, Sound (fs i)) (t z y x : ℚ) : ∀ (m : List Nat) (e : SErr), member fs t z y x m = .error e → caught e = true → e = oob := by
  intro m
  induction m with
  | nil => intro e h; cases h
  | cons i is ih =>
    intro e h c
    rw [member] at h
    split at h
    · rename_i e' e1
      obtain rfl := Except.error.inj h
      have := evalS_outcome (hf i) t z y x
      rw [e1] at this
      generalize hr : (Except.error e' : Except SErr ℚ) = r at this
      cases this with
      | value => cases hr
      | outside => exact Except.error.inj hr
      | surface => obtain rfl := Except.error.inj hr; exact absurd c (by decide)
      | time => obtain rfl := Except.error.inj hr; exact absurd c (by decide)
    · split at h
      · rename_i e' e2
        obtain rfl := Except.error.inj h
        exact ih _ e2 c
      · cases h

theorem cNest_eq {fs : Nat → Fld} (hf : ∀ i, Sound (fs i)) (hg : Grids fs) (t z y x : ℚ) : ∀ (ms : List (List Nat)) (hs : Nat → Hint), Hints fs hs →
    (cNest fs t z y x ms hs).1 = nestedS fs ms t z y x ∧ Hints fs (cNest fs t z y x ms hs).2 := by
  intro ms
  induction ms with
  | nil => intro hs hh; exact ⟨rfl, hh⟩
  | cons m ms ih =>
    intro hs hh
    obtain ⟨e1, e2⟩ := cMember_eq hf hg t z y x m hs hh
    have hc := member_caught hf t z y x m
    rw [cNest]
    unfold nestedS
    rw [List.map_cons, ← e1]
    rw [← e1] at hc
    rcases hm : cMember fs t z y x m hs with ⟨r, hs'⟩
    rw [hm] at e2 hc
    cases r with
    | ok ws =>
      refine ⟨?_, e2⟩
      cases ms with
      | nil => rfl
      | cons m' ms => rfl
    | error e =>
      dsimp only at hc ⊢
      cases ms with
      | nil => rw [if_neg (by simp)]; exact ⟨rfl, e2⟩
      | cons m' ms =>
        by_cases c : e = oob
        · rw [if_pos ⟨c, by simp⟩]
          obtain ⟨i1, i2⟩ := ih _ e2
          refine ⟨?_, i2⟩
          rw [i1, c]
          rfl
        · rw [if_neg (fun h => c h.1)]
          refine ⟨?_, e2⟩
          show _ = if caught e = true then _ else _
          rw [if_neg (fun h => c (hc e rfl h))]

/-- What a sample of a nested field gives, where it gives something. -/
theorem nested_iff {fs : Nat → Fld} (hf : ∀ i, Sound (fs i)) (t z y x : ℚ) : ∀ (ms : List (List Nat)) (ws : List ℚ),
    nestedS fs ms t z y x = .ok ws ↔ NestValue fs ms t z y x ws := by
  intro ms
  induction ms with
  | nil =>
    intro ws
    constructor
    · intro h; cases h
    · rintro ⟨pre, m, post, e, -⟩; simp at e
  | cons m ms ih =>
    intro ws
    have hm := member_ok hf t z y x m
    have ho := member_misses hf t z y x m
    have hc := member_caught hf t z y x m
    have skip : NestValue fs (m :: ms) t z y x ws ↔ List.Forall₂ (fun i w => FieldValue (fs i) t z y x w) m ws ∨ (Misses fs m t z y x ∧ NestValue fs ms t z y x ws) := by
      constructor
      · rintro ⟨pre, m', post, e, h1, h2⟩
        cases pre with
        | nil =>
          simp only [List.nil_append, List.cons.injEq] at e
          obtain ⟨rfl, rfl⟩ := e
          exact Or.inl h2
        | cons k pre =>
          simp only [List.cons_append, List.cons.injEq] at e
          obtain ⟨rfl, rfl⟩ := e
          exact Or.inr ⟨h1 m List.mem_cons_self, pre, m', post, rfl, fun l hl => h1 l (List.mem_cons_of_mem _ hl), h2⟩
      · rintro (h | ⟨h, pre, m', post, rfl, h1, h2⟩)
        · exact ⟨[], m, ms, rfl, fun l hl => by simp at hl, h⟩
        · refine ⟨m :: pre, m', post, rfl, ?_, h2⟩
          intro l hl
          rcases List.mem_cons.mp hl with rfl | hl
          · exact h
          · exact h1 l hl
    rw [skip, ← hm, ← ho, ← ih]
    unfold nestedS
    rw [List.map_cons]
    cases hr : member fs t z y x m with
    | ok ws' =>
      have : nested (.ok ws' :: ms.map (member fs t z y x)) = .ok ws' := by
        cases ms <;> rfl
      rw [this]
      constructor
      · exact Or.inl
      · rintro (h | ⟨h, -⟩)
        · exact h
        · cases h
    | error e =>
      cases ms with
      | nil =>
        constructor
        · intro h; cases h
        · rintro (h | ⟨-, h⟩) <;> cases h
      | cons m' ms =>
        show (if caught e = true then _ else _) = _ ↔ _
        by_cases c : caught e = true
        · rw [if_pos c]
          have := hc e hr c
          subst this
          constructor
          · intro h; exact Or.inr ⟨rfl, h⟩
          · rintro (h | ⟨-, h⟩)
            · cases h
            · exact h
        · rw [if_neg c]
          constructor
          · intro h; cases h
          · rintro (h | ⟨h, -⟩)
            · cases h
            · obtain rfl := Except.error.inj h
              exact absurd rfl c

end Parcels.NestRun
