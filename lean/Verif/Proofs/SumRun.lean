import Verif.Spec.SumRun
import Verif.Proofs.NestRun2

namespace Parcels.SumRun

open Search Interp TimeInterp FieldLists
open KernelLoop (Exc)
open GridRun (Fld Hint Sound FieldValue HintOk Hints Grids Covers exc bare strip)
open NestRun (Prog Body member cEvalS cMember evalS follow refScheme cMember_eq member_ok cEvalS_eq)
open WholeRun (Scheme solution trajectory record core)
open Recovery (TP)

variable {V : Type}

/-! ### Sums -/

theorem addAll_length {k : Nat} : ∀ {vss : List (List ℚ)}, vss ≠ [] → (∀ v ∈ vss, v.length = k) → (addAll vss).length = k := by
  intro vss
  induction vss with
  | nil => intro h; exact absurd rfl h
  | cons v vs ih =>
    intro _ h
    cases vs with
    | nil => exact h v (List.mem_singleton.mpr rfl)
    | cons a as =>
      rw [addAll, List.length_zipWith, h v List.mem_cons_self, ih (by simp) fun u hu => h u (List.mem_cons_of_mem _ hu), Nat.min_self]
      simp

theorem addAll_get {k c : Nat} (hc : c < k) : ∀ {vss : List (List ℚ)}, vss ≠ [] → (∀ v ∈ vss, v.length = k) → (addAll vss).getD c 0 = (vss.map (·.getD c 0)).sum := by
  intro vss
  induction vss with
  | nil => intro h; exact absurd rfl h
  | cons v vs ih =>
    intro _ h
    cases vs with
    | nil => simp [addAll]
    | cons a as =>
      have hl := addAll_length (vss := a :: as) (by simp) fun u hu => h u (List.mem_cons_of_mem _ hu)
      have hv := h v List.mem_cons_self
      have hi := ih (by simp) fun u hu => h u (List.mem_cons_of_mem _ hu)
      rw [addAll, List.map_cons, List.sum_cons, ← hi]
      · rw [List.getD_eq_getElem _ _ (by rw [List.length_zipWith, hl, hv]; omega), List.getD_eq_getElem _ _ (by omega), List.getD_eq_getElem _ _ (by omega), List.getElem_zipWith]
      · simp

theorem members_ok {fs : Nat → Fld} (hf : ∀ i, Sound (fs i)) (t z y x : ℚ) : ∀ (ms : List (List Nat)) (vss : List (List ℚ)),
    members fs t z y x ms = .ok vss ↔ List.Forall₂ (fun m vs => List.Forall₂ (fun i w => FieldValue (fs i) t z y x w) m vs) ms vss := by
  intro ms
  induction ms with
  | nil =>
    intro vss
    rw [members, List.forall₂_nil_left_iff]
    exact ⟨fun h => (Except.ok.inj h).symm, fun h => by rw [h]⟩
  | cons m ms ih =>
    intro vss
    rw [members, List.forall₂_cons_left_iff]
    cases h : member fs t z y x m with
    | error e =>
      refine ⟨fun h' => (by cases h'), fun ⟨v, vs, hv, _, _⟩ => ?_⟩
      rw [← member_ok hf, h] at hv
      cases hv
    | ok v =>
      dsimp only
      cases h' : members fs t z y x ms with
      | error e =>
        refine ⟨fun h' => (by cases h'), fun ⟨v, vs, _, hv, _⟩ => ?_⟩
        rw [← ih, h'] at hv
        cases hv
      | ok vs =>
        constructor
        · intro e
          exact ⟨v, vs, (member_ok hf t z y x m v).mp h, (ih vs).mp h', (Except.ok.inj e).symm⟩
        · rintro ⟨v', vs', hv, hvs, rfl⟩
          rw [← member_ok hf, h] at hv
          rw [← ih, h'] at hvs
          rw [Except.ok.inj hv, Except.ok.inj hvs]

theorem value_unique {f : Fld} (hf : Sound f) {t z y x w w' : ℚ} (h : FieldValue f t z y x w) (h' : FieldValue f t z y x w') : w = w' := by
  have e := (member_ok (fs := fun _ => f) (fun _ => hf) t z y x [0] [w]).mpr (.cons h .nil)
  have e' := (member_ok (fs := fun _ => f) (fun _ => hf) t z y x [0] [w']).mpr (.cons h' .nil)
  rw [e] at e'
  exact (List.cons.inj (Except.ok.inj e')).1

theorem sum_iff {fs : Nat → Fld} (hf : ∀ i, Sound (fs i)) {k : Nat} {ms : List (List Nat)} (hm : Shape k ms) (hk : 0 < k) (t z y x : ℚ) (ws : List ℚ) :
    sumS fs ms t z y x = .ok ws ↔ SumValue fs k ms t z y x ws := by
  have shape : ∀ {vss}, List.Forall₂ (fun m vs => List.Forall₂ (fun i w => FieldValue (fs i) t z y x w) m vs) ms vss → vss ≠ [] ∧ ∀ v ∈ vss, v.length = k := by
    intro vss h
    constructor
    · rintro rfl
      exact hm.1 (List.forall₂_nil_right_iff.mp h)
    · intro v hv
      obtain ⟨j, hj, rfl⟩ := List.mem_iff_getElem.mp hv
      have hj' : j < ms.length := by rw [h.length_eq]; exact hj
      have := List.forall₂_iff_get.mp h
      have := (this.2 j hj' hj).length_eq
      rw [List.get_eq_getElem, List.get_eq_getElem, hm.2 _ (List.getElem_mem hj')] at this
      exact this.symm
  have col : ∀ {vss}, List.Forall₂ (fun m vs => List.Forall₂ (fun i w => FieldValue (fs i) t z y x w) m vs) ms vss → ∀ c, c < k →
      List.Forall₂ (fun m v => FieldValue (fs (m.getD c 0)) t z y x v) ms (vss.map (·.getD c 0)) := by
    intro vss h c hc
    have hs := shape h
    rw [List.forall₂_map_right_iff]
    rw [List.forall₂_iff_get] at h ⊢
    refine ⟨h.1, fun j hj hj' => ?_⟩
    have hg := List.forall₂_iff_get.mp (h.2 j hj hj')
    have l1 : c < (ms.get ⟨j, hj⟩).length := by rw [hm.2 _ (List.get_mem ms _)]; exact hc
    have l2 : c < (vss.get ⟨j, hj'⟩).length := by rw [hs.2 _ (List.get_mem vss _)]; exact hc
    rw [List.getD_eq_getElem _ _ l1, List.getD_eq_getElem _ _ l2]
    exact hg.2 c l1 l2
  have key : sumS fs ms t z y x = .ok ws ↔ ∃ vss, List.Forall₂ (fun m vs => List.Forall₂ (fun i w => FieldValue (fs i) t z y x w) m vs) ms vss ∧ addAll vss = ws := by
    unfold sumS
    cases h : members fs t z y x ms with
    | error e =>
      refine ⟨fun h => (by cases h), fun ⟨vss, hv, _⟩ => ?_⟩
      rw [← members_ok hf, h] at hv
      cases hv
    | ok vs =>
      constructor
      · intro e
        exact ⟨vs, (members_ok hf _ _ _ _ _ _).mp h, Except.ok.inj e⟩
      · rintro ⟨vss, hv, e⟩
        rw [← members_ok hf, h] at hv
        rw [← Except.ok.inj hv] at e
        rw [← e]
  rw [key]
  constructor
  · rintro ⟨vss, hv, rfl⟩
    obtain ⟨s1, s2⟩ := shape hv
    exact ⟨addAll_length s1 s2, fun c hc => ⟨_, col hv c hc, addAll_get hc s1 s2⟩⟩
  · rintro ⟨hl, hw⟩
    have ex : ∀ m ∈ ms, ∃ vs, List.Forall₂ (fun i w => FieldValue (fs i) t z y x w) m vs := by
      intro m hm'
      obtain ⟨j, hj, rfl⟩ := List.mem_iff_getElem.mp hm'
      have hlen := hm.2 _ hm'
      have : ∀ c, c < k → ∃ v, FieldValue (fs ((ms[j]).getD c 0)) t z y x v := by
        intro c hc
        obtain ⟨vs, hvs, -⟩ := hw c hc
        have hg := List.forall₂_iff_get.mp hvs
        exact ⟨_, hg.2 j hj (hg.1 ▸ hj)⟩
      have : ∀ i ∈ ms[j], ∃ v, FieldValue (fs i) t z y x v := by
        intro i hi
        obtain ⟨c, hc, rfl⟩ := List.mem_iff_getElem.mp hi
        have := this c (by omega)
        rwa [List.getD_eq_getElem _ _ hc] at this
      clear hlen
      generalize ms[j] = m at this
      clear hm'
      induction m with
      | nil => exact ⟨[], .nil⟩
      | cons i is ih =>
        obtain ⟨v, hv⟩ := this i List.mem_cons_self
        obtain ⟨vs, hvs⟩ := ih fun i hi => this i (List.mem_cons_of_mem _ hi)
        exact ⟨v :: vs, .cons hv hvs⟩
    have ex2 : ∀ ms : List (List Nat), (∀ m ∈ ms, ∃ vs, List.Forall₂ (fun i w => FieldValue (fs i) t z y x w) m vs) →
        ∃ vss, List.Forall₂ (fun m vs => List.Forall₂ (fun i w => FieldValue (fs i) t z y x w) m vs) ms vss := by
      intro ms
      induction ms with
      | nil => exact fun _ => ⟨[], .nil⟩
      | cons m ms ih =>
        intro h
        obtain ⟨v, hv⟩ := h m List.mem_cons_self
        obtain ⟨vs, hvs⟩ := ih fun m hm => h m (List.mem_cons_of_mem _ hm)
        exact ⟨v :: vs, .cons hv hvs⟩
    obtain ⟨vss, hv⟩ := ex2 ms ex
    obtain ⟨s1, s2⟩ := shape hv
    refine ⟨vss, hv, List.ext_getElem (by rw [addAll_length s1 s2, hl]) fun c h1 h2 => ?_⟩
    have hc : c < k := by omega
    obtain ⟨vs, hvs, e⟩ := hw c hc
    rw [List.getD_eq_getElem _ _ h2] at e
    have e' := addAll_get hc s1 s2
    rw [List.getD_eq_getElem _ _ h1] at e'
    rw [e, e']
    congr 1
    have hc' := col hv c hc
    clear e e' s1 s2 hv ex ex2 key shape col
    generalize vss.map (·.getD c 0) = us at hc' ⊢
    clear hw hm
    induction hc' generalizing vs with
    | nil => exact (List.forall₂_nil_left_iff.mp hvs).symm
    | cons h _ ih =>
      cases hvs with
      | cons h' hvs => rw [value_unique (hf _) h h', ih _ hvs]

/-! ### JIT mode -/

theorem cScalars_eq {fs : Nat → Fld} (hf : ∀ i, Sound (fs i)) (hg : Grids fs) (t z y x : ℚ) : ∀ (ms : List (List Nat)) (hs : Nat → Hint), Hints fs hs →
    (cScalars fs t z y x ms hs).1 = members fs t z y x ms ∧ Hints fs (cScalars fs t z y x ms hs).2 := by
  intro ms
  induction ms with
  | nil => intro hs hh; exact ⟨rfl, hh⟩
  | cons m ms ih =>
    intro hs hh
    obtain ⟨c1, c2⟩ := cMember_eq hf hg t z y x m hs hh
    rw [cScalars, members, ← c1]
    rcases hc : cMember fs t z y x m hs with ⟨r, hs'⟩
    rw [hc] at c2
    cases r with
    | error e => exact ⟨rfl, c2⟩
    | ok v =>
      obtain ⟨d1, d2⟩ := ih hs' c2
      dsimp only
      rw [← d1]
      rcases hd : cScalars fs t z y x ms hs' with ⟨r, hs''⟩
      rw [hd] at d2
      cases r with
      | error e => exact ⟨rfl, d2⟩
      | ok vs => exact ⟨rfl, d2⟩

theorem written_eq (junk : Nat → ℚ) (fs : Nat → Fld) (t z y x : ℚ) : ∀ (m : List Nat) (hs : Nat → Hint),
    cMember fs t z y x m hs = match written junk fs t z y x m hs with
      | (none, ws, hs') => (.ok ws, hs')
      | (some e, _, hs') => (.error e, hs') := by
  intro m
  induction m with
  | nil => intro hs; rfl
  | cons i is ih =>
    intro hs
    rw [cMember, written]
    rcases hc : cEvalS (fs i) t z y x (hs (fs i).igrid) with ⟨r, h⟩
    cases r with
    | error e => rfl
    | ok w =>
      dsimp only
      rw [ih]
      rcases written junk fs t z y x is (Function.update hs (fs i).igrid h) with ⟨_ | e, ws, hs'⟩ <;> rfl

theorem written_cases {fs : Nat → Fld} (hf : ∀ i, Sound (fs i)) (hg : Grids fs) (junk : Nat → ℚ) (t z y x : ℚ) (m : List Nat) (hs : Nat → Hint) (hh : Hints fs hs) :
    Hints fs (written junk fs t z y x m hs).2.2 ∧
    (∀ ws, member fs t z y x m = .ok ws → (written junk fs t z y x m hs).1 = none ∧ (written junk fs t z y x m hs).2.1 = ws) ∧
    (∀ e, member fs t z y x m = .error e → (written junk fs t z y x m hs).1 = some e) := by
  obtain ⟨c1, c2⟩ := cMember_eq hf hg t z y x m hs hh
  rw [written_eq junk] at c1 c2
  rw [← c1]
  clear c1
  generalize written junk fs t z y x m hs = r at *
  rcases r with ⟨_ | e, ws, hs'⟩
  · exact ⟨c2, fun ws' h => ⟨rfl, Except.ok.inj h⟩, fun e h => by cases h⟩
  · exact ⟨c2, fun ws' h => (by cases h), fun e' h => by rw [Except.error.inj h]⟩

theorem cVectors_hints {fs : Nat → Fld} (hf : ∀ i, Sound (fs i)) (hg : Grids fs) (junk : Nat → ℚ) (t z y x : ℚ) : ∀ (ms : List (List Nat)) (err : Option SErr) (hs : Nat → Hint), Hints fs hs →
    Hints fs (cVectors junk fs t z y x ms err hs).2.2 := by
  intro ms
  induction ms with
  | nil => intro _ hs hh; exact hh
  | cons m ms ih =>
    intro err hs hh
    rw [cVectors]
    exact ih _ _ (written_cases hf hg junk t z y x m hs hh).1

/-- If all members have values, these are found. -/
theorem cVectors_ok {fs : Nat → Fld} (hf : ∀ i, Sound (fs i)) (hg : Grids fs) (junk : Nat → ℚ) (t z y x : ℚ) : ∀ (ms : List (List Nat)) (hs : Nat → Hint) (vss : List (List ℚ)), Hints fs hs →
    members fs t z y x ms = .ok vss → (cVectors junk fs t z y x ms none hs).1 = none ∧ (cVectors junk fs t z y x ms none hs).2.1 = vss := by
  intro ms
  induction ms with
  | nil => intro hs vss _ h; exact ⟨rfl, Except.ok.inj h⟩
  | cons m ms ih =>
    intro hs vss hh h
    obtain ⟨w1, w2, -⟩ := written_cases hf hg junk t z y x m hs hh
    rw [members] at h
    cases hm : member fs t z y x m with
    | error e => rw [hm] at h; cases h
    | ok v =>
      rw [hm] at h
      dsimp only at h
      cases hms : members fs t z y x ms with
      | error e => rw [hms] at h; cases h
      | ok vs =>
        rw [hms] at h
        obtain rfl := Except.ok.inj h
        obtain ⟨a1, a2⟩ := w2 v hm
        rw [cVectors]
        rcases hw : written junk fs t z y x m hs with ⟨err, v', hs'⟩
        rw [hw] at a1 a2 w1
        dsimp only at a1 a2 w1
        subst a1 a2
        obtain ⟨b1, b2⟩ := ih hs' vs w1 hms
        exact ⟨b1, by show _ :: _ = _; rw [b2]⟩

/-- The status is that of the last member. -/
theorem cVectors_last {fs : Nat → Fld} (hf : ∀ i, Sound (fs i)) (hg : Grids fs) (junk : Nat → ℚ) (t z y x : ℚ) : ∀ (ms : List (List Nat)) (err : Option SErr) (hs : Nat → Hint) (last : List Nat), Hints fs hs →
    ms.getLast? = some last → ((cVectors junk fs t z y x ms err hs).1 = none ↔ ∃ ws, member fs t z y x last = .ok ws) := by
  intro ms
  induction ms with
  | nil => intro _ _ _ _ h; cases h
  | cons m ms ih =>
    intro err hs last hh h
    obtain ⟨w1, w2, w3⟩ := written_cases hf hg junk t z y x m hs hh
    rw [cVectors]
    cases ms with
    | nil =>
      have h : m = last := Option.some.inj h
      subst h
      show (written junk fs t z y x m hs).1 = none ↔ _
      cases hm : member fs t z y x m with
      | error e => rw [w3 e hm]; exact ⟨fun h => (by cases h), fun ⟨_, h⟩ => by cases h⟩
      | ok v => exact ⟨fun _ => ⟨v, rfl⟩, fun _ => (w2 v hm).1⟩
    | cons a as =>
      rw [List.getLast?_cons_cons] at h
      exact ih (written junk fs t z y x m hs).1 _ last w1 h

theorem member_covers {fs : Nat → Fld} (hf : ∀ i, Sound (fs i)) (t z y x : ℚ) (m : List Nat) : (∃ ws, member fs t z y x m = .ok ws) ↔ ∀ i ∈ m, Covers (fs i) t z y x := by
  simp only [member_ok hf]
  induction m with
  | nil => exact ⟨fun _ i hi => (by cases hi), fun _ => ⟨[], .nil⟩⟩
  | cons i is ih =>
    constructor
    · rintro ⟨ws, h⟩
      cases h with
      | cons h h' =>
        intro j hj
        rcases List.mem_cons.mp hj with rfl | hj
        · exact GridRun.value_covers (hf _) h
        · exact ih.mp ⟨_, h'⟩ j hj
    · intro h
      obtain ⟨w, hw⟩ := GridRun.covers_value (hf i) (h i List.mem_cons_self)
      obtain ⟨ws, hws⟩ := ih.mpr fun j hj => h j (List.mem_cons_of_mem _ hj)
      exact ⟨w :: ws, .cons hw hws⟩

theorem members_covers {fs : Nat → Fld} (hf : ∀ i, Sound (fs i)) (t z y x : ℚ) (ms : List (List Nat)) : (∃ vss, members fs t z y x ms = .ok vss) ↔ ∀ m ∈ ms, ∀ i ∈ m, Covers (fs i) t z y x := by
  induction ms with
  | nil => exact ⟨fun _ i hi => (by cases hi), fun _ => ⟨[], rfl⟩⟩
  | cons m ms ih =>
    rw [List.forall_mem_cons, ← ih, ← member_covers hf, members]
    cases member fs t z y x m with
    | error e => exact ⟨fun ⟨_, h⟩ => (by cases h), fun ⟨⟨_, h⟩, _⟩ => by cases h⟩
    | ok v =>
      cases members fs t z y x ms with
      | error e => exact ⟨fun ⟨_, h⟩ => (by cases h), fun ⟨_, ⟨_, h⟩⟩ => by cases h⟩
      | ok vs => exact ⟨fun _ => ⟨⟨v, rfl⟩, ⟨vs, rfl⟩⟩, fun _ => ⟨_, rfl⟩⟩

/-- A sample in JIT mode agrees with Scipy mode, if the members of sums of vector fields go together. -/
theorem cSum_cases {fs : Nat → Fld} (hf : ∀ i, Sound (fs i)) (hg : Grids fs) (junk : Nat → ℚ) {vec : Bool} {ms : List (List Nat)} (hne : ms ≠ []) (hv : vec = true → Together fs ms) (t z y x : ℚ)
    (hs : Nat → Hint) (hh : Hints fs hs) :
    Hints fs (cSum junk fs vec ms t z y x hs).2 ∧ (∀ ws, sumS fs ms t z y x = .ok ws → (cSum junk fs vec ms t z y x hs).1 = .ok ws) ∧
      ((∃ e, sumS fs ms t z y x = .error e) → ∃ e, (cSum junk fs vec ms t z y x hs).1 = .error e) := by
  unfold cSum sumS
  cases vec with
  | false =>
    rw [if_neg (by simp)]
    obtain ⟨c1, c2⟩ := cScalars_eq hf hg t z y x ms hs hh
    rw [← c1]
    clear c1
    generalize cScalars fs t z y x ms hs = r at *
    rcases r with ⟨e | v, hs'⟩
    · exact ⟨c2, fun ws h => (by cases h), fun _ => ⟨_, rfl⟩⟩
    · exact ⟨c2, fun ws h => h, fun ⟨_, h⟩ => by cases h⟩
  | true =>
    rw [if_pos rfl]
    have c1 := cVectors_hints hf hg junk t z y x ms none hs hh
    have c2 := cVectors_ok hf hg junk t z y x ms hs
    have hl := List.getLast?_eq_some_getLast hne
    have c3 := cVectors_last hf hg junk t z y x ms none hs _ hh hl
    rw [member_covers hf] at c3
    have c4 := hv rfl _ hl t z y x
    have c5 := members_covers hf t z y x ms
    cases hm : members fs t z y x ms with
    | ok vss =>
      obtain ⟨d1, d2⟩ := c2 vss hh hm
      clear c2 c3
      generalize cVectors junk fs t z y x ms none hs = r at *
      rcases r with ⟨err, vs, hs'⟩
      dsimp only at d1 d2
      subst d1 d2
      exact ⟨c1, fun ws h => h, fun ⟨_, h⟩ => by cases h⟩
    | error e =>
      have hn : (cVectors junk fs t z y x ms none hs).1 ≠ none := by
        intro h
        obtain ⟨vss, h⟩ := c5.mpr (c4 (c3.mp h))
        rw [hm] at h
        cases h
      clear c2 c3
      generalize cVectors junk fs t z y x ms none hs = r at *
      rcases r with ⟨_ | err, vs, hs'⟩
      · exact absurd rfl hn
      · exact ⟨c1, fun ws h => (by cases h), fun _ => ⟨_, rfl⟩⟩

/-! ### Programs, for any way to sample -/

/-- `val` is what the sampler gives. -/
def SOk (ev : Nat → (t z y x : ℚ) → Except SErr (List ℚ)) (val : Nat → (t z y x : ℚ) → Option (List ℚ)) : Prop :=
  ∀ n t z y x, (∀ ws, val n t z y x = some ws → ev n t z y x = .ok ws) ∧ (val n t z y x = none → ∃ e, ev n t z y x = .error e)

/-- The same in JIT mode. -/
def JOk (fs : Nat → Fld) (cev : Nat → (t z y x : ℚ) → (Nat → Hint) → Except SErr (List ℚ) × (Nat → Hint)) (val : Nat → (t z y x : ℚ) → Option (List ℚ)) : Prop :=
  ∀ n t z y x hs, Hints fs hs → Hints fs (cev n t z y x hs).2 ∧ (∀ ws, val n t z y x = some ws → (cev n t z y x hs).1 = .ok ws) ∧ (val n t z y x = none → ∃ e, (cev n t z y x hs).1 = .error e)

variable {ev : Nat → (t z y x : ℚ) → Except SErr (List ℚ)} {val : Nat → (t z y x : ℚ) → Option (List ℚ)} {fs : Nat → Fld}
  {cev : Nat → (t z y x : ℚ) → (Nat → Hint) → Except SErr (List ℚ) × (Nat → Hint)}

theorem follow_scipy (h : SOk ev val) : ∀ p : Prog V, (∀ v, follow val p = some v → scipyG ev p = .ok v) ∧ (follow val p = none → ∃ e, scipyG ev p = .error e) := by
  intro p
  induction p with
  | ret v => exact ⟨fun w h => by rw [← Option.some.inj h]; rfl, fun h => by cases h⟩
  | fail e => exact ⟨fun w h => (by cases h), fun _ => ⟨e, rfl⟩⟩
  | get n t z y x k ih =>
    rw [follow, scipyG]
    obtain ⟨h1, h2⟩ := h n t z y x
    cases hw : val n t z y x with
    | none =>
      obtain ⟨e, he⟩ := h2 hw
      rw [he]
      exact ⟨fun w h => (by cases h), fun _ => ⟨_, rfl⟩⟩
    | some w =>
      rw [h1 w hw]
      exact ih w

theorem follow_jit (h : JOk fs cev val) : ∀ (p : Prog V) (hs : Nat → Hint), Hints fs hs →
      (∀ v, follow val p = some v → ∃ hs', jitG cev p hs = .ok (v, hs') ∧ Hints fs hs') ∧ (follow val p = none → ∃ e, jitG cev p hs = .error e) := by
  intro p
  induction p with
  | ret v => exact fun hs hh => ⟨fun w h => ⟨hs, by rw [← Option.some.inj h]; rfl, hh⟩, fun h => by cases h⟩
  | fail e => exact fun hs hh => ⟨fun w h => (by cases h), fun _ => ⟨e, rfl⟩⟩
  | get n t z y x k ih =>
    intro hs hh
    rw [follow, jitG]
    obtain ⟨h0, h1, h2⟩ := h n t z y x hs hh
    rcases hc : cev n t z y x hs with ⟨r, hs'⟩
    rw [hc] at h0 h1 h2
    dsimp only at h0 h1 h2
    cases hw : val n t z y x with
    | none =>
      obtain ⟨e, he⟩ := h2 hw
      subst he
      exact ⟨fun w h => (by cases h), fun _ => ⟨_, rfl⟩⟩
    | some w =>
      have := h1 w hw
      subst this
      exact ih w _ h0

theorem solution_scipy (h : SOk ev val) (b : Body V) (dt : ℚ) :
    ∀ (n : Nat) (t : ℚ) (v : V), solution (fun t dt v => scipyG ev (b t dt v)) dt n t v = solution (refScheme val b) dt n t v := by
  intro n
  induction n with
  | zero => intro t v; rfl
  | succ n ih =>
    intro t v
    rw [solution, solution]
    obtain ⟨h1, h2⟩ := follow_scipy h (b t dt v)
    unfold refScheme
    cases hw : follow val (b t dt v) with
    | none =>
      obtain ⟨e, he⟩ := h2 hw
      rw [he]
    | some v' =>
      rw [h1 v' hw]
      exact ih _ _

theorem solution_jit (h : JOk fs cev val) (b : Body V) (dt : ℚ) : ∀ (n : Nat) (t : ℚ) (v : V) (hs : Nat → Hint), Hints fs hs →
      (solution (fun t dt s => jitG cev (b t dt s.1) s.2) dt n t (v, hs)).map Prod.fst = solution (refScheme val b) dt n t v := by
  intro n
  induction n with
  | zero => intro t v hs _; rfl
  | succ n ih =>
    intro t v hs hh
    rw [solution, solution]
    obtain ⟨h1, h2⟩ := follow_jit h (b t dt v) hs hh
    unfold refScheme
    dsimp only
    cases hw : follow val (b t dt v) with
    | none =>
      obtain ⟨e, he⟩ := h2 hw
      rw [he]
      rfl
    | some v' =>
      obtain ⟨hs', he, hh'⟩ := h1 v' hw
      rw [he]
      exact ih _ _ _ hh'

theorem trajectory_scipy (h : SOk ev val) (b : Body V) : trajectory (fun t dt v => scipyG ev (b t dt v)) = trajectory (refScheme val b) := by
  funext dt t q
  unfold trajectory
  rw [solution_scipy h]

theorem trajectory_jit (h : JOk fs cev val) (b : Body V) (dt t : ℚ) (q : TP (V × (Nat → Hint))) (hq : Hints fs q.2.vars.2) :
    (trajectory (fun t dt s => jitG cev (b t dt s.1) s.2) dt t q).map bare = trajectory (refScheme val b) dt t (strip q) := by
  unfold trajectory
  by_cases c : 0 < (q.2.time - t) * sgn dt
  · rw [if_pos c, if_pos (show 0 < ((strip q).2.time - t) * sgn dt from c)]
    rfl
  · rw [if_neg c, if_neg (show ¬ 0 < ((strip q).2.time - t) * sgn dt from c)]
    have := solution_jit h b dt ⌊(t - q.2.time) / dt⌋₊ q.2.time q.2.vars.1 q.2.vars.2 hq
    show Option.map bare (Option.map _ (solution (fun t dt s => jitG cev (b t dt s.1) s.2) dt ⌊(t - q.2.time) / dt⌋₊ q.2.time (q.2.vars.1, q.2.vars.2))) =
      Option.map _ (solution (refScheme val b) dt ⌊(t - q.2.time) / dt⌋₊ q.2.time q.2.vars.1)
    rw [← this, Option.map_map, Option.map_map]
    rfl

theorem record_jit (h : JOk fs cev val) (b : Body V) (dt t : ℚ) (q : TP (V × (Nat → Hint))) (hq : Hints fs q.2.vars.2) :
    (record (fun t dt s => jitG cev (b t dt s.1) s.2) dt t q).map bare = record (refScheme val b) dt t (strip q) := by
  unfold record
  by_cases c : 0 < (q.2.time - t) * sgn dt
  · rw [if_pos c, if_pos (show 0 < ((strip q).2.time - t) * sgn dt from c)]
    rfl
  · rw [if_neg c, if_neg (show ¬ 0 < ((strip q).2.time - t) * sgn dt from c)]
    exact trajectory_jit h b dt t q hq

/-! ### Summed fields -/

theorem sums_exists {comps : Nat → Nat} {ns : Nat → List (List Nat)} (hf : ∀ i, Sound (fs i)) (hn : ∀ n, Shape (comps n) (ns n) ∧ 0 < comps n) : ∃ val, Sums fs comps ns val := by
  refine ⟨fun n t z y x => (sumS fs (ns n) t z y x).toOption, fun n t z y x w => ?_⟩
  rw [← sum_iff hf (hn n).1 (hn n).2]
  show (sumS fs (ns n) t z y x).toOption = some w ↔ _
  cases sumS fs (ns n) t z y x with
  | error e => exact ⟨fun h => (by cases h), fun h => by cases h⟩
  | ok v => exact ⟨fun h => (by rw [← Option.some.inj h]), fun h => by injection h with h; rw [← h]; rfl⟩

theorem sum_scipy {comps : Nat → Nat} {ns : Nat → List (List Nat)} (hf : ∀ i, Sound (fs i)) (hn : ∀ n, Shape (comps n) (ns n) ∧ 0 < comps n) (hv : Sums fs comps ns val) :
    SOk (fun n => sumS fs (ns n)) val := by
  intro n t z y x
  refine ⟨fun ws h => (sum_iff hf (hn n).1 (hn n).2 t z y x ws).mpr ((hv _ _ _ _ _ _).mp h), fun h => ?_⟩
  cases e : sumS fs (ns n) t z y x with
  | error e' => exact ⟨e', e⟩
  | ok ws =>
    rw [sum_iff hf (hn n).1 (hn n).2, ← hv, h] at e
    cases e

theorem sum_jit {comps : Nat → Nat} {ns : Nat → List (List Nat)} {vec : Nat → Bool} (junk : Nat → ℚ) (hf : ∀ i, Sound (fs i)) (hg : Grids fs) (hn : ∀ n, Shape (comps n) (ns n) ∧ 0 < comps n)
    (ht : ∀ n, vec n = true → Together fs (ns n)) (hv : Sums fs comps ns val) : JOk fs (fun n => cSum junk fs (vec n) (ns n)) val := by
  intro n t z y x hs hh
  obtain ⟨c1, c2, c3⟩ := cSum_cases hf hg junk (hn n).1.1 (ht n) t z y x hs hh
  obtain ⟨s1, s2⟩ := sum_scipy hf hn hv n t z y x
  exact ⟨c1, fun ws h => c2 ws (s1 ws h), fun h => c3 (s2 h)⟩

/-! ### Runs in which all samples are covered -/

/-- What holds in JIT mode in any case: values that all members have are found. -/
def JOk' (fs : Nat → Fld) (cev : Nat → (t z y x : ℚ) → (Nat → Hint) → Except SErr (List ℚ) × (Nat → Hint)) (val : Nat → (t z y x : ℚ) → Option (List ℚ)) : Prop :=
  ∀ n t z y x hs, Hints fs hs → Hints fs (cev n t z y x hs).2 ∧ ∀ ws, val n t z y x = some ws → (cev n t z y x hs).1 = .ok ws

theorem follow_jit' (h : JOk' fs cev val) : ∀ (p : Prog V) (hs : Nat → Hint), Hints fs hs → ∀ v, follow val p = some v → ∃ hs', jitG cev p hs = .ok (v, hs') ∧ Hints fs hs' := by
  intro p
  induction p with
  | ret v => exact fun hs hh w h => ⟨hs, by rw [← Option.some.inj h]; rfl, hh⟩
  | fail e => exact fun hs hh w h => (by cases h)
  | get n t z y x k ih =>
    intro hs hh v
    rw [follow, jitG]
    obtain ⟨h0, h1⟩ := h n t z y x hs hh
    rcases hc : cev n t z y x hs with ⟨r, hs'⟩
    rw [hc] at h0 h1
    dsimp only at h0 h1
    cases hw : val n t z y x with
    | none => exact fun h => by cases h
    | some w =>
      have := h1 w hw
      subst this
      exact ih w _ h0 v

theorem solution_jit' (h : JOk' fs cev val) (b : Body V) (dt : ℚ) : ∀ (n : Nat) (t : ℚ) (v : V) (hs : Nat → Hint), Hints fs hs → ∀ v', solution (refScheme val b) dt n t v = some v' →
      (solution (fun t dt s => jitG cev (b t dt s.1) s.2) dt n t (v, hs)).map Prod.fst = some v' := by
  intro n
  induction n with
  | zero => intro t v hs _ v' h; exact h
  | succ n ih =>
    intro t v hs hh v'
    rw [solution, solution]
    unfold refScheme
    dsimp only
    cases hw : follow val (b t dt v) with
    | none => exact fun h => by cases h
    | some w =>
      obtain ⟨hs', he, hh'⟩ := follow_jit' h (b t dt v) hs hh w hw
      rw [he]
      exact ih _ _ _ hh' v'

theorem trajectory_jit' (h : JOk' fs cev val) (b : Body V) (dt t : ℚ) (q : TP (V × (Nat → Hint))) (hq : Hints fs q.2.vars.2) (hs : (trajectory (refScheme val b) dt t (strip q)).isSome) :
    (trajectory (fun t dt s => jitG cev (b t dt s.1) s.2) dt t q).map bare = trajectory (refScheme val b) dt t (strip q) := by
  unfold trajectory at hs ⊢
  by_cases c : 0 < (q.2.time - t) * sgn dt
  · rw [if_pos c, if_pos (show 0 < ((strip q).2.time - t) * sgn dt from c)]
    rfl
  · rw [if_neg (show ¬ 0 < ((strip q).2.time - t) * sgn dt from c)] at hs
    rw [if_neg c, if_neg (show ¬ 0 < ((strip q).2.time - t) * sgn dt from c)]
    rw [Option.isSome_map] at hs
    obtain ⟨v', hv'⟩ := Option.isSome_iff_exists.mp hs
    have := solution_jit' h b dt ⌊(t - q.2.time) / dt⌋₊ q.2.time q.2.vars.1 q.2.vars.2 hq v' hv'
    show Option.map bare (Option.map _ (solution (fun t dt s => jitG cev (b t dt s.1) s.2) dt ⌊(t - q.2.time) / dt⌋₊ q.2.time (q.2.vars.1, q.2.vars.2))) =
      Option.map _ (solution (refScheme val b) dt ⌊(t - q.2.time) / dt⌋₊ q.2.time q.2.vars.1)
    rw [show solution (refScheme val b) dt ⌊(t - q.2.time) / dt⌋₊ q.2.time q.2.vars.1 = some v' from hv', ← this, Option.map_map, Option.map_map]
    rfl

theorem sum_jit' {comps : Nat → Nat} {ns : Nat → List (List Nat)} (vec : Nat → Bool) (junk : Nat → ℚ) (hf : ∀ i, Sound (fs i)) (hg : Grids fs) (hn : ∀ n, Shape (comps n) (ns n) ∧ 0 < comps n)
    (hv : Sums fs comps ns val) : JOk' fs (fun n => cSum junk fs (vec n) (ns n)) val := by
  intro n t z y x hs hh
  have key : Hints fs (cSum junk fs (vec n) (ns n) t z y x hs).2 ∧ ∀ ws, sumS fs (ns n) t z y x = .ok ws → (cSum junk fs (vec n) (ns n) t z y x hs).1 = .ok ws := by
    cases hc : vec n with
    | false =>
      obtain ⟨c1, c2, -⟩ := cSum_cases hf hg junk (vec := false) (hn n).1.1 (fun h => by cases h) t z y x hs hh
      exact ⟨c1, c2⟩
    | true =>
      have c1 := cVectors_hints hf hg junk t z y x (ns n) none hs hh
      have c2 := cVectors_ok hf hg junk t z y x (ns n) hs
      unfold cSum sumS
      rw [if_pos rfl]
      constructor
      · generalize cVectors junk fs t z y x (ns n) none hs = r at *
        rcases r with ⟨_ | e, vs, hs'⟩ <;> exact c1
      · intro ws hw
        cases hm : members fs t z y x (ns n) with
        | error e => rw [hm] at hw; cases hw
        | ok vss =>
          rw [hm] at hw
          obtain ⟨d1, d2⟩ := c2 vss hh hm
          clear c2
          generalize cVectors junk fs t z y x (ns n) none hs = r at *
          rcases r with ⟨err, vs, hs'⟩
          dsimp only at d1 d2
          subst d1 d2
          exact hw
  exact ⟨key.1, fun ws h => key.2 ws ((sum_scipy hf hn hv n t z y x).1 ws h)⟩

end Parcels.SumRun
