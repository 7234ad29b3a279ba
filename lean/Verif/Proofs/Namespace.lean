import Verif.Spec.Namespace

/-! Lemmas for C90. -/

namespace Parcels.Namespace

theorem find_put_self (d : List (Nat × Val)) (n : Nat) (v : Val) :
    (put d n v).find? (fun p => decide (p.1 = n)) = some (n, v) := by
  induction d with
  | nil => simp [put]
  | cons p rest ih =>
    unfold put
    by_cases h : p.1 = n
    · simp [h]
    · simp [h, ih]

theorem find_put_other (d : List (Nat × Val)) {n m : Nat} (v : Val) (h : m ≠ n) :
    (put d n v).find? (fun p => decide (p.1 = m)) = d.find? (fun p => decide (p.1 = m)) := by
  induction d with
  | nil => simp [put, Ne.symm h]
  | cons p rest ih =>
    unfold put
    by_cases hp : p.1 = n
    · have : p.1 ≠ m := fun c => h (c.symm.trans hp)
      simp [hp, Ne.symm h]
    · simp [hp, List.find?_cons, ih]

theorem mem_put {d : List (Nat × Val)} {n : Nat} {v : Val} {p : Nat × Val} (h : p ∈ put d n v) : p = (n, v) ∨ p ∈ d := by
  induction d with
  | nil => simpa [put] using h
  | cons q rest ih =>
    unfold put at h
    split at h
    · rcases List.mem_cons.mp h with h | h
      · exact .inl h
      · exact .inr (List.mem_cons_of_mem _ h)
    · rcases List.mem_cons.mp h with h | h
      · exact .inr (h ▸ List.mem_cons_self)
      · exact (ih h).imp id (List.mem_cons_of_mem _)

theorem lookup_set_self (s : FS) (n : Nat) (v : Val) : lookup (setAttr s n v) n = some v := by
  unfold lookup setAttr
  simp only [find_put_self, Option.map_some]

theorem lookup_set_other (s : FS) {n m : Nat} (v : Val) (h : m ≠ n) : lookup (setAttr s n v) m = lookup s m := by
  unfold lookup setAttr
  simp only [find_put_other _ v h]

theorem lookup_congr {s s' : FS} (h : s'.attrs = s.attrs) (n : Nat) : lookup s' n = lookup s n := by
  unfold lookup; rw [h]

theorem mem_of_lookup {s : FS} {n : Nat} {v : Val} (h : lookup s n = some v) : (n, v) ∈ s.attrs := by
  unfold lookup at h
  cases hf : s.attrs.find? (fun p => decide (p.1 = n)) with
  | none => rw [hf] at h; cases h
  | some p =>
    rw [hf] at h
    have h1 := List.mem_of_find?_eq_some hf
    have h2 := List.find?_some hf
    have h3 : p.2 = v := Option.some.inj h
    have h4 : p.1 = n := by simpa using h2
    rw [← h3, ← h4]
    exact h1

/-! ### regAll -/

theorem regAll_attrs (l : List Item) : ∀ s : FS, (regAll s l).2.attrs = s.attrs ∧ (regAll s l).2.completed = s.completed ∧ s.reg ⊆ (regAll s l).2.reg := by
  induction l with
  | nil => intro s; exact ⟨rfl, rfl, List.Subset.refl _⟩
  | cons i rest ih =>
    intro s
    cases i with
    | field f =>
      obtain ⟨h1, h2, h3⟩ := ih { s with reg := s.reg ++ [f] }
      exact ⟨h1, h2, fun x hx => h3 (List.mem_append_left _ hx)⟩
    | vector n cs => exact ⟨rfl, rfl, List.Subset.refl _⟩

theorem regAll_scalar (l : List Item) : ∀ s : FS, (∀ i ∈ l, ∃ f, i = .field f) →
    (regAll s l).1 = none ∧ ∀ f ∈ l.flatMap Item.fields, f ∈ (regAll s l).2.reg := by
  induction l with
  | nil => intro s _; exact ⟨rfl, fun f hf => by simp at hf⟩
  | cons i rest ih =>
    intro s h
    obtain ⟨f, rfl⟩ := h i List.mem_cons_self
    obtain ⟨h1, h2⟩ := ih { s with reg := s.reg ++ [f] } (fun j hj => h j (List.mem_cons_of_mem _ hj))
    refine ⟨h1, fun g hg => ?_⟩
    rw [List.flatMap_cons, List.mem_append] at hg
    rcases hg with hg | hg
    · have hgf : g = f := by simpa [Item.fields] using hg
      subst hgf
      exact (regAll_attrs rest { s with reg := s.reg ++ [g] }).2.2 (by simp)
    · exact h2 g hg

/-! ### addField -/

/-- What `add_field` stores. -/
def stored (n : Nat) : Val → Val
  | .many nested k l => .many nested (if nested then k else n) l
  | v => v

/-- Either nothing was changed and the call raised, or the value is put under a free name. -/
theorem addField_cases (nm : Nat → Nat) (res : Nat → Bool) (s : FS) (v : Val) (name : Option Nat) :
    ((addField nm res s v name).2 = s ∧ (addField nm res s v name).1.isSome) ∨
    ∃ n, (name.orElse fun _ => v.name nm) = some n ∧ s.completed = false ∧ has res s n = false ∧
      (addField nm res s v name).2.attrs = put s.attrs n (stored n v) ∧
      (addField nm res s v name).2.completed = s.completed ∧ s.reg ⊆ (addField nm res s v name).2.reg ∧
      (v.Scalar → (addField nm res s v name).1 = none ∧ ∀ f ∈ v.fields, f ∈ (addField nm res s v name).2.reg) := by
  unfold addField
  by_cases hc : s.completed
  · left; simp [hc]
  · have hc' : s.completed = false := by simpa using hc
    simp only [hc', Bool.false_eq_true, if_false]
    cases hn : (name.orElse fun _ => v.name nm) with
    | none => left; exact ⟨rfl, rfl⟩
    | some n =>
      by_cases hh : has res s n
      · left; simp [hh]
      · right
        have hh' : has res s n = false := by simpa using hh
        refine ⟨n, rfl, trivial, hh', ?_⟩
        simp only [hh', Bool.false_eq_true, if_false]
        cases v with
        | one i =>
          cases i with
          | field f =>
            exact ⟨rfl, hc', fun x hx => List.mem_append_left _ hx, fun _ => ⟨rfl, fun g hg => by
              have : g = f := by simpa [Val.fields, Item.fields] using hg
              subst this
              simp⟩⟩
          | vector m cs => exact ⟨rfl, hc', List.Subset.refl _, fun h => absurd h (fun h => h)⟩
        | many b k l =>
          obtain ⟨h1, h2, h3⟩ := regAll_attrs l (setAttr s n (.many b (if b then k else n) l))
          refine ⟨h1, h2.trans hc', h3, fun hs => ?_⟩
          exact regAll_scalar l _ hs
        | const c => exact ⟨rfl, hc', List.Subset.refl _, fun h => absurd h (fun h => h)⟩

theorem addField_keeps (nm : Nat → Nat) (res : Nat → Bool) (s : FS) (v : Val) (name : Option Nat) {n : Nat} {x : Val}
    (h : lookup s n = some x) : lookup (addField nm res s v name).2 n = some x := by
  rcases addField_cases nm res s v name with ⟨e, _⟩ | ⟨m, _, _, hh, ha, _⟩
  · rw [e]; exact h
  · have hne : n ≠ m := by
      rintro rfl
      unfold has at hh
      rw [h] at hh
      simp at hh
    rw [lookup_congr (s := setAttr s m (stored m v)) ha, lookup_set_other _ _ hne]
    exact h

theorem addField_reg (nm : Nat → Nat) (res : Nat → Bool) (s : FS) (v : Val) (name : Option Nat) : s.reg ⊆ (addField nm res s v name).2.reg := by
  rcases addField_cases nm res s v name with ⟨e, _⟩ | ⟨_, _, _, _, _, _, h, _⟩
  · rw [e]; exact List.Subset.refl _
  · exact h

/-! ### getFields -/

theorem mem_note {l : List Val} {v x : Val} : x ∈ note l v ↔ x ∈ l ∨ x = v := by
  unfold note
  split
  · rename_i h
    constructor
    · exact .inl
    · rintro (h' | rfl)
      · exact h'
      · exact h
  · simp

theorem nodup_note {l : List Val} (h : l.Nodup) (v : Val) : (note l v).Nodup := by
  unfold note
  split
  · exact h
  · rename_i hv
    rw [List.nodup_append]
    refine ⟨h, by simp, fun a ha b hb => ?_⟩
    have : b = v := by simpa using hb
    subst this
    rintro rfl
    exact hv ha

theorem mem_notes (l : List Item) : ∀ (a : List Val) (x : Val), x ∈ l.foldl (fun a i => note a (.one i)) a ↔ x ∈ a ∨ ∃ i ∈ l, x = .one i := by
  induction l with
  | nil => intro a x; simp
  | cons i rest ih =>
    intro a x
    rw [List.foldl_cons, ih, mem_note]
    constructor
    · rintro ((h | h) | ⟨j, hj, h⟩)
      · exact .inl h
      · exact .inr ⟨i, List.mem_cons_self, h⟩
      · exact .inr ⟨j, List.mem_cons_of_mem _ hj, h⟩
    · rintro (h | ⟨j, hj, h⟩)
      · exact .inl (.inl h)
      · rcases List.mem_cons.mp hj with rfl | hj
        · exact .inl (.inr h)
        · exact .inr ⟨j, hj, h⟩

theorem nodup_notes (l : List Item) : ∀ (a : List Val), a.Nodup → (l.foldl (fun a i => note a (.one i)) a).Nodup := by
  induction l with
  | nil => intro a h; exact h
  | cons i rest ih => intro a h; exact ih _ (nodup_note h _)

/-- What an attribute contributes to `get_fields`. -/
def Contributes (v x : Val) : Prop :=
  match v with
  | .one i => x = .one i
  | .many b k l => x = .many b k l ∨ ∃ i ∈ l, x = .one i
  | .const _ => False

theorem getFields_fold (d : List (Nat × Val)) : ∀ (a : List Val) (x : Val),
    x ∈ d.foldl (fun acc p => gather acc p.2) a ↔ x ∈ a ∨ ∃ p ∈ d, Contributes p.2 x := by
  induction d with
  | nil => intro a x; simp
  | cons p rest ih =>
    intro a x
    rw [List.foldl_cons, ih]
    have key : x ∈ gather a p.2 ↔ x ∈ a ∨ Contributes p.2 x := by
      cases hp : p.2 with
      | one i => simp only [gather, mem_note]; rfl
      | many b k l => simp only [gather, mem_notes, mem_note, or_assoc]; rfl
      | const c => simp [gather, Contributes]
    rw [key]
    simp only [List.mem_cons, exists_eq_or_imp, or_assoc]

theorem mem_getFields {s : FS} {x : Val} : x ∈ getFields s ↔ ∃ p ∈ s.attrs, Contributes p.2 x := by
  unfold getFields
  rw [getFields_fold]
  simp

theorem nodup_fold (d : List (Nat × Val)) : ∀ (a : List Val), a.Nodup →
    (d.foldl (fun acc p => gather acc p.2) a).Nodup := by
  induction d with
  | nil => intro a h; exact h
  | cons p rest ih =>
    intro a h
    rw [List.foldl_cons]
    apply ih
    cases p.2 with
    | one i => exact nodup_note h _
    | many b k l => exact nodup_notes l _ (nodup_note h _)
    | const c => exact h

/-! ### addComps, addVector -/

theorem addComps_keeps (nm : Nat → Nat) (res : Nat → Bool) (cs : List Nat) : ∀ (s : FS) {n : Nat} {x : Val},
    lookup s n = some x → lookup (addComps nm res s cs).2 n = some x := by
  induction cs with
  | nil => intro s n x h; exact h
  | cons f rest ih =>
    intro s n x h
    unfold addComps
    split
    · exact ih s h
    · have hk := addField_keeps nm res s (.one (.field f)) none h
      split
      · rename_i s' e
        rw [e] at hk
        exact ih s' hk
      · rename_i er s' e
        rw [e] at hk
        exact hk

/-- Directly held Fields, and members of lists, are registered. -/
def Direct (s : FS) : Prop := ∀ p ∈ s.attrs, ∀ f, Contributes p.2 (.one (.field f)) → f ∈ s.reg

/-- Components of VectorFields other than `except` are registered. -/
def Vecs (s : FS) (except : Val) : Prop := ∀ p ∈ s.attrs, p.2 ≠ except → ∀ f ∈ p.2.fields, f ∈ s.reg

theorem direct_fields {v : Val} (f : Nat) (h : Contributes v (.one (.field f))) : f ∈ v.fields := by
  cases v with
  | one i =>
    have : i = .field f := by
      have h' : Val.one (.field f) = .one i := h
      cases h'; rfl
    subst this
    simp [Val.fields, Item.fields]
  | many b k l =>
    rcases h with h | ⟨i, hi, h⟩
    · cases h
    · have : i = .field f := by cases h; rfl
      subst this
      exact List.mem_flatMap.mpr ⟨_, hi, by simp [Item.fields]⟩
  | const c => exact absurd h (fun h => h)

theorem addComps_reg (nm : Nat → Nat) (res : Nat → Bool) (cs : List Nat) : ∀ (s s' : FS) (ex : Val),
    addComps nm res s cs = (none, s') → Direct s → Vecs s ex → (Direct s' ∧ Vecs s' ex ∧ s.reg ⊆ s'.reg ∧ ∀ f ∈ cs, f ∈ s'.reg) := by
  induction cs with
  | nil =>
    intro s s' ex h hd hv
    unfold addComps at h
    have : s = s' := congrArg Prod.snd h
    subst this
    exact ⟨hd, hv, List.Subset.refl _, fun f hf => by simp at hf⟩
  | cons f rest ih =>
    intro s s' ex h hd hv
    unfold addComps at h
    split at h
    · rename_i hm
      obtain ⟨h1, h2, h3, h4⟩ := ih s s' ex h hd hv
      refine ⟨h1, h2, h3, fun g hg => ?_⟩
      rcases List.mem_cons.mp hg with rfl | hg
      · obtain ⟨p, hp, hc⟩ := mem_getFields.mp hm
        exact h3 (hd p hp g hc)
      · exact h4 g hg
    · split at h
      · rename_i s1 e
        rcases addField_cases nm res s (.one (.field f)) none with ⟨_, e2⟩ | ⟨n, hn, _, hh, ha, _, hr, hs⟩
        · rw [e] at e2; cases e2
        · rw [e] at ha hr hs
          simp only at ha hr hs
          obtain ⟨_, hs⟩ := hs trivial
          have hf : f ∈ s1.reg := hs f (by simp [Val.fields, Item.fields])
          have hd1 : Direct s1 := by
            intro p hp g hg
            rw [ha] at hp
            rcases mem_put hp with rfl | hp
            · have : g = f := by
                have h' : Val.one (.field g) = .one (.field f) := hg
                cases h'; rfl
              subst this; exact hf
            · exact hr (hd p hp g hg)
          have hv1 : Vecs s1 ex := by
            intro p hp hne g hg
            rw [ha] at hp
            rcases mem_put hp with rfl | hp
            · have : g = f := by simpa [stored, Val.fields, Item.fields] using hg
              subst this; exact hf
            · exact hr (hv p hp hne g hg)
          obtain ⟨h1, h2, h3, h4⟩ := ih s1 s' ex h hd1 hv1
          refine ⟨h1, h2, fun x hx => h3 (hr hx), fun g hg => ?_⟩
          rcases List.mem_cons.mp hg with rfl | hg
          · exact h3 hf
          · exact h4 g hg
      · cases h

/-- Everything that can be sampled is registered. -/
def Sound (s : FS) : Prop := ∀ p ∈ s.attrs, ∀ f ∈ p.2.fields, f ∈ s.reg

theorem addVector_sound {nm : Nat → Nat} {res : Nat → Bool} {s s' : FS} {n : Nat} {cs : List Nat} (hs : Sound s)
    (h : addVector nm res s (.one (.vector n cs)) = (none, s')) : Sound s' := by
  have h' : addComps nm res (setAttr s n (.one (.vector n cs))) cs = (none, s') := h
  have hd : Direct (setAttr s n (.one (.vector n cs))) := by
    intro p hp f hf
    rcases mem_put hp with rfl | hp
    · have h2 : Val.one (.field f) = .one (.vector n cs) := hf
      cases h2
    · exact hs p hp f (direct_fields f hf)
  have hv : Vecs (setAttr s n (.one (.vector n cs))) (.one (.vector n cs)) := by
    intro p hp hne f hf
    rcases mem_put hp with rfl | hp
    · exact absurd rfl hne
    · exact hs p hp f hf
  obtain ⟨_, h2, _, h4⟩ := addComps_reg nm res cs _ _ _ h' hd hv
  intro p hp f hf
  by_cases hne : p.2 = .one (.vector n cs)
  · rw [hne] at hf
    exact h4 f hf
  · exact h2 p hp hne f hf

theorem addVector_many_sound {nm : Nat → Nat} {res : Nat → Bool} {s s' : FS} {b : Bool} {n : Nat} {l : List Item} (hs : Sound s)
    (hl : ∀ f ∈ (Val.many b n l).fields, f ∈ s.reg) (h : addVector nm res s (.many b n l) = (none, s')) : Sound s' := by
  have h' : setAttr s n (.many b n l) = s' := congrArg Prod.snd h
  subst h'
  intro p hp f hf
  rcases mem_put hp with rfl | hp
  · exact hl f hf
  · exact hs p hp f hf

theorem fieldsOf_sub {l : List Item} : ∀ {fs : List Nat}, fieldsOf l = some fs → ∀ f ∈ fs, f ∈ l.flatMap Item.fields := by
  induction l with
  | nil =>
    intro fs h f hf
    have : fs = [] := (Option.some.inj h).symm
    subst this
    simp at hf
  | cons i rest ih =>
    intro fs h f hf
    cases i with
    | vector n cs => cases h
    | field g =>
      unfold fieldsOf at h
      cases hr : fieldsOf rest with
      | none => rw [hr] at h; cases h
      | some gs =>
        rw [hr] at h
        have : fs = g :: gs := (Option.some.inj h).symm
        subst this
        rw [List.flatMap_cons, List.mem_append]
        rcases List.mem_cons.mp hf with rfl | hf
        · exact .inl (by simp [Item.fields])
        · exact .inr (ih hr f hf)

/-- The vector field made of velocities reads only their Fields, and has the name that was asked for. -/
theorem combine_fields {sub : Nat → Nat → Nat} {n : Nat} {vels : List Val} {v : Val} (h : combine sub n vels = some v) :
    (∀ f ∈ v.fields, ∃ x ∈ vels, f ∈ x.fields) ∧ ((∃ cs, v = .one (.vector n cs)) ∨ ∃ b l, v = .many b n l) := by
  unfold combine at h
  split at h
  · rename_i a b
    have := (Option.some.inj h).symm
    subst this
    refine ⟨fun f hf => ?_, .inl ⟨_, rfl⟩⟩
    simp only [Val.fields, Item.fields, List.mem_cons, List.not_mem_nil, or_false] at hf
    rcases hf with rfl | rfl
    · exact ⟨.one (.field f), by simp, by simp [Val.fields, Item.fields]⟩
    · exact ⟨.one (.field f), by simp, by simp [Val.fields, Item.fields]⟩
  · rename_i a b c
    have := (Option.some.inj h).symm
    subst this
    refine ⟨fun f hf => ?_, .inl ⟨_, rfl⟩⟩
    simp only [Val.fields, Item.fields, List.mem_cons, List.not_mem_nil, or_false] at hf
    rcases hf with rfl | rfl | rfl <;> exact ⟨.one (.field f), by simp, by simp [Val.fields, Item.fields]⟩
  · rename_i b k lu b' k' lv
    split at h
    · rename_i us vs h1 h2
      have := (Option.some.inj h).symm
      subst this
      refine ⟨fun f hf => ?_, .inr ⟨_, _, rfl⟩⟩
      simp only [Val.fields, List.mem_flatMap, List.mem_map] at hf
      obtain ⟨i, ⟨p, hp, rfl⟩, hf⟩ := hf
      obtain ⟨⟨pu, pv⟩, pi⟩ := p
      have hz := (List.mem_zipIdx' hp).2
      have hz' : (pu, pv) ∈ us.zip vs := by rw [hz]; exact List.getElem_mem _
      obtain ⟨hu, hv⟩ := List.of_mem_zip hz'
      simp only [Item.fields, List.mem_cons, List.not_mem_nil, or_false] at hf
      rcases hf with rfl | rfl
      · exact ⟨.many b k lu, by simp, fieldsOf_sub h1 f hu⟩
      · exact ⟨.many b' k' lv, by simp, fieldsOf_sub h2 f hv⟩
    · cases h
  · rename_i b k lu b' k' lv b'' k'' lw
    split at h
    · rename_i us vs ws h1 h2 h3
      have := (Option.some.inj h).symm
      subst this
      refine ⟨fun f hf => ?_, .inr ⟨_, _, rfl⟩⟩
      simp only [Val.fields, List.mem_flatMap, List.mem_map] at hf
      obtain ⟨i, ⟨p, hp, rfl⟩, hf⟩ := hf
      obtain ⟨⟨pu, pv, pw⟩, pi⟩ := p
      have hz := (List.mem_zipIdx' hp).2
      have hz' : (pu, pv, pw) ∈ us.zip (vs.zip ws) := by rw [hz]; exact List.getElem_mem _
      obtain ⟨hu, hvw⟩ := List.of_mem_zip hz'
      obtain ⟨hv, hw⟩ := List.of_mem_zip hvw
      simp only [Item.fields, List.mem_cons, List.not_mem_nil, or_false] at hf
      rcases hf with rfl | rfl | rfl
      · exact ⟨.many b k lu, by simp, fieldsOf_sub h1 f hu⟩
      · exact ⟨.many b' k' lv, by simp, fieldsOf_sub h2 f hv⟩
      · exact ⟨.many b'' k'' lw, by simp, fieldsOf_sub h3 f hw⟩
    · cases h
  · cases h

theorem ensureVector_sound {nm : Nat → Nat} {res : Nat → Bool} {sub : Nat → Nat → Nat} {s s' : FS} {n : Nat} {vels : List Val}
    (hs : Sound s) (hv : ∀ x ∈ vels, ∀ f ∈ x.fields, f ∈ s.reg) (h : ensureVector nm res sub s n vels = some s') : Sound s' := by
  unfold ensureVector at h
  split at h
  · rw [← Option.some.inj h]; exact hs
  · split at h
    · cases h
    · rename_i v hc
      obtain ⟨hf, hk⟩ := combine_fields hc
      split at h
      · rename_i s1 e
        rw [← Option.some.inj h]
        rcases hk with ⟨cs, rfl⟩ | ⟨b, l, rfl⟩
        · exact addVector_sound hs e
        · exact addVector_many_sound hs (fun f hff => by obtain ⟨x, hx, hfx⟩ := hf f hff; exact hv x hx f hfx) e
      · cases h

theorem addVector_keeps {nm : Nat → Nat} {res : Nat → Bool} {s : FS} {v : Val} {n : Nat} {x : Val} (hn : v.name nm ≠ some n)
    (h : lookup s n = some x) : lookup (addVector nm res s v).2 n = some x := by
  unfold addVector
  split
  · exact h
  · rename_i m hm
    have hne : n ≠ m := fun c => hn (by rw [hm, c])
    have h2 : lookup (setAttr s m v) n = some x := by rw [lookup_set_other _ _ hne]; exact h
    split
    · exact addComps_keeps nm res _ _ h2
    · exact h2

theorem ensureVector_keeps {nm : Nat → Nat} {res : Nat → Bool} {sub : Nat → Nat → Nat} {s s' : FS} {m : Nat} {vels : List Val} {n : Nat} {x : Val}
    (h : lookup s n = some x) (he : ensureVector nm res sub s m vels = some s') : lookup s' n = some x := by
  unfold ensureVector at he
  split at he
  · rw [← Option.some.inj he]; exact h
  · rename_i hh
    split at he
    · cases he
    · rename_i v hc
      have hne : n ≠ m := by
        rintro rfl
        apply hh
        unfold has
        rw [h]
        simp
      have hname : v.name nm = some m := by
        rcases (combine_fields hc).2 with ⟨cs, rfl⟩ | ⟨b, l, rfl⟩ <;> rfl
      split at he
      · rename_i s1 e
        rw [← Option.some.inj he]
        have := addVector_keeps (nm := nm) (res := res) (s := s) (v := v) (n := n) (x := x) (by rw [hname]; exact fun c => hne (Option.some.inj c).symm) h
        rw [e] at this
        exact this
      · cases he

theorem ensureVector_reg {nm : Nat → Nat} {res : Nat → Bool} {sub : Nat → Nat → Nat} {s s' : FS} {m : Nat} {vels : List Val}
    (hs : Sound s) (he : ensureVector nm res sub s m vels = some s') : s.reg ⊆ s'.reg := by
  unfold ensureVector at he
  split at he
  · rw [← Option.some.inj he]; exact List.Subset.refl _
  · split at he
    · cases he
    · rename_i v hc
      split at he
      · rename_i s1 e
        rw [← Option.some.inj he]
        rcases (combine_fields hc).2 with ⟨cs, rfl⟩ | ⟨b, l, rfl⟩
        · have h' : addComps nm res (setAttr s m (.one (.vector m cs))) cs = (none, s1) := e
          have hd : Direct (setAttr s m (.one (.vector m cs))) := by
            intro p hp f hf
            rcases mem_put hp with rfl | hp
            · have h2 : Val.one (.field f) = .one (.vector m cs) := hf
              cases h2
            · exact hs p hp f (direct_fields f hf)
          have hv : Vecs (setAttr s m (.one (.vector m cs))) (.one (.vector m cs)) := by
            intro p hp hne f hf
            rcases mem_put hp with rfl | hp
            · exact absurd rfl hne
            · exact hs p hp f hf
          exact (addComps_reg nm res cs _ _ _ h' hd hv).2.2.1
        · have h' : setAttr s m (.many b m l) = s1 := congrArg Prod.snd e
          rw [← h']
          exact List.Subset.refl _
      · cases he

theorem complete_cases {e : Env} {s s' : FS} (h : complete e.nm e.res e.sub e.k s = some s') :
    ∃ u v s1, lookup s e.k.u = some u ∧ lookup s e.k.v = some v ∧ (∀ n f, (n, Val.one (.field f)) ∈ s.attrs → e.nm f = n) ∧
      ensureVector e.nm e.res e.sub s e.k.uv [u, v] = some s1 ∧
      ((lookup s1 e.k.w = none ∧ s' = { s1 with completed := true }) ∨
       ∃ w s2, lookup s1 e.k.w = some w ∧ ensureVector e.nm e.res e.sub s1 e.k.uvw [u, v, w] = some s2 ∧ s' = { s2 with completed := true }) := by
  unfold complete at h
  split at h
  · rename_i u v hu hv
    split at h
    · rename_i hall
      split at h
      · cases h
      · rename_i s1 h1
        refine ⟨u, v, s1, hu, hv, ?_, h1, ?_⟩
        · intro n f hm
          have := List.all_eq_true.mp hall _ hm
          simpa using this
        · split at h
          · rename_i hw
            exact .inl ⟨hw, (Option.some.inj h).symm⟩
          · rename_i w hw
            cases h2 : ensureVector e.nm e.res e.sub s1 e.k.uvw [u, v, w] with
            | none => rw [h2] at h; cases h
            | some s2 =>
              rw [h2] at h
              exact .inr ⟨w, s2, hw, h2, (Option.some.inj h).symm⟩
    · cases h
  · cases h

theorem complete_sound {e : Env} {s s' : FS} (hs : Sound s) (h : complete e.nm e.res e.sub e.k s = some s') : Sound s' := by
  obtain ⟨u, v, s1, hu, hv, _, h1, h2⟩ := complete_cases h
  have r1 : ∀ x ∈ [u, v], ∀ f ∈ x.fields, f ∈ s.reg := by
    intro x hx f hf
    simp only [List.mem_cons, List.not_mem_nil, or_false] at hx
    rcases hx with rfl | rfl
    · exact hs _ (mem_of_lookup hu) f hf
    · exact hs _ (mem_of_lookup hv) f hf
  have q1 := ensureVector_sound hs r1 h1
  have q2 := ensureVector_reg hs h1
  rcases h2 with ⟨_, rfl⟩ | ⟨w, s2, hw, h2, rfl⟩
  · exact q1
  · have r2 : ∀ x ∈ [u, v, w], ∀ f ∈ x.fields, f ∈ s1.reg := by
      intro x hx f hf
      simp only [List.mem_cons, List.not_mem_nil, or_false] at hx
      rcases hx with rfl | rfl | rfl
      · exact q2 (r1 x (by simp) f hf)
      · exact q2 (r1 x (by simp) f hf)
      · exact q1 _ (mem_of_lookup hw) f hf
    have q3 := ensureVector_sound q1 r2 h2
    exact q3

theorem complete_keeps {e : Env} {s s' : FS} {n : Nat} {x : Val} (hx : lookup s n = some x)
    (h : complete e.nm e.res e.sub e.k s = some s') : lookup s' n = some x := by
  obtain ⟨u, v, s1, hu, hv, _, h1, h2⟩ := complete_cases h
  have q1 := ensureVector_keeps hx h1
  rcases h2 with ⟨_, rfl⟩ | ⟨w, s2, hw, h2, rfl⟩
  · exact q1
  · have q3 := ensureVector_keeps q1 h2
    exact q3

theorem step_sound {e : Env} {s : FS} {op : Op} (hs : Sound s) (hm : Meant e s op) : Sound (step e s op) := by
  cases op with
  | addField v name =>
    simp only [step]
    rcases addField_cases e.nm e.res s v name with ⟨e1, _⟩ | ⟨n, _, _, _, ha, _, hr, hsc⟩
    · rw [e1]; exact hs
    · obtain ⟨_, h2⟩ := hsc hm
      intro p hp f hf
      rw [ha] at hp
      rcases mem_put hp with rfl | hp
      · apply h2
        cases v with
        | one i => exact hf
        | many b k l => exact hf
        | const c => exact hf
      · exact hr (hs p hp f hf)
  | addVector v =>
    obtain ⟨⟨n, cs, rfl⟩, hr⟩ := hm
    simp only [step]
    apply addVector_sound (nm := e.nm) (res := e.res) (n := n) (cs := cs) hs
    have : (addVector e.nm e.res s (.one (.vector n cs))).1 = none := by
      simpa [raises] using hr
    exact Prod.ext this rfl
  | addConstant n c =>
    intro p hp f hf
    rcases mem_put hp with rfl | hp
    · simp [Val.fields] at hf
    · exact hs p hp f hf
  | complete =>
    simp only [step]
    cases hc : complete e.nm e.res e.sub e.k s with
    | none => exact hs
    | some s' => exact complete_sound hs hc

theorem run_sound {e : Env} (ops : List Op) : ∀ s : FS, Sound s → AllMeant e s ops → Sound (run e s ops) := by
  induction ops with
  | nil => intro s h _; exact h
  | cons op rest ih => intro s h hm; exact ih _ (step_sound h hm.1) hm.2

theorem step_keeps {e : Env} {s : FS} {op : Op} {n : Nat} {x : Val} (hx : lookup s n = some x) (ho : ¬ Overwrites e n op) :
    lookup (step e s op) n = some x := by
  cases op with
  | addField v name => exact addField_keeps _ _ _ _ _ hx
  | addVector v => exact addVector_keeps ho hx
  | addConstant m c =>
    have : n ≠ m := fun h => ho h.symm
    simp only [step, addConstant]
    rw [lookup_set_other _ _ this]
    exact hx
  | complete =>
    simp only [step]
    cases hc : complete e.nm e.res e.sub e.k s with
    | none => exact hx
    | some s' => exact complete_keeps hx hc

theorem run_keeps {e : Env} {n : Nat} {x : Val} (ops : List Op) : ∀ s : FS, lookup s n = some x → (∀ op ∈ ops, ¬ Overwrites e n op) →
    lookup (run e s ops) n = some x := by
  induction ops with
  | nil => intro s h _; exact h
  | cons op rest ih =>
    intro s h ho
    exact ih _ (step_keeps h (ho op List.mem_cons_self)) (fun o h' => ho o (List.mem_cons_of_mem _ h'))

end Parcels.Namespace
