import Verif.Model.FieldLists
import Verif.Props.Interp

/-!
C34, C35: nested and summed fields.
-/

namespace Parcels.FieldLists
open Parcels.Search Parcels.TimeInterp Parcels.Interp

variable {V F : Type}

/-- `o` is the outcome of the first field of the list that is not out of bounds at the position. -/
def FirstCovering (os : List (Except SErr V)) (o : Except SErr V) : Prop :=
  ∃ before after, os = before ++ o :: after ∧ (∀ b ∈ before, b = .error oob) ∧ o ≠ .error oob

/-- A list of outcomes has a first covering field, or all are out of bounds: the two cases below are all cases. -/
theorem covered_or_not (os : List (Except SErr V)) :
    (∃ o, FirstCovering os o) ∨ (∀ o ∈ os, o = .error oob) := by
  induction os with
  | nil => right; simp
  | cons a as ih =>
    by_cases h : a = .error oob
    · rcases ih with ⟨o, b, c, e, h1, h2⟩ | h'
      · left
        exact ⟨o, a :: b, c, by simp [e], by simp [h]; exact h1, h2⟩
      · right; simpa [h] using h'
    · left; exact ⟨a, [], as, rfl, by simp, h⟩

theorem nested_skip (before : List (Except SErr V)) (hb : ∀ b ∈ before, b = .error oob) (o : Except SErr V)
    (after : List (Except SErr V)) : nested (before ++ o :: after) = nested (o :: after) := by
  induction before with
  | nil => rfl
  | cons b bs ih =>
    have e := hb b (by simp)
    have ih := ih (fun c hc => hb c (by simp [hc]))
    subst e
    cases bs with
    | nil => simp [nested, caught, oob]
    | cons c cs => rw [← ih]; simp [nested, caught, oob]

/-- C34 (Scipy), where the deciding field does not fail with an interpolation error (a NaN value, say): the outcome is
that of the first field that is not out of bounds; only if all are out of bounds is the error out-of-bounds. Missing:
interpolation errors, see `C34_scipy_sampling_error`. -/
theorem C34_scipy_partial (os : List (Except SErr V)) :
    (∀ o, FirstCovering os o → o ≠ .error (.space .sampling) → nested os = o) ∧
    (os ≠ [] → (∀ o ∈ os, o = .error oob) → nested os = .error oob) := by
  constructor
  · rintro o ⟨before, after, rfl, hb, ho⟩ hs
    rw [nested_skip before hb]
    cases o with
    | ok v => cases after <;> rfl
    | error e =>
      have : caught e = false := by
        simp only [oob, ne_eq, Except.error.injEq] at ho hs
        simp [caught, ho, hs]
      cases after with
      | nil => rfl
      | cons a as => simp [nested, this]
  · intro hne hall
    induction os with
    | nil => exact absurd rfl hne
    | cons a as ih =>
      have ha := hall a (by simp)
      subst ha
      cases as with
      | nil => rfl
      | cons b bs =>
        have := ih (by simp) (fun o ho => hall o (by simp [ho]))
        simpa [nested, caught, oob] using this

example : FirstCovering [.error oob, .ok 3, .ok (4 : ℚ)] (.ok 3) ∧
    nested [.error oob, .ok 3, .ok (4 : ℚ)] = .ok 3 :=
  ⟨⟨[.error oob], [.ok 4], rfl, by simp, by simp⟩, rfl⟩
example : nested [.error oob, .error (.space .throughSurface), .ok (4 : ℚ)] = .error (.space .throughSurface) := rfl
example : nested [.error oob, (.error oob : Except SErr ℚ)] = .error oob := rfl

/-- C34 fails in Scipy mode for a field that covers the position but fails with an interpolation error: the error is not
passed on, the next field decides. -/
theorem C34_scipy_sampling_error (o : Except SErr V) :
    FirstCovering [.error (.space .sampling), o] (.error (.space .sampling)) ∧
    nested [.error (.space .sampling), o] = o := by
  refine ⟨⟨[], [o], rfl, by simp, by simp [oob]⟩, ?_⟩
  cases o <;> rfl

/-- The outcome of a field in C, with the conversion of units. -/
def CField.value (f : CField V) : Except SErr V := f.out.map f.conv

theorem cNested_skip (before : List (CField V)) (hb : ∀ b ∈ before, b.value = .error oob) (rest : List (CField V)) :
    ∀ (err : Option SErr) (var : V), (before ≠ [] ∨ err = some oob) →
      ∃ var', cNested (before ++ rest) err var = cNested rest (some oob) var' := by
  induction before with
  | nil => rintro err var (h | rfl); exact absurd rfl h; exact ⟨var, rfl⟩
  | cons b bs ih =>
    intro err var _
    have e := hb b (by simp)
    have e1 : b.out = .error oob := by
      unfold CField.value at e
      cases h : b.out with
      | ok v => simp [h, Except.map] at e
      | error x => simpa [h, Except.map] using e
    obtain ⟨var', hv⟩ := ih (fun c hc => hb c (by simp [hc])) (some oob) (b.conv var) (Or.inr rfl)
    refine ⟨var', ?_⟩
    rw [← hv]
    simp [cNested, CField.run, e1]

/-- C34 (JIT): for every list of fields, whatever the temporary holds before: the first field that is not out of bounds
decides, with its value or its error; only if all are out of bounds is the error out-of-bounds. -/
theorem C34_jit (fs : List (CField V)) (hne : fs ≠ []) (err : Option SErr) (var : V) :
    (∀ o, FirstCovering (fs.map CField.value) o → cNested fs err var = o) ∧
    ((∀ f ∈ fs, f.value = .error oob) → cNested fs err var = .error oob) := by
  constructor
  · rintro o ⟨before, after, he, hb, ho⟩
    obtain ⟨b', r', rfl, hb', hr'⟩ := List.map_eq_append_iff.1 he
    obtain ⟨f, a', rfl, hf, ha'⟩ := List.map_eq_cons_iff.1 hr'
    have hbv : ∀ b ∈ b', b.value = .error oob := fun b h => hb _ (hb' ▸ List.mem_map_of_mem h)
    have key : ∀ err var, cNested (f :: a') err var = o := by
      intro err var
      subst hf
      unfold CField.value at ho ⊢
      cases h : f.out with
      | ok v => simp [cNested, CField.run, h, checkStatus, Except.map]
      | error e =>
        have : e ≠ oob := by intro hh; exact ho (by simp [h, hh, Except.map])
        simp [cNested, CField.run, h, checkStatus, Except.map, this]
    by_cases hn : b' = []
    · subst hn; exact key err var
    · obtain ⟨v', hv⟩ := cNested_skip b' hbv (f :: a') err var (Or.inl hn)
      rw [hv]; exact key _ _
  · intro hall
    obtain ⟨v', hv⟩ := cNested_skip fs hall [] err var (Or.inl hne)
    rw [List.append_nil] at hv
    rw [hv]; rfl

example : cNested [⟨.error oob, (· * 2)⟩, ⟨.ok 3, (· * 2)⟩, ⟨.ok 4, id⟩] none (17 : ℚ) = .ok 6 ∧
    FirstCovering ([⟨.error oob, (· * 2)⟩, ⟨.ok 3, (· * 2)⟩, ⟨.ok 4, id⟩].map CField.value) (.ok (6 : ℚ)) :=
  ⟨by decide +kernel, [.error oob], [.ok 4], by
    simp only [List.map, CField.value, Except.map, List.cons_append, List.nil_append, id]; norm_num, by simp, by simp⟩

/-! C34 for fields on rectilinear grids: "covers the position" in terms of the grids. -/

/-- A horizontal scalar field. -/
structure FlatField where
  g : RGrid
  d : Arr
  flat : FlatGrid g
  twoD : g.depth.length ≤ 1

/-- The position lies in the field's horizontal range. -/
def FlatField.covers (f : FlatField) (x y : ℚ) : Prop := InRange f.g.lon x ∧ InRange f.g.lat y

/-- Sampling one field in Scipy mode (one snapshot, no conversion). `none` does not occur for linear interpolation. -/
def FlatField.sample (f : FlatField) (x y z : ℚ) : Except SErr ℚ :=
  match Interp.sample f.g .nemo .linear f.d x y z with
  | .ok (some v) => .ok v
  | .ok none => .error (.space .index)
  | .error e => .error (.space e)

/-- C34 (Scipy, fields on grids): a nested field gives the bilinear interpolation of the first field in the list whose
grid covers the position, and out-of-bounds if none does. -/
theorem C34_scipy_on_grids (fs : List FlatField) (hne : fs ≠ []) (x y z : ℚ) :
    (∀ before f after n m r s, fs = before ++ f :: after → (∀ b ∈ before, ¬ b.covers x y) →
      Locates f.g.lon x (n : Nat) r → Locates f.g.lat y (m : Nat) s →
      nested (fs.map fun f => f.sample x y z) = .ok (bilinearAt f.d 0 m n s r)) ∧
    ((∀ f ∈ fs, ¬ f.covers x y) → nested (fs.map fun f => f.sample x y z) = .error oob) := by
  have hout : ∀ f : FlatField, ¬ f.covers x y → f.sample x y z = .error oob := by
    intro f hf
    have := (C24_scipy f.g f.flat f.twoD x y z).2 hf
    simp [FlatField.sample, Interp.sample, this, oob]
  constructor
  · intro before f after n m r s he hb hx hy
    subst he
    have e : f.sample x y z = .ok (bilinearAt f.d 0 m n s r) := by
      rw [FlatField.sample, C29_scipy_2D f.g f.flat f.twoD .nemo f.d x y z n m r s hx hy]
    refine (C34_scipy_partial _).1 _ ⟨before.map fun f => f.sample x y z, after.map fun f => f.sample x y z, ?_, ?_, ?_⟩ ?_
    · simp [e]
    · intro b hb'
      obtain ⟨b', h1, rfl⟩ := List.mem_map.1 hb'
      exact hout b' (hb b' h1)
    · simp
    · simp
  · intro h
    refine (C34_scipy_partial _).2 (by simpa using hne) ?_
    intro o ho
    obtain ⟨f, h1, rfl⟩ := List.mem_map.1 ho
    exact hout f (h f h1)

/-! ### Summed fields (C35) -/

/-- C35 (Scipy): if all fields can be sampled the value is the sum, otherwise the error of the first field that fails. -/
theorem C35_scipy [AddCommMonoid V] (os : List (Except SErr V)) :
    (∀ vs : List V, os = vs.map .ok → summed os = .ok vs.sum) ∧
    (∀ (before : List V) e after, os = before.map .ok ++ .error e :: after → summed os = .error e) := by
  constructor
  · rintro vs rfl
    induction vs with
    | nil => rfl
    | cons v vs ih => simp [summed, ih]
  · rintro before e after rfl
    induction before with
    | nil => rfl
    | cons v vs ih => simp [summed, ih]

example : summed [.ok 1, .ok 2, .ok (4 : ℚ)] = .ok 7 := by decide +kernel
example : summed [.ok 1, .error oob, .ok (4 : ℚ)] = .error oob := rfl

/-- C35 (JIT, scalar fields): the same, with the units of each field converted, whatever the temporaries hold before. -/
theorem C35_jit_scalar [AddCommMonoid V] (fs : List (CField V × V)) :
    (∀ vs : List V, fs.map (fun f => f.1.value) = vs.map .ok → cSummed fs = .ok vs.sum) ∧
    (∀ (before : List V) e after, fs.map (fun f => f.1.value) = before.map .ok ++ .error e :: after → cSummed fs = .error e) := by
  induction fs with
  | nil =>
    constructor
    · intro vs h
      cases vs with
      | nil => rfl
      | cons v vs => simp at h
    · intro before e after h
      cases before <;> simp at h
  | cons f fs ih =>
    obtain ⟨⟨out, conv⟩, old⟩ := f
    cases out with
    | ok v =>
      constructor
      · intro vs h
        cases vs with
        | nil => simp at h
        | cons w vs =>
          simp only [List.map_cons, CField.value, Except.map, List.cons.injEq, Except.ok.injEq] at h
          simp [cSummed, CField.run, checkStatus, ih.1 vs h.2, h.1]
      · intro before e after h
        cases before with
        | nil => simp [CField.value, Except.map] at h
        | cons w vs =>
          simp only [List.map_cons, CField.value, Except.map, List.cons_append, List.cons.injEq, Except.ok.injEq] at h
          simp [cSummed, CField.run, checkStatus, ih.2 vs e after h.2]
    | error x =>
      constructor
      · intro vs h
        cases vs with
        | nil => simp at h
        | cons w vs => simp [CField.value, Except.map] at h
      · intro before e after h
        cases before with
        | nil =>
          simp only [List.map_cons, CField.value, Except.map, List.map_nil, List.nil_append, List.cons.injEq,
            Except.error.injEq] at h
          simp [cSummed, CField.run, checkStatus, h.1]
        | cons w vs => simp [CField.value, Except.map] at h

example : cSummed [(⟨.ok 1, (· * 10)⟩, 99), (⟨.ok 2, id⟩, 98)] = (.ok 12 : Except SErr ℚ) := by decide +kernel

theorem cSummedVec_ok [AddCommMonoid V] (fs : List (CField V × V)) (vs : List V)
    (h : fs.map (fun f => f.1.value) = vs.map .ok) :
    ∀ (err : Option SErr) (acc : V), err = none → cSummedVec fs err acc = .ok (acc + vs.sum) := by
  induction fs generalizing vs with
  | nil =>
    intro err acc he
    cases vs with
    | nil => simp [cSummedVec, he, checkStatus]
    | cons v vs => simp at h
  | cons f fs ih =>
    intro err acc _
    obtain ⟨⟨out, conv⟩, old⟩ := f
    cases vs with
    | nil => simp at h
    | cons w vs =>
      cases out with
      | error x => simp [CField.value, Except.map] at h
      | ok v =>
        simp only [List.map_cons, CField.value, Except.map, List.cons.injEq, Except.ok.injEq] at h
        rw [cSummedVec]
        simp only [CField.run]
        rw [ih vs h.2 none _ rfl, h.1, List.sum_cons, add_assoc]

/-- C35 (JIT, vector fields), when all fields can be sampled: the value is the sum. Missing: errors, see
`C35_jit_vector_swallows`. -/
theorem C35_jit_vector_partial [AddCommMonoid V] (fs : List (CField V × V)) (vs : List V)
    (h : fs.map (fun f => f.1.value) = vs.map .ok) : cSummedVec fs none 0 = .ok vs.sum := by
  rw [cSummedVec_ok fs vs h none 0 rfl, zero_add]

/-- C35 fails for summed vector fields in JIT mode: whenever the last field can be sampled, the sample "succeeds" even
if every other field fails; the failing fields contribute whatever their temporaries held before. -/
theorem C35_jit_vector_swallows [AddCommMonoid V] (fs : List (CField V × V)) (last : CField V) (old v : V)
    (hlast : last.out = .ok v) : ∃ w, cSummedVec (fs ++ [(last, old)]) none 0 = .ok w := by
  suffices H : ∀ (err : Option SErr) (acc : V), ∃ w, cSummedVec (fs ++ [(last, old)]) err acc = .ok w from H none 0
  induction fs with
  | nil => intro err acc; exact ⟨acc + last.conv v, by simp [cSummedVec, CField.run, hlast, checkStatus]⟩
  | cons f fs ih => intro err acc; simp only [List.cons_append, cSummedVec]; exact ih _ _

example : cSummedVec [(⟨.error oob, id⟩, 99), (⟨.ok 2, id⟩, 98)] none 0 = (.ok 101 : Except SErr ℚ) := by decide +kernel

/-! The `+` operator. -/

/-- The fields an operand stands for. -/
def content (h : Heap F) : Operand F → List F
  | .field f => [f]
  | .summed r => h.cont r

theorem appendLoop_other (s t : Nat) (hst : s ≠ t) :
    ∀ (rest done : List F) (fuel : Nat) (h : Heap F), h.cont t = done ++ rest → rest.length < fuel →
      ∃ h', appendLoop s t fuel h done.length = some h' ∧ h'.cont s = h.cont s ++ rest ∧
        ∀ r, r ≠ s → h'.cont r = h.cont r := by
  intro rest
  induction rest with
  | nil =>
    intro done fuel h ht hf
    obtain ⟨n, rfl⟩ : ∃ n, fuel = n + 1 := ⟨fuel - 1, by simp at hf; omega⟩
    exact ⟨h, by simp [appendLoop, ht], by simp, fun _ _ => rfl⟩
  | cons f rest ih =>
    intro done fuel h ht hf
    obtain ⟨n, rfl⟩ : ∃ n, fuel = n + 1 := ⟨fuel - 1, by simp at hf; omega⟩
    obtain ⟨h', e1, e2, e3⟩ := ih (done ++ [f]) n (h.set s (h.cont s ++ [f]))
      (by simp [Heap.set, Function.update_of_ne hst.symm, ht]) (by simp at hf; omega)
    refine ⟨h', ?_, ?_, ?_⟩
    · rw [appendLoop]
      simp only [ht, List.getElem?_append_right (le_refl _), Nat.sub_self, List.getElem?_cons_zero]
      simpa using e1
    · rw [e2]; simp [Heap.set]
    · intro r hr; rw [e3 r hr]; simp [Heap.set, Function.update_of_ne hr]

/-- C35 (`+`), what holds: unless a summed field is added to itself, `a + b` ends, stands for the fields of `a` followed
by those of `b`, and changes no summed field but its operands. Missing: that it leaves the operands alone, see
`C35_add_changes_operand`. -/
theorem C35_add_partial (h : Heap F) (a b : Operand F) (hab : ∀ r t, a = .summed r → b = .summed t → r ≠ t)
    (fuel : Nat) (hf : (content h b).length < fuel) :
    ∃ h' r, plus fuel h a b = some (h', r) ∧ h'.cont r = content h a ++ content h b ∧
      ∀ t, t < h.next → a ≠ .summed t → b ≠ .summed t → h'.cont t = h.cont t := by
  cases a with
  | field f =>
    cases b with
    | field g =>
      refine ⟨_, _, rfl, by simp [Heap.set, content], ?_⟩
      intro t ht _ _
      simp [Heap.set, Function.update_of_ne (Nat.ne_of_lt ht)]
    | summed r =>
      refine ⟨_, _, rfl, by simp [Heap.set, content], ?_⟩
      intro t _ _ hb
      have : t ≠ r := by rintro rfl; exact hb rfl
      simp [Heap.set, Function.update_of_ne this]
  | summed r =>
    cases b with
    | field g =>
      refine ⟨_, _, rfl, by simp [Heap.set, content], ?_⟩
      intro t _ ha _
      have : t ≠ r := by rintro rfl; exact ha rfl
      simp [Heap.set, Function.update_of_ne this]
    | summed t =>
      obtain ⟨h', e1, e2, e3⟩ := appendLoop_other r t (hab r t rfl rfl) (h.cont t) [] fuel h rfl hf
      refine ⟨h', r, ?_, e2, ?_⟩
      · simp only [List.length_nil] at e1; simp [plus, e1]
      · intro u _ ha _
        exact e3 u (by rintro rfl; exact ha rfl)

example : ∃ h' r, plus 10 ⟨fun n => if n = 0 then ["U", "V"] else ["W"], 2⟩ (.summed 0) (.summed 1) = some (h', r) ∧
    h'.cont r = ["U", "V", "W"] :=
  ⟨_, _, rfl, by decide⟩

/-- C35 fails for `+`: `s + f` is `s` itself, with `f` appended, for every summed field; so a field set that holds `s`
is changed. Likewise `f + s`. -/
theorem C35_add_changes_operand (fuel : Nat) (h : Heap F) (s : Nat) (f : F) :
    (∃ h', plus fuel h (.summed s) (.field f) = some (h', s) ∧ h'.cont s ≠ h.cont s) ∧
    (∃ h', plus fuel h (.field f) (.summed s) = some (h', s) ∧ h'.cont s ≠ h.cont s) := by
  refine ⟨⟨_, rfl, ?_⟩, ⟨_, rfl, ?_⟩⟩ <;> simp [Heap.set]

/-- C35: adding a non-empty summed field to itself never ends: the list grows while it is iterated over. -/
theorem C35_add_to_itself (h : Heap F) (s : Nat) (hs : h.cont s ≠ []) (fuel : Nat) :
    plus fuel h (.summed s) (.summed s) = none := by
  suffices H : ∀ (fuel i : Nat) (h : Heap F), i < (h.cont s).length → appendLoop s s fuel h i = none by
    simp [plus, H fuel 0 h (List.length_pos_iff.2 hs)]
  intro fuel
  induction fuel with
  | zero => intros; rfl
  | succ n ih =>
    intro i h hi
    rw [appendLoop, List.getElem?_eq_getElem hi]
    exact ih _ _ (by simp [Heap.set]; omega)

end Parcels.FieldLists
