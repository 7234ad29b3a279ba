import Verif.Spec.Libs

namespace Parcels.Libs
open Spec

variable {ours : Key → Prop}

/-- The invariant without assumptions on failures. -/
structure Inv (ours : Key → Prop) (s : State) : Prop where
  live : ∀ k kern, s.kernels k = some kern → k < s.count
  keyOurs : ∀ k kern, s.kernels k = some kern → ours kern.key ∧ kern.key.time ≤ s.clock
  keyName : ∀ k kern, s.kernels k = some kern → kern.key.name = kern.name
  keyInj : ∀ k k' kern kern', s.kernels k = some kern → s.kernels k' = some kern' → kern.key = kern'.key → k = k'
  below : ∀ l ∈ s.libs, l.handle < s.next
  uniq : ∀ l ∈ s.libs, ∀ l' ∈ s.libs, l.handle = l'.handle → l = l'
  owner : ∀ l ∈ s.libs, l.refs = 1 ∧ ∃ k kern, s.kernels k = some kern ∧ kern.lib = some l.handle ∧ kern.key = l.key ∧ kern.code = l.code
  loaded : ∀ k kern h, s.kernels k = some kern → kern.lib = some h → ∃ l ∈ s.libs, l.handle = h ∧ l.key = kern.key ∧ l.code = kern.code
  same : ∀ k kern, s.kernels k = some kern → kern.cleanLib = kern.lib
  fnLib : ∀ k kern h, s.kernels k = some kern → kern.lib = some h → kern.fn = some h
  stale : ∀ k kern h, s.kernels k = some kern → kern.lib = none → kern.fn = some h → h < s.next ∧ ∀ l ∈ s.libs, l.handle ≠ h
  filesAt : ∀ k kern c, s.kernels k = some kern → kern.cleanFiles = some c → c = kern.key ∧ ∀ kind, s.fs kern.key kind = some kern.code
  noLib : ∀ k kern, s.kernels k = some kern → kern.cleanFiles = none → s.fs kern.key .lib = none
  libFiles : ∀ k kern h, s.kernels k = some kern → kern.lib = some h → kern.cleanFiles ≠ none
  future : ∀ key, ours key → s.clock < key.time → ∀ kind, s.fs key kind = none
  noDouble : s.double = false

/-- Fresh kernel indices. -/
theorem find_handle {s : State} (hu : ∀ l ∈ s.libs, ∀ l' ∈ s.libs, l.handle = l'.handle → l = l') {l : Lib} (hl : l ∈ s.libs) :
    s.libs.find? (fun x => x.handle = l.handle) = some l := by
  cases h : s.libs.find? (fun x => x.handle = l.handle) with
  | none =>
    rw [List.find?_eq_none] at h
    exact absurd (by simp) (h l hl)
  | some x =>
    have h1 := List.find?_some h
    have h2 := List.mem_of_find?_eq_some h
    simp only [decide_eq_true_eq] at h1
    rw [hu x h2 l hl h1]

/-- Removing all three files when they exist. -/
theorem rmAll_eq (fs : FS) (key : Key) (h : ∀ kind, (fs key kind).isSome) :
    rmAll fs key = (Function.update fs key (fun _ => none), true) := by
  have e1 : rm fs key .src = some (Function.update fs key (Function.update (fs key) .src none)) := by rw [rm, if_pos (h _)]
  have e2 : rm (Function.update fs key (Function.update (fs key) .src none)) key .lib
      = some (Function.update fs key (Function.update (Function.update (fs key) .src none) .lib none)) := by
    rw [rm, if_pos (by simp [h])]; simp
  have e3 : rm (Function.update fs key (Function.update (Function.update (fs key) .src none) .lib none)) key .log
      = some (Function.update fs key (Function.update (Function.update (Function.update (fs key) .src none) .lib none) .log none)) := by
    rw [rm, if_pos (by simp [h])]; simp
  simp only [rmAll, e1, e2, e3]
  congr 2
  funext k
  cases k <;> simp

/-- Closing the library of a kernel. -/
theorem dlclose_eq {s : State} (hi : Inv ours s) {k : Nat} {kern : Kern} {h : Nat} (hk : s.kernels k = some kern) (hl : kern.lib = some h) :
    dlclose s h = { s with libs := s.libs.filter fun x => x.handle ≠ h } := by
  obtain ⟨l, hm, rfl, -, -⟩ := hi.loaded k kern h hk hl
  rw [dlclose, find_handle hi.uniq hm]
  dsimp only
  rw [if_pos (by rw [(hi.owner l hm).1])]

/-- The state after `remove_lib`. -/
def afterRemove (s : State) (k : Nat) (kern : Kern) (t : Int) : State × Kern :=
  let libs := s.libs.filter fun x => kern.lib ≠ some x.handle
  match kern.cleanFiles with
  | some _ =>
    let kern' := { kern with lib := none, cleanFiles := none, cleanLib := none, key := ⟨kern.name, t⟩ }
    ({ s with libs := libs, fs := Function.update s.fs kern.key (fun _ => none), clock := t, kernels := Function.update s.kernels k (some kern') }, kern')
  | none =>
    let kern' := { kern with lib := none, cleanFiles := none, cleanLib := none }
    ({ s with libs := libs, kernels := Function.update s.kernels k (some kern') }, kern')

theorem removeLib_eq {s : State} (hi : Inv ours s) {k : Nat} {kern : Kern} (hk : s.kernels k = some kern) (t : Int) :
    removeLib s k kern t = ((afterRemove s k kern t).1, (afterRemove s k kern t).2, true) := by
  have h1 : closeLib s kern = { s with libs := s.libs.filter fun x => kern.lib ≠ some x.handle } := by
    unfold closeLib
    cases hl : kern.lib with
    | none =>
      have : (s.libs.filter fun x => (none : Option Nat) ≠ some x.handle) = s.libs := by
        rw [List.filter_eq_self]; intro a _; simp
      simp only [this]
    | some h =>
      simp only [dlclose_eq hi hk hl]
      congr 1
      apply List.filter_congr
      intro x _
      simp [eq_comm]
  unfold removeLib
  rw [h1]
  cases hc : kern.cleanFiles with
  | none =>
    have h2 := hi.noLib k kern hk hc
    simp only [h2, Option.isSome_none, Bool.false_eq_true, if_false, afterRemove, hc]
  | some c =>
    obtain ⟨rfl, h2⟩ := hi.filesAt k kern c hk hc
    have h3 := rmAll_eq s.fs kern.key (by intro kind; rw [h2]; rfl)
    simp only [h2, Option.isSome_some, if_true, afterRemove, hc, h3]

/-- Forgetting the library and the files of a kernel keeps the invariant. -/
theorem inv_afterRemove {s : State} (hi : Inv ours s) {k : Nat} {kern : Kern} (hk : s.kernels k = some kern) {t : Int} (ht : s.clock < t)
    (ho : ours ⟨kern.name, t⟩) : Inv ours (afterRemove s k kern t).1 := by
  have hmem : ∀ l ∈ s.libs.filter (fun x => kern.lib ≠ some x.handle), l ∈ s.libs ∧ kern.lib ≠ some l.handle := by
    intro l hl
    simpa using hl
  cases hc : kern.cleanFiles with
  | none =>
    simp only [afterRemove, hc]
    constructor
    · intro j kj hj
      by_cases e : j = k
      · subst e; exact hi.live j kern hk
      · simp only [Function.update_of_ne e] at hj; exact hi.live j kj hj
    · intro j kj hj
      by_cases e : j = k
      · subst e; simp only [Function.update_self, Option.some.injEq] at hj; subst hj; exact hi.keyOurs j kern hk
      · simp only [Function.update_of_ne e] at hj; exact hi.keyOurs j kj hj
    · intro j kj hj
      by_cases e : j = k
      · subst e; simp only [Function.update_self, Option.some.injEq] at hj; subst hj; exact hi.keyName j kern hk
      · simp only [Function.update_of_ne e] at hj; exact hi.keyName j kj hj
    · intro j j' kj kj' hj hj' hkk
      by_cases e : j = k <;> by_cases e' : j' = k
      · rw [e, e']
      · subst e
        simp only [Function.update_self, Option.some.injEq] at hj; subst hj
        simp only [Function.update_of_ne e'] at hj'
        exact hi.keyInj j j' kern kj' hk hj' hkk
      · subst e'
        simp only [Function.update_self, Option.some.injEq] at hj'; subst hj'
        simp only [Function.update_of_ne e] at hj
        exact hi.keyInj j j' kj kern hj hk hkk
      · simp only [Function.update_of_ne e] at hj
        simp only [Function.update_of_ne e'] at hj'
        exact hi.keyInj j j' kj kj' hj hj' hkk
    · intro l hl; exact hi.below l (hmem l hl).1
    · intro l hl l' hl'; exact hi.uniq l (hmem l hl).1 l' (hmem l' hl').1
    · intro l hl
      obtain ⟨h1, j, kj, hj, h2, h3, h4⟩ := hi.owner l (hmem l hl).1
      refine ⟨h1, j, kj, ?_, h2, h3, h4⟩
      have : j ≠ k := by
        rintro rfl
        rw [hk, Option.some.injEq] at hj; subst hj
        exact (hmem l hl).2 h2
      simpa only [Function.update_of_ne this] using hj
    · intro j kj h hj hl
      by_cases e : j = k
      · subst e; simp only [Function.update_self, Option.some.injEq] at hj; subst hj; cases hl
      · simp only [Function.update_of_ne e] at hj
        obtain ⟨l, h1, h2, h3, h4⟩ := hi.loaded j kj h hj hl
        refine ⟨l, ?_, h2, h3, h4⟩
        simp only [List.mem_filter, h1, true_and, decide_eq_true_eq]
        intro hkl
        obtain ⟨l', g1, g2, g3, g4⟩ := hi.loaded k kern _ hk hkl
        have := hi.uniq l' g1 l h1 g2
        subst this
        exact e (hi.keyInj j k kj kern hj hk (by rw [← h3, ← g3]))
    · intro j kj hj
      by_cases e : j = k
      · subst e; simp only [Function.update_self, Option.some.injEq] at hj; subst hj; rfl
      · simp only [Function.update_of_ne e] at hj; exact hi.same j kj hj
    · intro j kj h hj hl
      by_cases e : j = k
      · subst e; simp only [Function.update_self, Option.some.injEq] at hj; subst hj; cases hl
      · simp only [Function.update_of_ne e] at hj; exact hi.fnLib j kj h hj hl
    · intro j kj h hj hl hf
      by_cases e : j = k
      · subst e; simp only [Function.update_self, Option.some.injEq] at hj; subst hj
        dsimp only at hf
        cases hkl : kern.lib with
        | none =>
          obtain ⟨g1, g2⟩ := hi.stale j kern h hk hkl hf
          exact ⟨g1, fun l hl => g2 l (hmem l (by rw [hkl]; exact hl)).1⟩
        | some h' =>
          have := hi.fnLib j kern h' hk hkl
          rw [hf, Option.some.injEq] at this; subst this
          obtain ⟨l', g1, g2, g3, g4⟩ := hi.loaded j kern _ hk hkl
          refine ⟨g2 ▸ hi.below l' g1, ?_⟩
          intro l hl hlh
          rw [← hkl] at hl
          exact (hmem l hl).2 (by rw [hkl, hlh])
      · simp only [Function.update_of_ne e] at hj
        obtain ⟨g1, g2⟩ := hi.stale j kj h hj hl hf
        exact ⟨g1, fun l hl => g2 l (hmem l hl).1⟩
    · intro j kj c hj hcf
      by_cases e : j = k
      · subst e; simp only [Function.update_self, Option.some.injEq] at hj; subst hj; cases hcf
      · simp only [Function.update_of_ne e] at hj; exact hi.filesAt j kj c hj hcf
    · intro j kj hj hcf
      by_cases e : j = k
      · subst e; simp only [Function.update_self, Option.some.injEq] at hj; subst hj; exact hi.noLib j kern hk hc
      · simp only [Function.update_of_ne e] at hj; exact hi.noLib j kj hj hcf
    · intro j kj h hj hl
      by_cases e : j = k
      · subst e; simp only [Function.update_self, Option.some.injEq] at hj; subst hj; cases hl
      · simp only [Function.update_of_ne e] at hj; exact hi.libFiles j kj h hj hl
    · exact hi.future
    · exact hi.noDouble
  | some c =>
    obtain ⟨rfl, hfiles⟩ := hi.filesAt k kern c hk hc
    simp only [afterRemove, hc]
    have hnew : ∀ j kj, s.kernels j = some kj → kj.key ≠ ⟨kern.name, t⟩ := by
      intro j kj hj he
      have h := (hi.keyOurs j kj hj).2
      rw [he] at h
      exact absurd h (not_le.mpr ht)
    constructor
    · intro j kj hj
      by_cases e : j = k
      · subst e; exact hi.live j kern hk
      · simp only [Function.update_of_ne e] at hj; exact hi.live j kj hj
    · intro j kj hj
      by_cases e : j = k
      · subst e; simp only [Function.update_self, Option.some.injEq] at hj; subst hj; exact ⟨ho, le_refl _⟩
      · simp only [Function.update_of_ne e] at hj
        exact ⟨(hi.keyOurs j kj hj).1, le_trans (hi.keyOurs j kj hj).2 ht.le⟩
    · intro j kj hj
      by_cases e : j = k
      · subst e; simp only [Function.update_self, Option.some.injEq] at hj; subst hj; rfl
      · simp only [Function.update_of_ne e] at hj; exact hi.keyName j kj hj
    · intro j j' kj kj' hj hj' hkk
      by_cases e : j = k <;> by_cases e' : j' = k
      · rw [e, e']
      · subst e
        simp only [Function.update_self, Option.some.injEq] at hj; subst hj
        simp only [Function.update_of_ne e'] at hj'
        exact absurd hkk.symm (hnew j' kj' hj')
      · subst e'
        simp only [Function.update_self, Option.some.injEq] at hj'; subst hj'
        simp only [Function.update_of_ne e] at hj
        exact absurd hkk (hnew j kj hj)
      · simp only [Function.update_of_ne e] at hj
        simp only [Function.update_of_ne e'] at hj'
        exact hi.keyInj j j' kj kj' hj hj' hkk
    · intro l hl; exact hi.below l (hmem l hl).1
    · intro l hl l' hl'; exact hi.uniq l (hmem l hl).1 l' (hmem l' hl').1
    · intro l hl
      obtain ⟨h1, j, kj, hj, h2, h3, h4⟩ := hi.owner l (hmem l hl).1
      refine ⟨h1, j, kj, ?_, h2, h3, h4⟩
      have : j ≠ k := by
        rintro rfl
        rw [hk, Option.some.injEq] at hj; subst hj
        exact (hmem l hl).2 h2
      simpa only [Function.update_of_ne this] using hj
    · intro j kj h hj hl
      by_cases e : j = k
      · subst e; simp only [Function.update_self, Option.some.injEq] at hj; subst hj; cases hl
      · simp only [Function.update_of_ne e] at hj
        obtain ⟨l, h1, h2, h3, h4⟩ := hi.loaded j kj h hj hl
        refine ⟨l, ?_, h2, h3, h4⟩
        simp only [List.mem_filter, h1, true_and, decide_eq_true_eq]
        intro hkl
        obtain ⟨l', g1, g2, g3, g4⟩ := hi.loaded k kern _ hk hkl
        have := hi.uniq l' g1 l h1 g2
        subst this
        exact e (hi.keyInj j k kj kern hj hk (by rw [← h3, ← g3]))
    · intro j kj hj
      by_cases e : j = k
      · subst e; simp only [Function.update_self, Option.some.injEq] at hj; subst hj; rfl
      · simp only [Function.update_of_ne e] at hj; exact hi.same j kj hj
    · intro j kj h hj hl
      by_cases e : j = k
      · subst e; simp only [Function.update_self, Option.some.injEq] at hj; subst hj; cases hl
      · simp only [Function.update_of_ne e] at hj; exact hi.fnLib j kj h hj hl
    · intro j kj h hj hl hf
      by_cases e : j = k
      · subst e; simp only [Function.update_self, Option.some.injEq] at hj; subst hj
        dsimp only at hf
        cases hkl : kern.lib with
        | none =>
          obtain ⟨g1, g2⟩ := hi.stale j kern h hk hkl hf
          exact ⟨g1, fun l hl => g2 l (hmem l (by rw [hkl]; exact hl)).1⟩
        | some h' =>
          have := hi.fnLib j kern h' hk hkl
          rw [hf, Option.some.injEq] at this; subst this
          obtain ⟨l', g1, g2, g3, g4⟩ := hi.loaded j kern _ hk hkl
          refine ⟨g2 ▸ hi.below l' g1, ?_⟩
          intro l hl hlh
          rw [← hkl] at hl
          exact (hmem l hl).2 (by rw [hkl, hlh])
      · simp only [Function.update_of_ne e] at hj
        obtain ⟨g1, g2⟩ := hi.stale j kj h hj hl hf
        exact ⟨g1, fun l hl => g2 l (hmem l hl).1⟩
    · intro j kj c hj hcf
      by_cases e : j = k
      · subst e; simp only [Function.update_self, Option.some.injEq] at hj; subst hj; cases hcf
      · simp only [Function.update_of_ne e] at hj
        have hne : kj.key ≠ kern.key := fun h => e (hi.keyInj j k kj kern hj hk h)
        simp only [Function.update_of_ne hne]
        exact hi.filesAt j kj c hj hcf
    · intro j kj hj hcf
      by_cases e : j = k
      · subst e; simp only [Function.update_self, Option.some.injEq] at hj; subst hj
        have hne : (⟨kern.name, t⟩ : Key) ≠ kern.key := fun h => hnew j kern hk h.symm
        simp only [Function.update_of_ne hne]
        exact hi.future _ ho ht _
      · simp only [Function.update_of_ne e] at hj
        have hne : kj.key ≠ kern.key := fun h => e (hi.keyInj j k kj kern hj hk h)
        simp only [Function.update_of_ne hne]
        exact hi.noLib j kj hj hcf
    · intro j kj h hj hl
      by_cases e : j = k
      · subst e; simp only [Function.update_self, Option.some.injEq] at hj; subst hj; cases hl
      · simp only [Function.update_of_ne e] at hj; exact hi.libFiles j kj h hj hl
    · intro key hkey hkt kind
      by_cases e : key = kern.key
      · subst e; simp only [Function.update_self]
      · simp only [Function.update_of_ne e]; exact hi.future key hkey (lt_trans ht hkt) kind
    · exact hi.noDouble

theorem afterRemove_kern (s : State) (k : Nat) (kern : Kern) (t : Int) :
    (afterRemove s k kern t).1.kernels k = some (afterRemove s k kern t).2 ∧ (afterRemove s k kern t).2.lib = none ∧
    (afterRemove s k kern t).2.cleanFiles = none ∧ (afterRemove s k kern t).2.cleanLib = none ∧ (afterRemove s k kern t).2.code = kern.code ∧
    (afterRemove s k kern t).2.func = kern.func ∧ (afterRemove s k kern t).2.delete = kern.delete ∧ (afterRemove s k kern t).2.fn = kern.fn ∧
    (afterRemove s k kern t).2.name = kern.name := by
  cases hc : kern.cleanFiles <;> simp [afterRemove, hc]

/-- The state after `compile` and `load_lib`. -/
def afterLoad (s : State) (k : Nat) (kern : Kern) : State × Kern :=
  let kern' := { kern with cleanFiles := some kern.key, lib := some s.next, fn := some s.next, cleanLib := some s.next }
  ({ s with
      fs := Function.update s.fs kern.key (fun _ => some kern.code)
      libs := s.libs ++ [⟨s.next, kern.key, kern.code, 1⟩]
      next := s.next + 1
      kernels := Function.update s.kernels k (some kern') }, kern')

/-- The state after a `compile` that fails. -/
def afterFail (s : State) (kern : Kern) : State :=
  { s with fs := Function.update s.fs kern.key (Function.update (Function.update (s.fs kern.key) .src (some kern.code)) .log (some kern.code)) }

theorem compile_load_eq {s : State} (hi : Inv ours s) {k : Nat} {kern : Kern} (hk : s.kernels k = some kern) (hl : kern.lib = none) :
    loadLib (compile s k kern false).1 k (compile s k kern false).2.1 = ((afterLoad s k kern).1, true) ∧ (compile s k kern false).2.2 = true := by
  have h0 : (Function.update (Function.update (Function.update (s.fs kern.key) .src (some kern.code)) .log (some kern.code)) .lib (some kern.code))
      = fun _ => some kern.code := by
    funext x; cases x <;> simp
  have hf : (s.libs.find? fun l => l.key = kern.key) = none := by
    rw [List.find?_eq_none]
    intro l hm he
    simp only [decide_eq_true_eq] at he
    obtain ⟨-, j, kj, hj, h2, h3, -⟩ := hi.owner l hm
    have := hi.keyInj j k kj kern hj hk (by rw [h3, he])
    subst this
    rw [hk, Option.some.injEq] at hj
    subst hj
    rw [hl] at h2
    cases h2
  constructor
  · simp only [compile, Bool.false_eq_true, if_false, h0, loadLib, dlopen, Function.update_self, hf, afterLoad]
    simp
  · simp [compile]

theorem inv_afterLoad {s : State} (hi : Inv ours s) {k : Nat} {kern : Kern} (hk : s.kernels k = some kern) (hl : kern.lib = none) :
    Inv ours (afterLoad s k kern).1 := by
  have hmem : ∀ l ∈ s.libs ++ [(⟨s.next, kern.key, kern.code, 1⟩ : Lib)], l ∈ s.libs ∨ l = ⟨s.next, kern.key, kern.code, 1⟩ := by
    intro l h
    simpa using h
  have hkey : ∀ j kj, s.kernels j = some kj → j ≠ k → kj.key ≠ kern.key := fun j kj hj e h => e (hi.keyInj j k kj kern hj hk h)
  simp only [afterLoad]
  constructor
  · intro j kj hj
    by_cases e : j = k
    · subst e; exact hi.live j kern hk
    · simp only [Function.update_of_ne e] at hj; exact hi.live j kj hj
  · intro j kj hj
    by_cases e : j = k
    · subst e; simp only [Function.update_self, Option.some.injEq] at hj; subst hj; exact hi.keyOurs j kern hk
    · simp only [Function.update_of_ne e] at hj; exact hi.keyOurs j kj hj
  · intro j kj hj
    by_cases e : j = k
    · subst e; simp only [Function.update_self, Option.some.injEq] at hj; subst hj; exact hi.keyName j kern hk
    · simp only [Function.update_of_ne e] at hj; exact hi.keyName j kj hj
  · intro j j' kj kj' hj hj' hkk
    by_cases e : j = k <;> by_cases e' : j' = k
    · rw [e, e']
    · subst e
      simp only [Function.update_self, Option.some.injEq] at hj; subst hj
      simp only [Function.update_of_ne e'] at hj'
      exact hi.keyInj j j' kern kj' hk hj' hkk
    · subst e'
      simp only [Function.update_self, Option.some.injEq] at hj'; subst hj'
      simp only [Function.update_of_ne e] at hj
      exact hi.keyInj j j' kj kern hj hk hkk
    · simp only [Function.update_of_ne e] at hj
      simp only [Function.update_of_ne e'] at hj'
      exact hi.keyInj j j' kj kj' hj hj' hkk
  · intro l hm
    rcases hmem l hm with h | rfl
    · exact Nat.lt_succ_of_lt (hi.below l h)
    · exact Nat.lt_succ_self _
  · intro l hm l' hm' he
    rcases hmem l hm with h | rfl <;> rcases hmem l' hm' with h' | rfl
    · exact hi.uniq l h l' h' he
    · exact absurd he (ne_of_lt (hi.below l h))
    · exact absurd he.symm (ne_of_lt (hi.below l' h'))
    · rfl
  · intro l hm
    rcases hmem l hm with h | rfl
    · obtain ⟨h1, j, kj, hj, h2, h3, h4⟩ := hi.owner l h
      refine ⟨h1, j, kj, ?_, h2, h3, h4⟩
      have : j ≠ k := by
        rintro rfl
        rw [hk, Option.some.injEq] at hj; subst hj
        rw [hl] at h2; cases h2
      simpa only [Function.update_of_ne this] using hj
    · exact ⟨rfl, k, _, Function.update_self .., rfl, rfl, rfl⟩
  · intro j kj h hj hjl
    by_cases e : j = k
    · subst e; simp only [Function.update_self, Option.some.injEq] at hj; subst hj
      simp only [Option.some.injEq] at hjl; subst hjl
      exact ⟨_, List.mem_append_right _ (List.mem_singleton.mpr rfl), rfl, rfl, rfl⟩
    · simp only [Function.update_of_ne e] at hj
      obtain ⟨l, h1, h2⟩ := hi.loaded j kj h hj hjl
      exact ⟨l, List.mem_append_left _ h1, h2⟩
  · intro j kj hj
    by_cases e : j = k
    · subst e; simp only [Function.update_self, Option.some.injEq] at hj; subst hj; rfl
    · simp only [Function.update_of_ne e] at hj; exact hi.same j kj hj
  · intro j kj h hj hjl
    by_cases e : j = k
    · subst e; simp only [Function.update_self, Option.some.injEq] at hj; subst hj; exact hjl
    · simp only [Function.update_of_ne e] at hj; exact hi.fnLib j kj h hj hjl
  · intro j kj h hj hjl hf
    by_cases e : j = k
    · subst e; simp only [Function.update_self, Option.some.injEq] at hj; subst hj; cases hjl
    · simp only [Function.update_of_ne e] at hj
      obtain ⟨g1, g2⟩ := hi.stale j kj h hj hjl hf
      refine ⟨Nat.lt_succ_of_lt g1, ?_⟩
      intro l hm
      rcases hmem l hm with h | rfl
      · exact g2 l h
      · exact (ne_of_lt g1).symm
  · intro j kj c hj hcf
    by_cases e : j = k
    · subst e; simp only [Function.update_self, Option.some.injEq] at hj; subst hj
      simp only [Option.some.injEq] at hcf
      exact ⟨hcf.symm, fun kind => by simp only [Function.update_self]⟩
    · simp only [Function.update_of_ne e] at hj
      simp only [Function.update_of_ne (hkey j kj hj e)]
      exact hi.filesAt j kj c hj hcf
  · intro j kj hj hcf
    by_cases e : j = k
    · subst e; simp only [Function.update_self, Option.some.injEq] at hj; subst hj; cases hcf
    · simp only [Function.update_of_ne e] at hj
      simp only [Function.update_of_ne (hkey j kj hj e)]
      exact hi.noLib j kj hj hcf
  · intro j kj h hj hjl
    by_cases e : j = k
    · subst e; simp only [Function.update_self, Option.some.injEq] at hj; subst hj
      simp
    · simp only [Function.update_of_ne e] at hj; exact hi.libFiles j kj h hj hjl
  · intro key ho ht kind
    have : key ≠ kern.key := by
      rintro rfl
      exact absurd (hi.keyOurs k kern hk).2 (not_le.mpr ht)
    simp only [Function.update_of_ne this]
    exact hi.future key ho ht kind
  · exact hi.noDouble

theorem inv_afterFail {s : State} (hi : Inv ours s) {k : Nat} {kern : Kern} (hk : s.kernels k = some kern) (hc : kern.cleanFiles = none) :
    Inv ours (afterFail s kern) := by
  refine ⟨hi.live, hi.keyOurs, hi.keyName, hi.keyInj, hi.below, hi.uniq, hi.owner, hi.loaded, hi.same, hi.fnLib, hi.stale, ?_, ?_, hi.libFiles, ?_,
    hi.noDouble⟩
  · intro j kj c hj hcf
    have e : j ≠ k := by
      rintro rfl
      change s.kernels j = some kj at hj
      rw [hk, Option.some.injEq] at hj
      subst hj
      rw [hc] at hcf; cases hcf
    have hne : kj.key ≠ kern.key := fun h => e (hi.keyInj j k kj kern hj hk h)
    simp only [afterFail, Function.update_of_ne hne]
    exact hi.filesAt j kj c hj hcf
  · intro j kj hj hcf
    by_cases e : kj.key = kern.key
    · simp only [afterFail, e, Function.update_self]
      simp only [ne_eq, reduceCtorEq, not_false_eq_true, Function.update_of_ne]
      exact hi.noLib k kern hk hc
    · simp only [afterFail, Function.update_of_ne e]
      exact hi.noLib j kj hj hcf
  · intro key ho ht kind
    have : key ≠ kern.key := by
      rintro rfl
      exact absurd (hi.keyOurs k kern hk).2 (not_le.mpr ht)
    simp only [afterFail, Function.update_of_ne this]
    exact hi.future key ho ht kind

/-- What `prepare` does. -/
theorem prepare_eq {s : State} (hi : Inv ours s) {k : Nat} {kern : Kern} (hk : s.kernels k = some kern) {t : Int} (ht : s.clock < t)
    (ho : ours ⟨kern.name, t⟩) (fails : Bool) :
    prepare s k kern t fails = if fails then (afterFail (afterRemove s k kern t).1 (afterRemove s k kern t).2, false)
      else ((afterLoad (afterRemove s k kern t).1 k (afterRemove s k kern t).2).1, true) := by
  have h1 := inv_afterRemove hi hk ht ho
  obtain ⟨h2, h3, -⟩ := afterRemove_kern s k kern t
  simp only [prepare, removeLib_eq hi hk t, if_true]
  cases fails with
  | true => simp [compile, afterFail]
  | false =>
    obtain ⟨g1, g2⟩ := compile_load_eq h1 h2 h3
    simp only [g2, if_true, g1, Bool.false_eq_true, if_false]

theorem inv_newKernel {s : State} (hi : Inv ours s) (f : Nat) (name : String) (code : Nat) (delete : Bool) {t : Int} (ht : s.clock < t)
    (ho : ours ⟨name, t⟩) : Inv ours (newKernel s f name code delete t) := by
  have hnew : ∀ j kj, s.kernels j = some kj → kj.key ≠ ⟨name, t⟩ := by
    intro j kj hj he
    have h := (hi.keyOurs j kj hj).2
    rw [he] at h
    exact absurd h (not_le.mpr ht)
  have hcount : ∀ j kj, s.kernels j = some kj → j ≠ s.count := fun j kj hj => ne_of_lt (hi.live j kj hj)
  have hcase : ∀ j kj, (newKernel s f name code delete t).kernels j = some kj →
      (j = s.count ∧ kj = ⟨f, name, code, delete, ⟨name, t⟩, none, none, none, none⟩) ∨ (j ≠ s.count ∧ s.kernels j = some kj) := by
    intro j kj hj
    by_cases e : j = s.count
    · subst e
      simp only [newKernel, Function.update_self, Option.some.injEq] at hj
      exact Or.inl ⟨rfl, hj.symm⟩
    · simp only [newKernel, Function.update_of_ne e] at hj
      exact Or.inr ⟨e, hj⟩
  have hold : ∀ j kj, s.kernels j = some kj → (newKernel s f name code delete t).kernels j = some kj := by
    intro j kj hj
    simp only [newKernel, Function.update_of_ne (hcount j kj hj), hj]
  constructor
  · intro j kj hj
    rcases hcase j kj hj with ⟨rfl, -⟩ | ⟨-, h⟩
    · exact Nat.lt_succ_self _
    · exact Nat.lt_succ_of_lt (hi.live j kj h)
  · intro j kj hj
    rcases hcase j kj hj with ⟨rfl, rfl⟩ | ⟨-, h⟩
    · exact ⟨ho, le_refl _⟩
    · exact ⟨(hi.keyOurs j kj h).1, le_trans (hi.keyOurs j kj h).2 ht.le⟩
  · intro j kj hj
    rcases hcase j kj hj with ⟨rfl, rfl⟩ | ⟨-, h⟩
    · rfl
    · exact hi.keyName j kj h
  · intro j j' kj kj' hj hj' he
    rcases hcase j kj hj with ⟨rfl, rfl⟩ | ⟨-, h⟩ <;> rcases hcase j' kj' hj' with ⟨rfl, rfl⟩ | ⟨-, h'⟩
    · rfl
    · exact absurd he.symm (hnew j' kj' h')
    · exact absurd he (hnew j kj h)
    · exact hi.keyInj j j' kj kj' h h' he
  · exact hi.below
  · exact hi.uniq
  · intro l hl
    obtain ⟨h1, j, kj, hj, h2⟩ := hi.owner l hl
    exact ⟨h1, j, kj, hold j kj hj, h2⟩
  · intro j kj h hj hl
    rcases hcase j kj hj with ⟨rfl, rfl⟩ | ⟨-, hj⟩
    · cases hl
    · exact hi.loaded j kj h hj hl
  · intro j kj hj
    rcases hcase j kj hj with ⟨rfl, rfl⟩ | ⟨-, hj⟩
    · rfl
    · exact hi.same j kj hj
  · intro j kj h hj hl
    rcases hcase j kj hj with ⟨rfl, rfl⟩ | ⟨-, hj⟩
    · cases hl
    · exact hi.fnLib j kj h hj hl
  · intro j kj h hj hl hf
    rcases hcase j kj hj with ⟨rfl, rfl⟩ | ⟨-, hj⟩
    · cases hf
    · exact hi.stale j kj h hj hl hf
  · intro j kj c hj hc
    rcases hcase j kj hj with ⟨rfl, rfl⟩ | ⟨-, hj⟩
    · cases hc
    · exact hi.filesAt j kj c hj hc
  · intro j kj hj hc
    rcases hcase j kj hj with ⟨rfl, rfl⟩ | ⟨-, hj⟩
    · exact hi.future _ ho ht _
    · exact hi.noLib j kj hj hc
  · intro j kj h hj hl
    rcases hcase j kj hj with ⟨rfl, rfl⟩ | ⟨-, hj⟩
    · cases hl
    · exact hi.libFiles j kj h hj hl
  · intro key hk hkt kind
    exact hi.future key hk (lt_trans ht hkt) kind
  · exact hi.noDouble

/-- The invariant does not speak of ParticleSets. -/
theorem inv_psets {s : State} (hi : Inv ours s) (q : Nat → Option Nat) : Inv ours { s with psets := q } :=
  ⟨hi.live, hi.keyOurs, hi.keyName, hi.keyInj, hi.below, hi.uniq, hi.owner, hi.loaded, hi.same, hi.fnLib, hi.stale, hi.filesAt, hi.noLib, hi.libFiles,
    hi.future, hi.noDouble⟩

theorem inv_others {s : State} (hi : Inv ours s) (fs : FS) (h : ∀ key, ours key → fs key = s.fs key) : Inv ours { s with fs := fs } := by
  refine ⟨hi.live, hi.keyOurs, hi.keyName, hi.keyInj, hi.below, hi.uniq, hi.owner, hi.loaded, hi.same, hi.fnLib, hi.stale, ?_, ?_, hi.libFiles, ?_,
    hi.noDouble⟩
  · intro j kj c hj hc
    dsimp only
    rw [h _ (hi.keyOurs j kj hj).1]
    exact hi.filesAt j kj c hj hc
  · intro j kj hj hc
    dsimp only
    rw [h _ (hi.keyOurs j kj hj).1]
    exact hi.noLib j kj hj hc
  · intro key ho ht kind
    dsimp only
    rw [h _ ho]
    exact hi.future key ho ht kind

/-- The state after a Kernel has been finalized. -/
def afterCollect (s : State) (k : Nat) (kern : Kern) : State :=
  { s with
    fs := if kern.cleanFiles.isSome ∧ kern.delete then Function.update s.fs kern.key (fun _ => none) else s.fs
    libs := s.libs.filter fun x => kern.lib ≠ some x.handle
    kernels := Function.update s.kernels k none }

theorem cleanupFiles_eq {s : State} (hi : Inv ours s) {k : Nat} {kern : Kern} (hk : s.kernels k = some kern) :
    cleanupFiles s kern = { s with fs := if kern.cleanFiles.isSome ∧ kern.delete then Function.update s.fs kern.key (fun _ => none) else s.fs } := by
  unfold cleanupFiles
  cases hc : kern.cleanFiles with
  | none => simp
  | some c =>
    obtain ⟨rfl, hf⟩ := hi.filesAt k kern c hk hc
    have hr := rmAll_eq s.fs kern.key (by intro kind; rw [hf]; rfl)
    cases hd : kern.delete with
    | true => simp [hf, hr]
    | false => simp

theorem cleanupLib_eq {s : State} (hi : Inv ours s) {k : Nat} {kern : Kern} (hk : s.kernels k = some kern) (fs : FS) :
    cleanupLib { s with fs := fs } kern = { s with fs := fs, libs := s.libs.filter fun x => kern.lib ≠ some x.handle } := by
  unfold cleanupLib
  rw [hi.same k kern hk]
  cases hl : kern.lib with
  | none =>
    have : (s.libs.filter fun x => (none : Option Nat) ≠ some x.handle) = s.libs := by
      rw [List.filter_eq_self]; intro a _; simp
    simp only [this]
  | some h =>
    obtain ⟨l, hm, rfl, -, -⟩ := hi.loaded k kern h hk hl
    have hu : ∀ x ∈ ({ s with fs := fs } : State).libs, ∀ y ∈ ({ s with fs := fs } : State).libs, x.handle = y.handle → x = y := hi.uniq
    have h1 := find_handle hu hm
    simp only [dlclose]
    simp only at h1
    rw [h1]
    simp only [(hi.owner l hm).1, le_refl, if_true]
    congr 1
    apply List.filter_congr
    intro x _
    simp [eq_comm]

theorem collect_eq {s : State} (hi : Inv ours s) {k : Nat} {kern : Kern} (hk : s.kernels k = some kern) : collect s k = afterCollect s k kern := by
  simp only [collect, hk, cleanupFiles_eq hi hk, cleanupLib_eq hi hk, afterCollect]

theorem inv_afterCollect {s : State} (hi : Inv ours s) {k : Nat} {kern : Kern} (hk : s.kernels k = some kern) : Inv ours (afterCollect s k kern) := by
  have hmem : ∀ l ∈ s.libs.filter (fun x => kern.lib ≠ some x.handle), l ∈ s.libs ∧ kern.lib ≠ some l.handle := by
    intro l hl
    simpa using hl
  have hcase : ∀ j kj, (afterCollect s k kern).kernels j = some kj → j ≠ k ∧ s.kernels j = some kj := by
    intro j kj hj
    by_cases e : j = k
    · subst e; simp [afterCollect] at hj
    · simp only [afterCollect, Function.update_of_ne e] at hj; exact ⟨e, hj⟩
  have hfs : ∀ key, key ≠ kern.key → (afterCollect s k kern).fs key = s.fs key := by
    intro key hne
    simp only [afterCollect]
    split_ifs
    · rw [Function.update_of_ne hne]
    · rfl
  have hkey : ∀ j kj, j ≠ k → s.kernels j = some kj → kj.key ≠ kern.key := fun j kj e hj h => e (hi.keyInj j k kj kern hj hk h)
  constructor
  · intro j kj hj; exact hi.live j kj (hcase j kj hj).2
  · intro j kj hj; exact hi.keyOurs j kj (hcase j kj hj).2
  · intro j kj hj; exact hi.keyName j kj (hcase j kj hj).2
  · intro j j' kj kj' hj hj'; exact hi.keyInj j j' kj kj' (hcase j kj hj).2 (hcase j' kj' hj').2
  · intro l hl; exact hi.below l (hmem l hl).1
  · intro l hl l' hl'; exact hi.uniq l (hmem l hl).1 l' (hmem l' hl').1
  · intro l hl
    obtain ⟨h1, j, kj, hj, h2, h3, h4⟩ := hi.owner l (hmem l hl).1
    refine ⟨h1, j, kj, ?_, h2, h3, h4⟩
    have : j ≠ k := by
      rintro rfl
      rw [hk, Option.some.injEq] at hj; subst hj
      exact (hmem l hl).2 h2
    simpa only [afterCollect, Function.update_of_ne this] using hj
  · intro j kj h hj hl
    obtain ⟨e, hj⟩ := hcase j kj hj
    obtain ⟨l, h1, h2, h3, h4⟩ := hi.loaded j kj h hj hl
    refine ⟨l, ?_, h2, h3, h4⟩
    simp only [afterCollect, List.mem_filter, h1, true_and, decide_eq_true_eq]
    intro hkl
    obtain ⟨l', g1, g2, g3, g4⟩ := hi.loaded k kern _ hk hkl
    have := hi.uniq l' g1 l h1 g2
    subst this
    exact e (hi.keyInj j k kj kern hj hk (by rw [← h3, ← g3]))
  · intro j kj hj; exact hi.same j kj (hcase j kj hj).2
  · intro j kj h hj; exact hi.fnLib j kj h (hcase j kj hj).2
  · intro j kj h hj hl hf
    obtain ⟨g1, g2⟩ := hi.stale j kj h (hcase j kj hj).2 hl hf
    exact ⟨g1, fun l hl => g2 l (hmem l hl).1⟩
  · intro j kj c hj hc
    obtain ⟨e, hj⟩ := hcase j kj hj
    rw [hfs _ (hkey j kj e hj)]
    exact hi.filesAt j kj c hj hc
  · intro j kj hj hc
    obtain ⟨e, hj⟩ := hcase j kj hj
    rw [hfs _ (hkey j kj e hj)]
    exact hi.noLib j kj hj hc
  · intro j kj h hj; exact hi.libFiles j kj h (hcase j kj hj).2
  · intro key ho ht kind
    have : key ≠ kern.key := by
      rintro rfl
      exact absurd (hi.keyOurs k kern hk).2 (not_le.mpr ht)
    rw [hfs _ this]
    exact hi.future key ho ht kind
  · exact hi.noDouble

/-- Kernels of ParticleSets exist. -/
def PsetLive (s : State) : Prop := ∀ p k, s.psets p = some k → ∃ kern, s.kernels k = some kern

/-- `execute` without a new Kernel. -/
theorem execute_old {s : State} {p : Nat} {a : Arg} (hn : needsKernel s p a = false) {k : Nat} {kern : Kern} (hp : s.psets p = some k)
    (hk : s.kernels k = some kern) (t1 t2 : Int) (fails : Bool) : execute s p a t1 t2 fails = (s, call s kern) := by
  simp [execute, ready, hn, hp, hk]

theorem call_afterLoad {s : State} (hi : Inv ours s) {k : Nat} {kern : Kern} (hk : s.kernels k = some kern) (hl : kern.lib = none) :
    call (afterLoad s k kern).1 (afterLoad s k kern).2 = .ran kern.code := by
  have h := find_handle (inv_afterLoad hi hk hl).uniq (l := ⟨s.next, kern.key, kern.code, 1⟩)
    (by simp only [afterLoad]; exact List.mem_append_right _ (List.mem_singleton.mpr rfl))
  have hf : (afterLoad s k kern).2.fn = some s.next := rfl
  simp only [call, hf]
  simp only at h
  rw [h]

/-- `execute` with a new Kernel. -/
theorem execute_new {s : State} {p : Nat} {a : Arg} (hn : needsKernel s p a = true) {t1 t2 : Int} {s1 : State} {k : Nat} {kern : Kern}
    (ha : assign s p a t1 = (s1, k)) (hi : Inv ours s1) (hk : s1.kernels k = some kern) (ht : s1.clock < t2) (ho : ours ⟨kern.name, t2⟩)
    (fails : Bool) :
    execute s p a t1 t2 fails = if fails then (afterFail (afterRemove s1 k kern t2).1 (afterRemove s1 k kern t2).2, .error)
      else ((afterLoad (afterRemove s1 k kern t2).1 k (afterRemove s1 k kern t2).2).1, .ran kern.code) := by
  have hpset : s1.psets p = some k := by
    cases a with
    | func f n c =>
      simp only [assign, Prod.mk.injEq] at ha
      rw [← ha.1, ← ha.2]; simp
    | kernel j =>
      simp only [assign, Prod.mk.injEq] at ha
      rw [← ha.1, ← ha.2]; simp
  have hps : (afterLoad (afterRemove s1 k kern t2).1 k (afterRemove s1 k kern t2).2).1.psets = s1.psets := by
    cases hc : kern.cleanFiles <;> simp [afterLoad, afterRemove, hc]
  obtain ⟨h1, h2, -, -, h5, -⟩ := afterRemove_kern s1 k kern t2
  have hcall := call_afterLoad (inv_afterRemove hi hk ht ho) h1 h2
  have hkern : (afterLoad (afterRemove s1 k kern t2).1 k (afterRemove s1 k kern t2).2).1.kernels k
      = some (afterLoad (afterRemove s1 k kern t2).1 k (afterRemove s1 k kern t2).2).2 := by simp [afterLoad]
  have hprep := prepare_eq hi hk ht ho fails
  have hready : ready s p a t1 t2 fails = prepare s1 k kern t2 fails := by
    simp only [ready, hn, if_true, ha, hk]
  simp only [execute, hready, hprep]
  cases fails with
  | true => simp
  | false => simp only [Bool.false_eq_true, if_false, if_true, hps, hpset, Option.bind_some, hkern, hcall, h5]

/-- The Kernel `k` is the one asked for. -/
def Asked (a : Arg) (k : Nat) (kern : Kern) : Prop :=
  match a with
  | .func f _ _ => kern.func = f
  | .kernel j => k = j

/-- The Kernel `k` is the one asked for, with new code for a function. -/
def AskedNew (s : State) (a : Arg) (k : Nat) (kern : Kern) : Prop :=
  match a with
  | .func f _ c => kern.func = f ∧ kern.code = c
  | .kernel j => k = j ∧ s.kernels j = some kern

/-- The Kernel that `execute` works with, when it takes another one. -/
theorem assign_spec {s : State} (hi : Inv ours s) {p : Nat} {a : Arg} {t1 t2 : Int} {fails : Bool} (h : Allowed ours s (.exec p a t1 t2 fails)) :
    ∃ kern, (assign s p a t1).1.kernels (assign s p a t1).2 = some kern ∧ Inv ours (assign s p a t1).1 ∧ (assign s p a t1).1.clock < t2 ∧
      ours ⟨kern.name, t2⟩ ∧ (assign s p a t1).1.fs = s.fs ∧ (assign s p a t1).1.psets = Function.update s.psets p (some (assign s p a t1).2) ∧
      (∀ j kj, s.kernels j = some kj → (assign s p a t1).1.kernels j = some kj) ∧
      (∀ j kj, (assign s p a t1).1.kernels j = some kj → s.kernels j = some kj ∨ (j = (assign s p a t1).2 ∧ kj.delete = true ∧ kj.cleanFiles = none)) ∧
      AskedNew s a (assign s p a t1).2 kern := by
  obtain ⟨h1, h2, h3⟩ := h
  cases a with
  | func f n c =>
    refine ⟨⟨f, n, c, true, ⟨n, t1⟩, none, none, none, none⟩, by simp [assign, newKernel], inv_psets (inv_newKernel hi f n c true h1 h3.1) _, h2, h3.2,
      rfl, rfl, ?_, ?_, rfl, rfl⟩
    · intro j kj hj
      simp only [assign, newKernel, Function.update_of_ne (ne_of_lt (hi.live j kj hj)), hj]
    · intro j kj hj
      by_cases e : j = s.count
      · subst e
        simp only [assign, newKernel, Function.update_self, Option.some.injEq] at hj
        subst hj
        exact Or.inr ⟨rfl, rfl, rfl⟩
      · simp only [assign, newKernel, Function.update_of_ne e] at hj
        exact Or.inl hj
  | kernel j =>
    obtain ⟨kern, h4, h5⟩ := h3
    exact ⟨kern, h4, inv_psets hi _, lt_trans h1 h2, h5, rfl, rfl, fun _ _ h => h, fun _ _ h => Or.inl h, rfl, h4⟩

/-- The two ways `execute` goes. -/
theorem execute_cases {s : State} (hi : Inv ours s) (hp : PsetLive s) {p : Nat} {a : Arg} {t1 t2 : Int} {fails : Bool}
    (h : Allowed ours s (.exec p a t1 t2 fails)) :
    (needsKernel s p a = false ∧ ∃ k kern, s.psets p = some k ∧ s.kernels k = some kern ∧ execute s p a t1 t2 fails = (s, call s kern) ∧
      Asked a k kern) ∨
    (needsKernel s p a = true ∧ ∃ s1 k kern, assign s p a t1 = (s1, k) ∧ s1.kernels k = some kern ∧ Inv ours s1 ∧ s1.clock < t2 ∧ ours ⟨kern.name, t2⟩ ∧
      s1.psets = Function.update s.psets p (some k) ∧
      execute s p a t1 t2 fails = (if fails then (afterFail (afterRemove s1 k kern t2).1 (afterRemove s1 k kern t2).2, .error)
        else ((afterLoad (afterRemove s1 k kern t2).1 k (afterRemove s1 k kern t2).2).1, .ran kern.code)) ∧
      AskedNew s a k kern) := by
  cases hn : needsKernel s p a with
  | false =>
    refine Or.inl ⟨rfl, ?_⟩
    cases hq : s.psets p with
    | none => simp [needsKernel, hq] at hn
    | some k =>
      obtain ⟨kern, hk⟩ := hp p k hq
      refine ⟨k, kern, rfl, hk, execute_old hn hq hk t1 t2 fails, ?_⟩
      cases a with
      | func f n c => simpa [needsKernel, hq, hk, Asked] using hn
      | kernel j => simpa [needsKernel, hq, Asked] using hn
  | true =>
    refine Or.inr ⟨rfl, ?_⟩
    obtain ⟨kern, g1, g2, g3, g4, g5, g6, g7, g8, g9⟩ := assign_spec hi h
    refine ⟨(assign s p a t1).1, (assign s p a t1).2, kern, rfl, g1, g2, g3, g4, g6, execute_new hn rfl g2 g1 g3 g4 fails, g9⟩

theorem afterRemove_psets (s : State) (k : Nat) (kern : Kern) (t : Int) : (afterRemove s k kern t).1.psets = s.psets := by
  cases hc : kern.cleanFiles <;> simp [afterRemove, hc]

theorem afterRemove_kernels (s : State) (k : Nat) (kern : Kern) (t : Int) :
    (afterRemove s k kern t).1.kernels = Function.update s.kernels k (some (afterRemove s k kern t).2) := by
  cases hc : kern.cleanFiles <;> simp [afterRemove, hc]

theorem afterLoad_kernels (s : State) (k : Nat) (kern : Kern) (t : Int) :
    (afterLoad (afterRemove s k kern t).1 k (afterRemove s k kern t).2).1.kernels
      = Function.update s.kernels k (some (afterLoad (afterRemove s k kern t).1 k (afterRemove s k kern t).2).2) := by
  simp only [afterLoad, afterRemove_kernels, Function.update_idem]

theorem afterLoad_psets (s : State) (k : Nat) (kern : Kern) (t : Int) :
    (afterLoad (afterRemove s k kern t).1 k (afterRemove s k kern t).2).1.psets = s.psets := by
  simp only [afterLoad, afterRemove_psets]

/-- The invariant holds in every state that is reached. -/
theorem inv_step {s : State} (hi : Inv ours s) (hp : PsetLive s) (op : Op) (h : Allowed ours s op) :
    Inv ours (step s op).1 ∧ PsetLive (step s op).1 := by
  cases op with
  | make f n c d t =>
    refine ⟨inv_newKernel hi f n c d h.1 h.2, ?_⟩
    intro p k hpk
    obtain ⟨kern, hk⟩ := hp p k hpk
    exact ⟨kern, by simp only [step, newKernel, Function.update_of_ne (ne_of_lt (hi.live k kern hk)), hk]⟩
  | exec p a t1 t2 fails =>
    rcases execute_cases hi hp h with ⟨-, k, kern, h1, h2, h3, -⟩ | ⟨-, s1, k, kern, h1, h2, h3, h4, h5, h6, h7, -⟩
    · simp only [step, h3]
      exact ⟨hi, hp⟩
    · have hlive : ∀ q j, s1.psets q = some j → ∃ kj, s1.kernels j = some kj := by
        intro q j hq
        by_cases e : j = k
        · exact ⟨kern, e ▸ h2⟩
        · rw [h6] at hq
          have hqp : q ≠ p := by
            rintro rfl
            simp only [Function.update_self, Option.some.injEq] at hq
            exact e hq.symm
          simp only [Function.update_of_ne hqp] at hq
          obtain ⟨kj, hj⟩ := hp q j hq
          obtain ⟨_, _, _, _, _, _, _, g7, _⟩ := assign_spec hi h
          rw [h1] at g7
          exact ⟨kj, g7 j kj hj⟩
      obtain ⟨r1, r2, r3, -⟩ := afterRemove_kern s1 k kern t2
      have hir := inv_afterRemove h3 h2 h4 h5
      simp only [step, h7]
      cases fails with
      | true =>
        refine ⟨inv_afterFail hir r1 r3, ?_⟩
        intro q j hq
        change (afterRemove s1 k kern t2).1.psets q = some j at hq
        rw [afterRemove_psets] at hq
        change ∃ kj, (afterRemove s1 k kern t2).1.kernels j = some kj
        rw [afterRemove_kernels]
        by_cases e : j = k
        · subst e; exact ⟨_, Function.update_self ..⟩
        · simp only [Function.update_of_ne e]; exact hlive q j hq
      | false =>
        simp only [Bool.false_eq_true, if_false]
        refine ⟨inv_afterLoad hir r1 r2, ?_⟩
        intro q j hq
        rw [afterLoad_psets] at hq
        rw [afterLoad_kernels]
        by_cases e : j = k
        · subst e; exact ⟨_, Function.update_self ..⟩
        · simp only [Function.update_of_ne e]; exact hlive q j hq
  | drop p =>
    refine ⟨inv_psets hi _, ?_⟩
    intro q k hq
    by_cases e : q = p
    · subst e; simp [step] at hq
    · simp only [step, Function.update_of_ne e] at hq; exact hp q k hq
  | collect k =>
    obtain ⟨h1, h2⟩ := h
    obtain ⟨kern, hk⟩ := Option.isSome_iff_exists.mp h1
    simp only [step, collect_eq hi hk]
    refine ⟨inv_afterCollect hi hk, ?_⟩
    intro q j hq
    have e : j ≠ k := by rintro rfl; exact h2 q hq
    obtain ⟨kj, hj⟩ := hp q j hq
    exact ⟨kj, by simp only [afterCollect, Function.update_of_ne e, hj]⟩
  | others fs => exact ⟨inv_others hi fs h, hp⟩

theorem inv_init {fs : FS} {clock : Int} (h : ∀ key, ours key → ∀ kind, fs key kind = none) : Inv ours (init fs clock) ∧ PsetLive (init fs clock) := by
  refine ⟨⟨?_, ?_, ?_, ?_, ?_, ?_, ?_, ?_, ?_, ?_, ?_, ?_, ?_, ?_, fun key ho _ kind => h key ho kind, rfl⟩, ?_⟩
  all_goals (first | (intro a b h; simp [init] at h; done) | (intro a b c h; simp [init] at h; done) | (intro a b c d h; simp [init] at h; done) |
    (intro a h; simp [init] at h))

theorem inv_reach {P : Op → Prop} {s : State} (h : Reach ours P s) : Inv ours s ∧ PsetLive s := by
  induction h with
  | start fs clock h => exact inv_init h
  | next op _ h1 _ ih => exact inv_step ih.1 ih.2 op h1

/-- Without failures, the Kernels of ParticleSets are loaded. -/
def Loaded (s : State) : Prop := ∀ p k kern, s.psets p = some k → s.kernels k = some kern → kern.lib ≠ none

theorem loaded_step {s : State} (hi : Inv ours s) (hp : PsetLive s) (hl : Loaded s) (op : Op) (h : Allowed ours s op) (hn : NoFailure op) :
    Loaded (step s op).1 := by
  cases op with
  | make f n c d t =>
    intro p k kern hpk hk
    obtain ⟨kj, hj⟩ := hp p k hpk
    simp only [step, newKernel, Function.update_of_ne (ne_of_lt (hi.live k kj hj))] at hk
    exact hl p k kern hpk hk
  | exec p a t1 t2 fails =>
    have hf : fails = false := hn
    subst hf
    rcases execute_cases hi hp h with ⟨-, k, kern, h1, h2, h3, -⟩ | ⟨-, s1, k, kern, h1, h2, h3, h4, h5, h6, h7, -⟩
    · simp only [step, h3]
      exact hl
    · simp only [step, h7, Bool.false_eq_true, if_false]
      intro q j kj hq hj
      rw [afterLoad_psets, h6] at hq
      rw [afterLoad_kernels] at hj
      by_cases e : j = k
      · subst e
        simp only [Function.update_self, Option.some.injEq] at hj
        subst hj
        simp [afterLoad]
      · simp only [Function.update_of_ne e] at hj
        have hqp : q ≠ p := by
          rintro rfl
          simp only [Function.update_self, Option.some.injEq] at hq
          exact e hq.symm
        simp only [Function.update_of_ne hqp] at hq
        obtain ⟨_, _, _, _, _, _, _, g7, g8, _⟩ := assign_spec hi h
        rw [h1] at g8
        rcases g8 j kj hj with g | g
        · exact hl q j kj hq g
        · exact absurd g.1 e
  | drop p =>
    intro q k kern hq
    by_cases e : q = p
    · subst e; simp [step] at hq
    · simp only [step, Function.update_of_ne e] at hq; exact hl q k kern hq
  | collect k =>
    obtain ⟨h1, h2⟩ := h
    obtain ⟨kern, hk⟩ := Option.isSome_iff_exists.mp h1
    simp only [step, collect_eq hi hk]
    intro q j kj hq hj
    have e : j ≠ k := by rintro rfl; exact h2 q hq
    simp only [afterCollect, Function.update_of_ne e] at hj
    exact hl q j kj hq hj
  | others fs => exact hl

theorem loaded_reach {P : Op → Prop} (hP : ∀ op, P op → NoFailure op) {s : State} (h : Reach ours P s) : Loaded s := by
  induction h with
  | start fs clock h => intro p k kern hp; simp [init] at hp
  | next op h0 h1 h2 ih => exact loaded_step (inv_reach h0).1 (inv_reach h0).2 ih op h1 (hP op h2)

/-- Calling a Kernel whose library is loaded runs its own code. -/
theorem call_loaded {s : State} (hi : Inv ours s) {k : Nat} {kern : Kern} (hk : s.kernels k = some kern) (hl : kern.lib ≠ none) :
    call s kern = .ran kern.code := by
  obtain ⟨h, hh⟩ := Option.ne_none_iff_exists'.mp hl
  obtain ⟨l, hm, rfl, -, hc⟩ := hi.loaded k kern h hk hh
  rw [call, hi.fnLib k kern _ hk hh]
  dsimp only
  rw [find_handle hi.uniq hm]
  dsimp only
  rw [hc]

/-- Calling a Kernel whose library is not loaded runs nothing. -/
theorem call_unloaded {s : State} (hi : Inv ours s) {k : Nat} {kern : Kern} (hk : s.kernels k = some kern) (hl : kern.lib = none) :
    call s kern = .error ∨ call s kern = .crash := by
  cases hf : kern.fn with
  | none => simp [call, hf]
  | some h =>
    have hs := (hi.stale k kern h hk hl hf).2
    have : s.libs.find? (fun l => l.handle = h) = none := by
      rw [List.find?_eq_none]
      intro l hl
      simpa using hs l hl
    right
    rw [call, hf]
    dsimp only
    rw [this]

/-- Files of this process are those of Kernels that can remove them. -/
structure Clean (ours : Key → Prop) (s : State) : Prop where
  files : ∀ key, ours key → ∀ kind, s.fs key kind ≠ none → ∃ k kern, s.kernels k = some kern ∧ kern.key = key ∧ kern.cleanFiles ≠ none
  del : ∀ k kern, s.kernels k = some kern → kern.delete = true

theorem clean_afterRemove {s : State} (hi : Inv ours s) (hc : Clean ours s) {k : Nat} {kern : Kern} (hk : s.kernels k = some kern) (t : Int) :
    Clean ours (afterRemove s k kern t).1 := by
  have hd : ∀ j kj, (afterRemove s k kern t).1.kernels j = some kj → kj.delete = true := by
    intro j kj hj
    rw [afterRemove_kernels] at hj
    by_cases e : j = k
    · subst e
      simp only [Function.update_self, Option.some.injEq] at hj
      subst hj
      rw [(afterRemove_kern s j kern t).2.2.2.2.2.2.1]
      exact hc.del j kern hk
    · simp only [Function.update_of_ne e] at hj
      exact hc.del j kj hj
  refine ⟨?_, hd⟩
  intro key ho kind hne
  have hold : key ≠ kern.key → s.fs key kind ≠ none →
      ∃ j kj, (afterRemove s k kern t).1.kernels j = some kj ∧ kj.key = key ∧ kj.cleanFiles ≠ none := by
    intro hkk h
    obtain ⟨j, kj, h1, h2, h3⟩ := hc.files key ho kind h
    have e : j ≠ k := by
      rintro rfl
      rw [hk, Option.some.injEq] at h1
      subst h1
      exact hkk h2.symm
    exact ⟨j, kj, by rw [afterRemove_kernels]; simp only [Function.update_of_ne e, h1], h2, h3⟩
  cases hcf : kern.cleanFiles with
  | none =>
    have hfs : (afterRemove s k kern t).1.fs = s.fs := by simp [afterRemove, hcf]
    rw [hfs] at hne
    apply hold _ hne
    rintro rfl
    obtain ⟨j, kj, h1, h2, h3⟩ := hc.files _ ho kind hne
    have := hi.keyInj j k kj kern h1 hk h2
    subst this
    rw [hk, Option.some.injEq] at h1
    subst h1
    exact h3 hcf
  | some c =>
    have hfs : (afterRemove s k kern t).1.fs = Function.update s.fs kern.key (fun _ => none) := by simp [afterRemove, hcf]
    rw [hfs] at hne
    by_cases e : key = kern.key
    · subst e; simp at hne
    · simp only [Function.update_of_ne e] at hne
      exact hold e hne

theorem clean_afterLoad {s : State} (hc : Clean ours s) {k : Nat} {kern : Kern} (hk : s.kernels k = some kern) :
    Clean ours (afterLoad s k kern).1 := by
  constructor
  · intro key ho kind hne
    by_cases e : key = kern.key
    · exact ⟨k, _, Function.update_self .., e.symm, by simp⟩
    · simp only [afterLoad, Function.update_of_ne e] at hne
      obtain ⟨j, kj, h1, h2, h3⟩ := hc.files key ho kind hne
      have ej : j ≠ k := by
        rintro rfl
        rw [hk, Option.some.injEq] at h1
        subst h1
        exact e h2.symm
      exact ⟨j, kj, by simp only [afterLoad, Function.update_of_ne ej, h1], h2, h3⟩
  · intro j kj hj
    by_cases e : j = k
    · subst e
      simp only [afterLoad, Function.update_self, Option.some.injEq] at hj
      subst hj
      exact hc.del j kern hk
    · simp only [afterLoad, Function.update_of_ne e] at hj
      exact hc.del j kj hj

theorem clean_step {s : State} (hi : Inv ours s) (hp : PsetLive s) (hc : Clean ours s) (op : Op) (h : Allowed ours s op) (hn : AllDelete op) :
    Clean ours (step s op).1 := by
  cases op with
  | make f n c d t =>
    have hd : d = true := hn
    subst hd
    constructor
    · intro key ho kind hne
      obtain ⟨k, kern, h1, h2⟩ := hc.files key ho kind hne
      exact ⟨k, kern, by simp only [step, newKernel, Function.update_of_ne (ne_of_lt (hi.live k kern h1)), h1], h2⟩
    · intro k kern hk
      by_cases e : k = s.count
      · subst e
        simp only [step, newKernel, Function.update_self, Option.some.injEq] at hk
        subst hk; rfl
      · simp only [step, newKernel, Function.update_of_ne e] at hk
        exact hc.del k kern hk
  | exec p a t1 t2 fails =>
    have hf : fails = false := hn
    subst hf
    rcases execute_cases hi hp h with ⟨-, k, kern, h1, h2, h3, -⟩ | ⟨-, s1, k, kern, h1, h2, h3, h4, h5, h6, h7, -⟩
    · simp only [step, h3]
      exact hc
    · simp only [step, h7, Bool.false_eq_true, if_false]
      obtain ⟨_, _, _, _, _, g5, _, g7, g8, _⟩ := assign_spec hi h
      rw [h1] at g5 g7 g8
      have hc1 : Clean ours s1 := by
        constructor
        · intro key ho kind hne
          rw [g5] at hne
          obtain ⟨j, kj, q1, q2⟩ := hc.files key ho kind hne
          exact ⟨j, kj, g7 j kj q1, q2⟩
        · intro j kj hj
          rcases g8 j kj hj with g | g
          · exact hc.del j kj g
          · exact g.2.1
      exact clean_afterLoad (clean_afterRemove h3 hc1 h2 t2) (afterRemove_kern s1 k kern t2).1
  | drop p => exact ⟨hc.files, hc.del⟩
  | collect k =>
    obtain ⟨h1, h2⟩ := h
    obtain ⟨kern, hk⟩ := Option.isSome_iff_exists.mp h1
    simp only [step, collect_eq hi hk]
    constructor
    · intro key ho kind hne
      have hcase : key ≠ kern.key ∧ s.fs key kind ≠ none ∨ (key = kern.key ∧ kern.cleanFiles = none ∧ s.fs key kind ≠ none) := by
        by_cases e : key = kern.key
        · subst e
          simp only [afterCollect] at hne
          cases hcf : kern.cleanFiles with
          | none => right; simp only [hcf] at hne; exact ⟨rfl, rfl, by simpa using hne⟩
          | some c => simp [hcf, hc.del k kern hk] at hne
        · left
          simp only [afterCollect] at hne
          split_ifs at hne
          · simp only [Function.update_of_ne e] at hne; exact ⟨e, hne⟩
          · exact ⟨e, hne⟩
      rcases hcase with ⟨e, hne⟩ | ⟨rfl, hcf, hne⟩
      · obtain ⟨j, kj, q1, q2, q3⟩ := hc.files key ho kind hne
        have ej : j ≠ k := by
          rintro rfl
          rw [hk, Option.some.injEq] at q1
          subst q1
          exact e q2.symm
        exact ⟨j, kj, by simp only [afterCollect, Function.update_of_ne ej, q1], q2, q3⟩
      · obtain ⟨j, kj, q1, q2, q3⟩ := hc.files _ ho kind hne
        have := hi.keyInj j k kj kern q1 hk q2
        subst this
        rw [hk, Option.some.injEq] at q1
        subst q1
        exact absurd hcf q3
    · intro j kj hj
      by_cases e : j = k
      · subst e; simp [afterCollect] at hj
      · simp only [afterCollect, Function.update_of_ne e] at hj
        exact hc.del j kj hj
  | others fs =>
    refine ⟨?_, hc.del⟩
    intro key ho kind hne
    have hfs : fs key = s.fs key := h key ho
    simp only [step, hfs] at hne
    exact hc.files key ho kind hne

theorem clean_reach {s : State} (h : Reach ours AllDelete s) : Clean ours s := by
  induction h with
  | start fs clock h =>
    exact ⟨fun key ho kind hne => absurd (h key ho kind) hne, fun k kern hk => by simp [init] at hk⟩
  | next op h0 h1 h2 ih => exact clean_step (inv_reach h0).1 (inv_reach h0).2 ih op h1 h2

end Parcels.Libs
