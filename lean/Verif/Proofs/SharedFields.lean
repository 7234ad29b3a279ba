import Verif.Spec.SharedFields
import Mathlib.Tactic.Ring
import Mathlib.Tactic.Linarith
import Mathlib.Algebra.Order.Field.Rat

/-!
Lemmas for C89.
-/

namespace Parcels.SharedFields

theorem same_spec {gs : List G} {h g : Nat} (hs : same gs h g = true) : gs[h]? = gs[g]? := by
  unfold same at hs
  by_cases e : h = g
  · rw [e]
  · simp only [e, decide_false, Bool.false_or] at hs
    split at hs
    · rename_i a b ha hb
      simp only [Bool.and_eq_true, decide_eq_true_eq] at hs
      rw [ha, hb]
      cases a; cases b
      simp_all
    · cases hs

theorem same_self (gs : List G) (g : Nat) : same gs g g = true := by simp [same]

theorem addGrid_spec (gs : List G) (set : List Nat) (g : Nat) :
    gs[(addGrid gs set g).2]? = gs[g]? ∧ (addGrid gs set g).2 ∈ (addGrid gs set g).1 ∧ set <+: (addGrid gs set g).1 := by
  unfold addGrid
  cases h : set.find? fun h => same gs h g with
  | none => exact ⟨rfl, by simp, by simp⟩
  | some k =>
    exact ⟨same_spec (by simpa using List.find?_some h), List.mem_of_find?_eq_some h, List.prefix_refl _⟩

theorem addGrid_nodup (gs : List G) (set : List Nat) (g : Nat) (hn : set.Nodup) : (addGrid gs set g).1.Nodup := by
  unfold addGrid
  cases h : set.find? fun h => same gs h g with
  | none =>
    have : g ∉ set := fun hg => by
      have := List.find?_eq_none.mp h g hg
      simp [same_self] at this
    rw [List.nodup_append]
    exact ⟨hn, by simp, by
      rintro a ha b hb rfl
      rw [List.mem_singleton] at hb
      exact this (hb ▸ ha)⟩
  | some k => exact hn

/-- The three ways an operation can go. -/
theorem addField_cases (w : W) (s f : Nat) :
    addField w s f = none ∨ ∃ st fl, w.sets[s]? = some st ∧ w.fields[f]? = some fl ∧ st.completed = false ∧
      addField w s f = some { w with
        sets := w.sets.set s { st with
          grids := (addGrid w.grids st.grids fl.grid).1
          members := st.members ++ [f]
          origin := st.origin.orElse fun _ => (w.grids[(addGrid w.grids st.grids fl.grid).2]?).map (·.origin) }
        fields := w.fields.set f ⟨(addGrid w.grids st.grids fl.grid).2,
          some ((addGrid w.grids st.grids fl.grid).1.idxOf (addGrid w.grids st.grids fl.grid).2), some s⟩ } := by
  unfold addField
  cases hs : w.sets[s]? with
  | none => exact .inl rfl
  | some st =>
    cases hf : w.fields[f]? with
    | none => exact .inl rfl
    | some fl =>
      simp only
      by_cases hc : st.completed = true
      · exact .inl (by rw [if_pos hc])
      · exact .inr ⟨st, fl, rfl, rfl, by simpa using hc, by rw [if_neg hc]⟩

theorem complete_cases (w : W) (s : Nat) :
    complete w s = none ∨ ∃ st o, w.sets[s]? = some st ∧ st.origin = some o ∧
      complete w s = some { w with
        grids := w.grids.zipIdx.map fun p => if p.2 ∈ st.grids then shiftTo o p.1 else p.1
        sets := w.sets.set s { st with completed := true } } := by
  unfold complete
  cases hs : w.sets[s]? with
  | none => exact .inl rfl
  | some st =>
    simp only
    cases ho : st.origin with
    | none => exact .inl rfl
    | some o => exact .inr ⟨st, o, rfl, ho, by simp [ho]⟩

theorem shifted_get (gs : List G) (set : List Nat) (o : ℚ) (k : Nat) :
    (gs.zipIdx.map fun p => if p.2 ∈ set then shiftTo o p.1 else p.1)[k]? =
      (gs[k]?).map fun g => if k ∈ set then shiftTo o g else g := by
  rw [List.getElem?_map, List.getElem?_zipIdx]
  cases gs[k]? <;> simp

theorem shiftTo_dates (o : ℚ) (g : G) : (shiftTo o g).time.map (· + (shiftTo o g).origin) = g.time.map (· + g.origin) := by
  unfold shiftTo
  split
  · rfl
  · simp only [List.map_map]
    apply List.map_congr_left
    intro t _
    simp only [Function.comp]
    ring

theorem shiftTo_length (o : ℚ) (g : G) : (shiftTo o g).time.length = g.time.length := by
  unfold shiftTo
  split <;> simp

theorem shiftTo_origin (o : ℚ) (g : G) : g.time.length = 1 ∨ (shiftTo o g).origin = o := by
  by_cases h : g.time.length = 1
  · exact .inl h
  · right
    unfold shiftTo
    rw [if_neg h]

theorem set_get {β : Type} (l : List β) (i j : Nat) (x : β) : (l.set i x)[j]? = if i = j ∧ j < l.length then some x else l[j]? := by
  rw [List.getElem?_set]
  by_cases h : i = j
  · subst h
    by_cases h2 : i < l.length
    · simp [h2]
    · simp only [if_true, if_neg h2, h2, and_false, if_false]
      exact (List.getElem?_eq_none (by omega)).symm
  · simp [h]

theorem set_self {α : Type} {l : List α} {i : Nat} {a : α} (h : i < l.length) : (l.set i a)[i]? = some a := by
  simp [h]

theorem lt_of_get {β : Type} {l : List β} {i : Nat} {x : β} (h : l[i]? = some x) : i < l.length :=
  (List.getElem?_eq_some_iff.mp h).1

/-! ### Dates -/

theorem step_dates (w : W) (op : Op) (f : Nat) : dates (step w op) f = dates w f := by
  cases op with
  | new => rfl
  | add s f' =>
    simp only [step]
    rcases addField_cases w s f' with h | ⟨st, fl, hs, hf, _, h⟩
    · rw [h]; rfl
    · rw [h]
      unfold dates
      simp only [Option.getD_some]
      rw [set_get]
      by_cases e : f' = f ∧ f < w.fields.length
      · rw [if_pos e]
        obtain ⟨rfl, _⟩ := e
        rw [hf]
        simp only [Option.bind_some]
        rw [(addGrid_spec _ _ _).1]
      · rw [if_neg e]
  | complete s =>
    simp only [step]
    rcases complete_cases w s with h | ⟨st, o, hs, ho, h⟩
    · rw [h]; rfl
    · rw [h]
      unfold dates
      simp only [Option.getD_some]
      congr 1
      funext fl
      rw [shifted_get, Option.map_map]
      congr 1
      funext g
      simp only [Function.comp]
      split
      · exact shiftTo_dates o g
      · rfl

theorem run_dates : ∀ (ops : List Op) (w : W) (f : Nat), dates (run w ops) f = dates w f
  | [], _, _ => rfl
  | op :: ops, w, f => by
    rw [show run w (op :: ops) = run (step w op) ops from rfl, run_dates ops, step_dates]

/-! ### Fields are in place in the FieldSet they were last added to -/

structure WInv (w : W) : Prop where
  place : ∀ (f : Nat) (fl : F) (s : Nat), w.fields[f]? = some fl → fl.home = some s → InPlace w s f
  nodup : ∀ (s : Nat) (st : S), w.sets[s]? = some st → st.grids.Nodup

theorem inPlace_grow {w w' : W} {s f : Nat} (h : InPlace w s f) (hf : w'.fields[f]? = w.fields[f]?)
    (hs : ∀ st, w.sets[s]? = some st → ∃ st', w'.sets[s]? = some st' ∧ st.grids <+: st'.grids) : InPlace w' s f := by
  obtain ⟨st, fl, i, h1, h2, h3, h4⟩ := h
  obtain ⟨st', h5, t, h6⟩ := hs st h1
  refine ⟨st', fl, i, h5, hf.trans h2, h3, ?_⟩
  rw [← h6, List.getElem?_append_left (lt_of_get h4)]
  exact h4

theorem inv_step {w : W} (h : WInv w) (op : Op) : WInv (step w op) := by
  cases op with
  | new =>
    have hold : ∀ (s : Nat) (st : S), w.sets[s]? = some st → (newSet w).sets[s]? = some st := by
      intro s st hs
      unfold newSet
      simp only
      rw [List.getElem?_append_left (lt_of_get hs)]
      exact hs
    refine ⟨fun f fl s hf hh => inPlace_grow (h.place f fl s hf hh) rfl fun st hs => ⟨st, hold s st hs, List.prefix_refl _⟩, ?_⟩
    intro s st hs
    change (w.sets ++ [⟨[], [], none, false⟩])[s]? = some st at hs
    by_cases hlt : s < w.sets.length
    · rw [List.getElem?_append_left hlt] at hs
      exact h.nodup s st hs
    · rw [List.getElem?_append_right (by omega)] at hs
      have := List.mem_of_getElem? hs
      rw [List.mem_singleton] at this
      rw [this]
      exact List.nodup_nil
  | add s f =>
    simp only [step]
    rcases addField_cases w s f with e | ⟨st, fl, hs, hf, _, e⟩
    · rw [e]; exact h
    · rw [e]
      simp only [Option.getD_some]
      obtain ⟨a1, a2, a3⟩ := addGrid_spec w.grids st.grids fl.grid
      constructor
      · intro f' fl' s' hf' hh
        simp only at hf'
        rw [set_get] at hf'
        by_cases c : f = f' ∧ f' < w.fields.length
        · rw [if_pos c] at hf'
          obtain ⟨rfl, c⟩ := c
          have e' := Option.some.inj hf'
          rw [← e'] at hh
          have hss : s = s' := Option.some.inj hh
          subst hss
          exact ⟨_, _, _, set_self (lt_of_get hs), set_self c, rfl, List.getElem?_idxOf a2⟩
        · rw [if_neg c] at hf'
          refine inPlace_grow (h.place f' fl' s' hf' hh) ?_ ?_
          · simp only
            rw [set_get, if_neg c]
          · intro st0 hs0
            simp only
            rw [set_get]
            by_cases c' : s = s' ∧ s' < w.sets.length
            · rw [if_pos c']
              obtain ⟨rfl, _⟩ := c'
              rw [hs] at hs0
              rw [← Option.some.inj hs0]
              exact ⟨_, rfl, a3⟩
            · rw [if_neg c']
              exact ⟨st0, hs0, List.prefix_refl _⟩
      · intro s' st' hs'
        simp only at hs'
        rw [set_get] at hs'
        split at hs'
        · rw [← Option.some.inj hs']
          exact addGrid_nodup _ _ _ (h.nodup s st hs)
        · exact h.nodup s' st' hs'
  | complete s =>
    simp only [step]
    rcases complete_cases w s with e | ⟨st, o, hs, ho, e⟩
    · rw [e]; exact h
    · rw [e]
      simp only [Option.getD_some]
      constructor
      · intro f fl s' hf hh
        refine inPlace_grow (h.place f fl s' hf hh) rfl ?_
        intro st0 hs0
        simp only
        rw [set_get]
        by_cases c' : s = s' ∧ s' < w.sets.length
        · rw [if_pos c']
          obtain ⟨rfl, _⟩ := c'
          rw [hs] at hs0
          rw [← Option.some.inj hs0]
          exact ⟨_, rfl, List.prefix_refl _⟩
        · rw [if_neg c']
          exact ⟨st0, hs0, List.prefix_refl _⟩
      · intro s' st' hs'
        simp only at hs'
        rw [set_get] at hs'
        split at hs'
        · rw [← Option.some.inj hs']
          exact h.nodup s st hs
        · exact h.nodup s' st' hs'

theorem inv_start (gs : List G) (gridOf : List Nat) : WInv (start gs gridOf) := by
  constructor
  · intro f fl s hf hh
    simp only [start, List.getElem?_map, Option.map_eq_some_iff] at hf
    obtain ⟨_, _, rfl⟩ := hf
    cases hh
  · intro s st hs
    simp [start] at hs

theorem inv_run : ∀ (ops : List Op) (w : W), WInv w → WInv (run w ops)
  | [], _, h => h
  | op :: ops, w, h => inv_run ops _ (inv_step h op)

end Parcels.SharedFields
