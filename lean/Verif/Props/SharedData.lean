import Verif.Model.SharedData
import Verif.Props.Collection

/-!
C61: operations on one ParticleSet never change another one.
-/

namespace Parcels.SharedData
open Parcels.Collection

variable {V : Type}

/-- The set an operation is about. -/
def target : Op V → Option Nat
  | .new _ => none
  | .add a _ => some a
  | .remove a _ => some a

/-- No set is added to a set that has no particles at that moment. -/
def NoAddToEmpty (w : World V) : List (Op V) → Prop
  | [] => True
  | o :: ops =>
    (match o with
      | .add a _ => ∀ c, view w a = some c → c.ncount ≠ 0
      | _ => True) ∧ NoAddToEmpty (step w o) ops

/-- All dictionaries are held by one set only, and exist. -/
def Separate (w : World V) : Prop :=
  (w.sets.map (·.addr)).Nodup ∧ ∀ r ∈ w.sets, r.addr < w.heap.length

theorem map_addr_set (l : List Ref) (a : Nat) (r r' : Ref) (h : l[a]? = some r) (he : r'.addr = r.addr) :
    (l.set a r').map (·.addr) = l.map (·.addr) := by
  rw [List.map_set, he]
  apply List.ext_getElem?
  intro i
  by_cases hi : i = a
  · subst hi
    have hlt : i < l.length := by
      by_contra hh; rw [List.getElem?_eq_none (by omega)] at h; cases h
    rw [List.getElem?_set_self (by simpa using hlt), List.getElem?_map, h]
    rfl
  · rw [List.getElem?_set_ne (Ne.symm hi)]

theorem store_separate {w : World V} {a : Nat} {r : Ref} {c : Coll V} (hs : Separate w)
    (hr : w.sets[a]? = some r) : Separate (store w a r c) := by
  refine ⟨?_, ?_⟩
  · have := map_addr_set w.sets a r { addr := r.addr, ncount := c.ncount, sorted := c.sorted } hr rfl
    show ((w.sets.set a { addr := r.addr, ncount := c.ncount, sorted := c.sorted }).map (·.addr)).Nodup
    rw [this]; exact hs.1
  · intro r' hr'
    have : (store w a r c).heap.length = w.heap.length := by simp [store]
    rw [this]
    rcases List.mem_or_eq_of_mem_set hr' with h | h
    · exact hs.2 r' h
    · subst h; exact hs.2 r (List.mem_of_getElem? hr)

theorem store_view_other {w : World V} {a b : Nat} {r : Ref} {c : Coll V} (hs : Separate w)
    (hr : w.sets[a]? = some r) (hb : b ≠ a) : view (store w a r c) b = view w b := by
  unfold view store
  simp only
  rw [List.getElem?_set_ne (Ne.symm hb)]
  rcases hrb : w.sets[b]? with _ | rb
  · rfl
  · simp only
    have hne : r.addr ≠ rb.addr := by
      intro he
      have ha : a < w.sets.length := by
        by_contra hh; rw [List.getElem?_eq_none (by omega)] at hr; cases hr
      have hbl : b < w.sets.length := by
        by_contra hh; rw [List.getElem?_eq_none (by omega)] at hrb; cases hrb
      rw [List.getElem?_eq_getElem ha] at hr
      rw [List.getElem?_eq_getElem hbl] at hrb
      injection hr with hr; injection hrb with hrb
      have := (List.nodup_iff_injective_getElem.mp hs.1)
      have h2 := @this ⟨a, by simpa using ha⟩ ⟨b, by simpa using hbl⟩ (by simp [hr, hrb, he])
      simp at h2; omega
    rw [List.getElem?_set_ne hne]

theorem step_sep {w : World V} {o : Op V} (hs : Separate w)
    (hn : match o with | .add a _ => ∀ c, view w a = some c → c.ncount ≠ 0 | _ => True) :
    Separate (step w o) ∧
    ∀ b, some b ≠ target o → ∀ c, view w b = some c → view (step w o) b = some c := by
  cases o with
  | new c =>
    refine ⟨⟨?_, ?_⟩, ?_⟩
    · simp only [step, new, List.map_append, List.map_cons, List.map_nil]
      rw [List.nodup_append]
      refine ⟨hs.1, by simp, ?_⟩
      intro x hx y hy
      simp at hy; subst hy
      simp only [List.mem_map] at hx
      obtain ⟨r, hr, rfl⟩ := hx
      have := hs.2 r hr; omega
    · intro r hr
      simp only [step, new, List.mem_append, List.mem_singleton] at hr
      simp only [step, new, List.length_append, List.length_singleton]
      rcases hr with h | h
      · have := hs.2 r h; omega
      · subst h; simp
    · intro b _ c' hv
      unfold view at hv ⊢
      simp only [step, new]
      rcases hrb : w.sets[b]? with _ | rb
      · rw [hrb] at hv; cases hv
      · rw [hrb] at hv
        have hbl : b < w.sets.length := by
          by_contra hh; rw [List.getElem?_eq_none (by omega)] at hrb; cases hrb
        rw [List.getElem?_append_left hbl, hrb]
        simp only at hv ⊢
        rw [List.getElem?_append_left (hs.2 rb (List.mem_of_getElem? hrb))]
        exact hv
  | add a b =>
    simp only [step, add]
    split
    · rename_i ra rb ca cb h1 h2 h3 h4
      split
      · exact ⟨hs, fun b _ c hc => hc⟩
      · split
        · rename_i h0
          have := hn ca h3
          exfalso
          apply this
          unfold view at h3
          rw [h1] at h3
          simp only at h3
          split at h3
          · cases h3
          · injection h3 with h3; subst h3; exact h0
        · refine ⟨store_separate hs h1, ?_⟩
          intro b' hb' c hc
          rw [store_view_other hs h1 (by intro he; apply hb'; rw [he]; rfl)]
          exact hc
    · exact ⟨hs, fun b _ c hc => hc⟩
  | remove a idx =>
    simp only [step, remove]
    split
    · rename_i ra ca h1 h2
      split
      · refine ⟨store_separate hs h1, ?_⟩
        intro b' hb' c hc
        rw [store_view_other hs h1 (by intro he; apply hb'; rw [he]; rfl)]
        exact hc
      · exact ⟨hs, fun b _ c hc => hc⟩
    · exact ⟨hs, fun b _ c hc => hc⟩

theorem sep_of_history (ops : List (Op V)) : ∀ (w : World V), Separate w → NoAddToEmpty w ops →
    Separate (ops.foldl step w) ∧
    ∀ b, (∀ o ∈ ops, target o ≠ some b) → ∀ c, view w b = some c → view (ops.foldl step w) b = some c := by
  induction ops with
  | nil => intro w hs _; exact ⟨hs, fun _ _ _ h => h⟩
  | cons o ops ih =>
    intro w hs hn
    obtain ⟨g1, g2⟩ := step_sep hs hn.1
    obtain ⟨k1, k2⟩ := ih (step w o) g1 hn.2
    refine ⟨k1, ?_⟩
    intro b hb c hc
    exact k2 b (fun o' ho' => hb o' (by simp [ho'])) c (g2 b (Ne.symm (hb o (by simp))) c hc)

/-- C61, partial: after any history `before` of constructions, additions and removals, any further
operations `after` that are not on set `b` leave set `b` exactly as it was. It may have been added to
other sets. Missing: additions to an empty set, see `C61_negation`. -/
theorem C61_other_sets_unchanged_partial (before after : List (Op V)) (b : Nat) (c : Coll V)
    (hn : NoAddToEmpty { heap := [], sets := [] } (before ++ after))
    (hb : ∀ o ∈ after, target o ≠ some b) (hv : view (run before) b = some c) :
    view (run (before ++ after)) b = some c := by
  have split_na : ∀ (l m : List (Op V)) (w : World V), NoAddToEmpty w (l ++ m) →
      NoAddToEmpty w l ∧ NoAddToEmpty (l.foldl step w) m := by
    intro l
    induction l with
    | nil => intro m w h; exact ⟨trivial, h⟩
    | cons o l ih =>
      intro m w h
      obtain ⟨h1, h2⟩ := ih m (step w o) h.2
      exact ⟨⟨h.1, h1⟩, h2⟩
  obtain ⟨h1, h2⟩ := split_na before after _ hn
  have hs0 : Separate (V := V) { heap := [], sets := [] } := ⟨by simp, by simp⟩
  obtain ⟨k1, _⟩ := sep_of_history before _ hs0 h1
  obtain ⟨_, k2⟩ := sep_of_history after _ k1 h2
  unfold run
  rw [List.foldl_append]
  exact k2 b hb c hv

/-- A history with an addition and a removal that meets the hypotheses. -/
example : NoAddToEmpty (V := Nat) { heap := [], sets := [] }
      ([.new exA, .new exB] ++ [.add 0 1, .remove 0 [3, 4]]) ∧
    view (run [.new exA, .new exB]) 1 = some exB ∧
    view (run ([.new exA, .new exB] ++ [.add 0 1, .remove 0 [3]])) 1 = some exB ∧
    (view (run ([.new exA, .new exB] ++ [.add 0 1, .remove 0 [3]])) 0).map (·.ids) = some [0, 1, 2, 4] := by
  refine ⟨⟨trivial, trivial, ?_, trivial, trivial⟩, by decide, by decide, by decide⟩
  intro c hc
  have h : view (step (step ({ heap := [], sets := [] } : World Nat) (.new exA)) (.new exB)) 0 = some exA := by
    decide
  rw [h] at hc
  injection hc with hc
  rw [← hc]; decide

/-- C61 is false: add set B to an empty set A, then remove a particle from A. The particle is gone from B
too, although nothing was done to B, and B still reports two particles. -/
theorem C61_negation :
    let w := run [.new (construct (V := Nat) 0 [] [("lon", []), ("state", [])]).1, .new exB, .add 0 1]
    view w 1 = some exB ∧
    (view (step w (.remove 0 [0])) 1).map (·.ids) = some [4] ∧
    (view (step w (.remove 0 [0])) 1).map (·.ncount) = some 2 := by decide

end Parcels.SharedData
