import Verif.Spec.Dispatch
import Verif.Props.Collection

/-!
Lemmas for C91.
-/

namespace Parcels.Dispatch

open Parcels.Collection

variable {V : Type}

theorem npIndex_iff (n : Nat) (i : ℤ) (k : Nat) :
    npIndex n i = some k ↔ k < n ∧ (i = k ∨ i + n = k) := by
  unfold npIndex
  split_ifs with h1 h2
  · simp only [Option.some.injEq]; omega
  · simp only [Option.some.injEq]; omega
  · simp only [reduceCtorEq, false_iff]; omega

theorem ids_inj {l : List ℤ} (hn : l.Nodup) {a b : Nat} {x : ℤ} (ha : l[a]? = some x) (hb : l[b]? = some x) :
    a = b := by
  obtain ⟨h1, e1⟩ := List.getElem?_eq_some_iff.mp ha
  obtain ⟨h2, e2⟩ := List.getElem?_eq_some_iff.mp hb
  exact (List.Nodup.getElem_inj_iff hn).mp (e1.trans e2.symm)

theorem lt_of_some {l : List ℤ} {a : Nat} {x : ℤ} (ha : l[a]? = some x) : a < l.length :=
  (List.getElem?_eq_some_iff.mp ha).1

/-- What the argument of the specific methods is, for a single particle. -/
inductive Way where
  | index (i : ℤ)
  | id (i : ℤ)

/-- Whether the way leads to position `k`. -/
def Way.leads (c : Coll V) : Way → Nat → Prop
  | .index i, k => npIndex c.ids.length i = some k
  | .id i, k => c.ids[k]? = some i

/-- How the code treats a single argument. -/
def wayOf (w : Bool) : Arg → Way
  | .num t i => if isIndex w t then .index i else .id i
  | .particle id => .id id
  | _ => .index 0

theorem wayOf_leads {w : Bool} {a : Arg} (hs : Single a) (h : NoInt64 a ∨ w = false) (c : Coll V) (k : Nat) :
    (wayOf w a).leads c k ↔ Denotes c a k := by
  cases a with
  | num t i =>
    have hk : c.ids[k]? = some i → k < c.ids.length := fun h => lt_of_some h
    cases t <;> simp only [wayOf, isIndex, if_true, Denotes, Meant, standsForID, Way.leads, npIndex_iff]
    · simp
    · simp
    · rcases h with h | h
      · exact absurd rfl h
      · subst h
        simpa [Way.leads] using hk
    · simpa [Way.leads] using hk
  | particle id => rfl
  | none => cases hs
  | same => cases hs
  | other => cases hs
  | arr t l => cases hs
  | objs n => cases hs
  | thing => cases hs

theorem get_way {w : Bool} {a : Arg} (hs : Single a) (c : Coll V) :
    get w c a = match wayOf w a with | .index i => .ok (.one i) | .id i => getByID c i := by
  cases a with
  | num t i => cases t <;> cases w <;> rfl
  | particle id => rfl
  | none => cases hs
  | same => cases hs
  | other => cases hs
  | arr t l => cases hs
  | objs n => cases hs
  | thing => cases hs

theorem remove_way {w : Bool} {a : Arg} (hs : Single a) (c : Coll V) :
    remove w c a = match wayOf w a with
      | .index i => lift (removeSingle c i) | .id i => lift (removeByID c i) := by
  cases a with
  | num t i => cases t <;> cases w <;> rfl
  | particle id => rfl
  | none => cases hs
  | same => cases hs
  | other => cases hs
  | arr t l => cases hs
  | objs n => cases hs
  | thing => cases hs

theorem removeSingle_some {c : Coll V} (ha : Aligned c) {i : ℤ} {k : Nat}
    (h : npIndex c.ids.length i = some k) :
    ∃ c', removeSingle c i = .ok c' ∧ rows c' = without [k] (rows c) ∧ Aligned c' := by
  have hk : k < c.ids.length := ((npIndex_iff _ _ _).mp h).1
  obtain ⟨c', h1, h2⟩ := C15_remove_index ha k hk
  have e : removeSingle c i = removeSingle c (k : ℤ) := by
    unfold removeSingle; rw [h, npIndex_nat hk]
  have hr : Reasonable c (.removeIndex (k : ℤ)) := trivial
  refine ⟨c', e.trans h1, h2, ?_⟩
  have hl : (npDelete [k] c.ids).length = c.ids.length - 1 ∧
      ∀ p ∈ c.cols, (npDelete [k] p.2).length = c.ids.length - 1 := by
    have key : ∀ {α : Type} (l : List α), k < l.length → (npDelete [k] l).length = l.length - 1 := by
      intro α l hl
      unfold npDelete survivors
      have e1 : ((List.range l.length).filter fun i => i ∉ [k]) = (List.range l.length).erase k := by
        rw [List.Nodup.erase_eq_filter List.nodup_range]
        apply List.filter_congr
        intro x _
        by_cases hx : x = k <;> simp [hx]
      have e2 : ∀ ks : List Nat, (∀ j ∈ ks, j < l.length) → (ks.filterMap fun i => l[i]?).length = ks.length := by
        intro ks
        induction ks with
        | nil => intro _; rfl
        | cons j ks ih =>
          intro hj
          rw [List.filterMap_cons, List.getElem?_eq_getElem (hj j (by simp))]
          simp [ih (fun i hi => hj i (by simp [hi]))]
      rw [e2 _ (by intro j hj; rw [List.mem_filter, List.mem_range] at hj; exact hj.1), e1,
        List.length_erase_of_mem (List.mem_range.mpr hl), List.length_range]
    exact ⟨key _ hk, fun p hp => by rw [key p.2 (by rw [ha.2 p hp]; exact hk), ha.2 p hp]⟩
  unfold removeSingle at h1
  rw [npIndex_nat hk] at h1
  injection h1 with h1
  subst h1
  refine ⟨?_, ?_⟩
  · show c.ncount - 1 = ((npDelete [k] c.ids).length : ℤ)
    rw [hl.1, ha.1]; omega
  · intro p hp
    obtain ⟨q, hq, rfl⟩ := List.mem_map.mp hp
    show (npDelete [k] q.2).length = (npDelete [k] c.ids).length
    rw [hl.1, hl.2 q hq]

end Parcels.Dispatch
