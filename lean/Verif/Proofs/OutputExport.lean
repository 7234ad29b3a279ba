import Verif.Model.Export
import Verif.Props.Npy
import Mathlib.Data.List.Perm.Basic
import Mathlib.Data.List.Perm.Subperm

/-!
Lemmas for the end-to-end statement: everything a run stores fits into the exported array.
-/

namespace Parcels.Output

open Parcels.Npy

variable {V : Type}

theorem maxWith_ge (l : List (P V)) : ∀ m : ℤ, m ≤ maxWith m l := by
  induction l with
  | nil => intro m; exact le_refl _
  | cons p l ih => intro m; exact le_trans (le_max_left _ _) (ih (max m p.id))

theorem maxWith_mem (l : List (P V)) : ∀ (m : ℤ), ∀ p ∈ l, p.id ≤ maxWith m l := by
  induction l with
  | nil => intro m p hp; simp at hp
  | cons q l ih =>
    intro m p hp
    rcases List.mem_cons.mp hp with rfl | hp
    · exact le_trans (le_max_right _ _) (maxWith_ge l _)
    · exact ih _ p hp

/-- What one call does to the largest ID and to the list of output times. -/
theorem toDict_grow {f f' : PFile} {ps d o : List (P V)} {time : ℚ} {req : Req}
    (h : toDict f ps time req = some (f', d, o)) :
    f.maxid ≤ f'.maxid ∧ (∀ p ∈ d, p.id ≤ f'.maxid) ∧ (∀ t ∈ f.timeWritten, t ∈ f'.timeWritten) ∧
    (d ≠ [] → time ∈ f'.timeWritten) ∧ (f.timeWritten.Nodup → f'.timeWritten.Nodup) := by
  unfold toDict at h
  split at h
  · split at h
    · injection h with h; injection h with h1 h2; injection h2 with h2 h3
      subst h1; subst h2
      refine ⟨?_, by simp, ?_, by simp, ?_⟩
      · split <;> exact le_refl _
      · split <;> exact fun t ht => ht
      · split <;> exact fun t => t
    · simp only at h
      split at h
      · cases h
      · injection h with h; injection h with h1 h2; injection h2 with h2 h3
        subst h1; subst h2
        refine ⟨?_, ?_, ?_, ?_, ?_⟩
        · rcases (choose ps time req).2 with _ | _
          · exact le_refl _
          · exact maxWith_ge _ _
        · rcases hc : (choose ps time req).2 with _ | _
          · simp
          · simp only [cond_true]
            exact fun p hp => maxWith_mem _ _ p hp
        · intro t ht
          show t ∈ (if time ∈ f.timeWritten then f.timeWritten else f.timeWritten ++ [time])
          split
          · exact ht
          · simp [ht]
        · intro _
          show time ∈ (if time ∈ f.timeWritten then f.timeWritten else f.timeWritten ++ [time])
          split
          · assumption
          · simp
        · intro hn
          show (if time ∈ f.timeWritten then f.timeWritten else f.timeWritten ++ [time]).Nodup
          split
          · exact hn
          · rename_i hnm
            rw [List.nodup_append]
            refine ⟨hn, by simp, ?_⟩
            intro a ha b hb
            simp only [List.mem_singleton] at hb
            rintro rfl; subst hb; exact hnm ha
  · injection h with h; injection h with h1 h2; injection h2 with h2 h3
    subst h1; subst h2
    exact ⟨le_refl _, by simp, fun t ht => ht, by simp, fun t => t⟩

/-- The same over a whole history. -/
theorem run_grow : ∀ (es : List (Event V)) (f : PFile),
    f.maxid ≤ (run f es).1.maxid ∧ (∀ t ∈ f.timeWritten, t ∈ (run f es).1.timeWritten) ∧
    (f.timeWritten.Nodup → (run f es).1.timeWritten.Nodup) ∧
    (∀ o ∈ (run f es).2.1, (∀ p ∈ o.data, p.id ≤ (run f es).1.maxid) ∧
      (o.data ≠ [] → o.time ∈ (run f es).1.timeWritten)) := by
  intro es
  induction es with
  | nil => intro f; simp [run]
  | cons e es ih =>
    intro f
    rcases h : toDict f e.ps e.time e.req with _ | ⟨f', d, o⟩
    · rw [run_cons_none h]; simp
    · obtain ⟨c1, c2, _⟩ := run_cons_some (es := es) h
      rw [c1, c2]
      obtain ⟨g1, g2, g3, g4, g5⟩ := toDict_grow h
      obtain ⟨i1, i2, i3, i4⟩ := ih f'
      refine ⟨le_trans g1 i1, fun t ht => i2 t (g3 t ht), fun hn => i3 (g5 hn), ?_⟩
      intro o' ho'
      rcases List.mem_cons.mp ho' with rfl | ho'
      · exact ⟨fun p hp => le_trans (g2 p hp) i1, fun hne => i2 _ (g4 hne)⟩
      · exact i4 o' ho'

theorem filesOf_records {W : Type} (path : Nat → List Char) (val : P V → W) (outs : List (Out V)) (i : Nat)
    (hpos : ∀ o ∈ outs, ∀ p ∈ o.data, 0 ≤ p.id) :
    recordsOf (filesOf path val outs) i =
      ((allData outs).filter fun p => p.id = (i : ℤ)).map val := by
  have key : ∀ (l : List (Out V)) (k : Nat), (∀ o ∈ l, ∀ p ∈ o.data, 0 ≤ p.id) →
      recordsOf ((l.zipIdx k).map fun q =>
        ({ path := path q.2, recs := q.1.data.map fun p => (p.id.toNat, val p) } : NpyFile W)) i =
      ((allData l).filter fun p => p.id = (i : ℤ)).map val := by
    intro l
    induction l with
    | nil => intro k _; simp [recordsOf, allData]
    | cons o l ih =>
      intro k hp
      have e := ih (k + 1) (fun x hx => hp x (by simp [hx]))
      simp only [recordsOf, List.zipIdx_cons, List.map_cons, List.flatMap_cons, allData, List.filter_append,
        List.map_append] at e ⊢
      rw [e]
      congr 1
      rw [List.filter_map, List.map_map]
      have : (o.data.filter ((fun r : Nat × W => decide (r.1 = i)) ∘ fun p => (p.id.toNat, val p))) =
          o.data.filter fun p => decide (p.id = (i : ℤ)) := by
        apply List.filter_congr
        intro p hpm
        have := hp o (by simp) p hpm
        rw [Bool.eq_iff_iff, Function.comp, decide_eq_true_eq, decide_eq_true_eq]
        simp only
        omega
      rw [this]
      rfl
  unfold filesOf
  rw [key _ 0 (fun o ho => hpos o (List.mem_filter.mp ho).1)]
  congr 2
  unfold allData
  clear key hpos
  induction outs with
  | nil => rfl
  | cons o outs ih =>
    rcases hd : o.data with _ | ⟨p, d⟩
    · rw [List.filter_cons_of_neg (by simp [hd]), List.flatMap_cons, hd, ih]; rfl
    · rw [List.filter_cons_of_pos (by simp [hd]), List.flatMap_cons, List.flatMap_cons, ih]

/-- A particle has at most as many records as there are output times. -/
theorem records_le_times (outs : List (Out V)) (times : List ℚ) (i : ℤ)
    (hn : (recordKeys outs).Nodup) (ht : ∀ o ∈ outs, o.data ≠ [] → o.time ∈ times) :
    ((allData outs).filter fun p => p.id = i).length ≤ times.length := by
  have hlen : ((allData outs).filter fun p => p.id = i).length =
      (((recordKeys outs).filter fun k => k.2 = i).map (·.1)).length := by
    rw [List.length_map]
    unfold allData recordKeys
    clear hn ht
    induction outs with
    | nil => rfl
    | cons o outs ih =>
      rw [List.flatMap_cons, List.flatMap_cons, List.filter_append, List.filter_append, List.length_append,
        List.length_append, ih, List.filter_map, List.length_map]
      rfl
  rw [hlen]
  apply List.Subperm.length_le
  apply List.subperm_of_subset
  · have hnf := hn.filter (fun k => decide (k.2 = i))
    rw [List.nodup_iff_pairwise_ne] at hnf ⊢
    rw [List.pairwise_map]
    apply hnf.imp_of_mem
    intro a b ha hb hab
    rw [List.mem_filter, decide_eq_true_eq] at ha hb
    intro heq
    apply hab
    exact Prod.ext heq (ha.2.trans hb.2.symm)
  · intro t htm
    obtain ⟨k, hk, rfl⟩ := List.mem_map.mp htm
    have hk := (List.mem_filter.mp hk).1
    unfold recordKeys at hk
    rw [List.mem_flatMap] at hk
    obtain ⟨o, ho, hk⟩ := hk
    obtain ⟨p, hp, rfl⟩ := List.mem_map.mp hk
    exact ht o ho (List.ne_nil_of_mem hp)

end Parcels.Output
