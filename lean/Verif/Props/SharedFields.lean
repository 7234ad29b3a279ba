import Mathlib.Data.List.Nodup
import Mathlib.Tactic.Ring
import Verif.Proofs.SharedFields

/-!
C89: a Field can be used in more than one FieldSet.

Full C89: putting the Fields of one FieldSet into another one (for instance to add up flows), and making ParticleSets with
either, does not change what particles of the first FieldSet see: their entries in the index arrays, and the date at which a
Field is sampled at a given time of the particles.

It is false; witnesses are below. Proved: the dates of the snapshots of a Field never change; a Field is in place in the
FieldSet it was last added to; a FieldSet is not changed by what is done with other Fields and Grids; after `check_complete`
the Fields of a FieldSet count time from its origin, until another FieldSet with one of its Grids is completed.
-/

namespace Parcels.SharedFields

/-- Whatever is done with FieldSets, the dates of the snapshots of a Field stay what they were. -/
theorem C89_dates (w : W) (ops : List Op) (f : Nat) : dates (run w ops) f = dates w f := run_dates ops w f

/-- C89 (partial): after any program, a Field is in place in the FieldSet it was last added to. -/
theorem C89_in_place_partial (gs : List G) (gridOf : List Nat) (ops : List Op) {f : Nat} {fl : F} {s : Nat}
    (hf : (run (start gs gridOf) ops).fields[f]? = some fl) (hs : fl.home = some s) :
    InPlace (run (start gs gridOf) ops) s f :=
  (inv_run ops _ (inv_start gs gridOf)).place f fl s hf hs

/-- C89 (partial): adding a Field to a FieldSet that is not completed makes that FieldSet the one it was last added to. -/
theorem C89_added {w : W} {s f : Nat} {st : S} {fl : F} (hs : w.sets[s]? = some st) (hf : w.fields[f]? = some fl)
    (hc : st.completed = false) : ∃ fl', (step w (.add s f)).fields[f]? = some fl' ∧ fl'.home = some s := by
  simp only [step]
  rcases addField_cases w s f with e | ⟨st', fl', _, _, _, e⟩
  · unfold addField at e
    rw [hs, hf] at e
    simp [hc] at e
  · rw [e]
    simp only [Option.getD_some]
    rw [set_get, if_pos ⟨rfl, lt_of_get hf⟩]
    exact ⟨_, rfl, rfl⟩

/-- Consequences of being in place, for particles of FieldSet `s`: the entry of each particle is one of its own, inside the
array; two Fields that are in place use the same entry exactly if they have the same grid. -/
theorem C89_entries {gs : List G} {gridOf : List Nat} {ops : List Op} {s f f' : Nat} (h : InPlace (run (start gs gridOf) ops) s f)
    (h' : InPlace (run (start gs gridOf) ops) s f') :
    ∃ (st : S) (fl fl' : F) (i i' : Nat), (run (start gs gridOf) ops).sets[s]? = some st ∧ (run (start gs gridOf) ops).fields[f]? = some fl ∧
      (run (start gs gridOf) ops).fields[f']? = some fl' ∧ fl.igrid = some i ∧ fl'.igrid = some i' ∧
      (∀ n p, p < n → entry st.grids.length p i < n * st.grids.length) ∧
      (∀ p p', entry st.grids.length p i = entry st.grids.length p' i' ↔ p = p' ∧ fl.grid = fl'.grid) := by
  obtain ⟨st, fl, i, h1, h2, h3, h4⟩ := h
  obtain ⟨st', fl', i', h1', h2', h3', h4'⟩ := h'
  have e : st' = st := by rw [h1] at h1'; exact (Option.some.inj h1').symm
  subst e
  have hn := (inv_run ops _ (inv_start gs gridOf)).nodup s st' h1
  have hi := lt_of_get h4
  have hi' := lt_of_get h4'
  refine ⟨st', fl, fl', i, i', h1, h2, h2', h3, h3', fun n p hp => ?_, fun p p' => ⟨fun he => ?_, ?_⟩⟩
  · unfold entry
    calc p * st'.grids.length + i < p * st'.grids.length + st'.grids.length := by omega
      _ = (p + 1) * st'.grids.length := by ring
      _ ≤ n * st'.grids.length := Nat.mul_le_mul_right _ hp
  · unfold entry at he
    have hpos : 0 < st'.grids.length := by omega
    have e1 : p = p' := by
      have a1 : (p * st'.grids.length + i) / st'.grids.length = p := by
        rw [Nat.add_comm, Nat.add_mul_div_right _ _ hpos, Nat.div_eq_of_lt hi, Nat.zero_add]
      have a2 : (p' * st'.grids.length + i') / st'.grids.length = p' := by
        rw [Nat.add_comm, Nat.add_mul_div_right _ _ hpos, Nat.div_eq_of_lt hi', Nat.zero_add]
      rw [← a1, ← a2, he]
    subst e1
    have e2 : i = i' := by omega
    subst e2
    rw [h4] at h4'
    exact ⟨rfl, Option.some.inj h4'⟩
  · rintro ⟨rfl, hg⟩
    rw [List.getElem?_eq_getElem hi] at h4
    rw [List.getElem?_eq_getElem hi'] at h4'
    have : st'.grids[i] = st'.grids[i'] := by
      rw [Option.some.inj h4, Option.some.inj h4', hg]
    rw [(List.Nodup.getElem_inj_iff hn).mp this]

/-- C89 (partial): an operation that has nothing to do with a FieldSet changes nothing of it. -/
theorem C89_untouched_partial {w : W} {s : Nat} {op : Op} (h : Apart w s op) (hs : s < w.sets.length) :
    view (step w op) s = view w s := by
  cases op with
  | new =>
    unfold view step newSet
    simp only
    rw [List.getElem?_append_left hs]
  | add t f =>
    obtain ⟨hts, hf⟩ := h
    simp only [step]
    rcases addField_cases w t f with e | ⟨st, fl, _, _, _, e⟩
    · rw [e]; rfl
    · rw [e]
      unfold view
      simp only [Option.getD_some]
      rw [set_get, if_neg (fun c => hts c.1)]
      cases hst : w.sets[s]? with
      | none => rfl
      | some st0 =>
        simp only [Option.map_some, Option.some.injEq, Prod.mk.injEq, true_and]
        apply List.map_congr_left
        intro g hg
        have : f ≠ g := fun c => hf st0 hst (c ▸ hg)
        rw [set_get, if_neg (fun c => this c.1)]
  | complete t =>
    obtain ⟨hts, hg⟩ := h
    simp only [step]
    rcases complete_cases w t with e | ⟨st, o, ht, ho, e⟩
    · rw [e]; rfl
    · rw [e]
      unfold view
      simp only [Option.getD_some]
      rw [set_get, if_neg (fun c => hts c.1)]
      cases hst : w.sets[s]? with
      | none => rfl
      | some st0 =>
        simp only [Option.map_some, Option.some.injEq, Prod.mk.injEq, true_and]
        apply List.map_congr_left
        intro f hf
        simp only [Prod.mk.injEq, true_and]
        cases hfl : w.fields[f]? with
        | none => rfl
        | some fl =>
          simp only [Option.bind_some]
          rw [shifted_get]
          have := hg st0 st hst ht f hf fl hfl
          simp [this]

/-- C89 (partial): when a FieldSet is completed, the times of every Field that is in place there count from its origin. -/
theorem C89_clock_partial {w w' : W} {s f : Nat} (h : InPlace w s f) (hc : complete w s = some w')
    (hg : ∀ fl, w.fields[f]? = some fl → fl.grid < w.grids.length) : OnClock w' s f := by
  obtain ⟨st, fl, i, h1, h2, h3, h4⟩ := h
  rcases complete_cases w s with e | ⟨st', o, hs, ho, e⟩
  · rw [e] at hc; cases hc
  · rw [h1] at hs
    have := Option.some.inj hs
    subst this
    rw [e] at hc
    rw [← Option.some.inj hc]
    have hlt := hg fl h2
    have hmem : fl.grid ∈ st.grids := List.mem_of_getElem? h4
    have k1 : (w.sets.set s { st with completed := true })[s]? = some { st with completed := true } := by
      rw [set_get, if_pos ⟨rfl, lt_of_get h1⟩]
    have k3 : (w.grids.zipIdx.map fun p => if p.2 ∈ st.grids then shiftTo o p.1 else p.1)[fl.grid]? = some (shiftTo o w.grids[fl.grid]) := by
      rw [shifted_get, List.getElem?_eq_getElem hlt]
      simp [hmem]
    refine ⟨_, fl, _, k1, h2, k3, ?_⟩
    rcases shiftTo_origin o w.grids[fl.grid] with h5 | h5
    · exact .inl (by rw [shiftTo_length]; exact h5)
    · exact .inr (by simp only; rw [h5]; exact ho)

/-- C89 (partial): this stays so, whatever is done with FieldSets, until another FieldSet that has the Field's grid is
completed. -/
theorem C89_clock_kept_partial {w : W} {s f : Nat} (h : OnClock w s f) {op : Op}
    (hop : ∀ t, op = .complete t → t = s ∨ ∀ st fl, w.sets[t]? = some st → w.fields[f]? = some fl → fl.grid ∉ st.grids) :
    OnClock (step w op) s f := by
  obtain ⟨st, fl, g, h1, h2, h3, h4⟩ := h
  cases op with
  | new =>
    refine ⟨st, fl, g, ?_, h2, h3, h4⟩
    simp only [step, newSet]
    rw [List.getElem?_append_left (lt_of_get h1)]
    exact h1
  | add t f' =>
    simp only [step]
    rcases addField_cases w t f' with e | ⟨st', fl', ht, hf', _, e⟩
    · rw [e]; exact ⟨st, fl, g, h1, h2, h3, h4⟩
    · rw [e]
      simp only [Option.getD_some]
      obtain ⟨a1, _, _⟩ := addGrid_spec w.grids st'.grids fl'.grid
      have kset : ∃ st2, (w.sets.set t { st' with
            grids := (addGrid w.grids st'.grids fl'.grid).1
            members := st'.members ++ [f']
            origin := st'.origin.orElse fun _ => (w.grids[(addGrid w.grids st'.grids fl'.grid).2]?).map (·.origin) })[s]? = some st2 ∧
          (g.time.length = 1 ∨ st2.origin = some g.origin) := by
        rw [set_get]
        split
        · rename_i c
          obtain ⟨rfl, _⟩ := c
          rw [h1] at ht
          have := Option.some.inj ht
          subst this
          refine ⟨_, rfl, ?_⟩
          rcases h4 with h4 | h4
          · exact .inl h4
          · exact .inr (by simp only [h4]; rfl)
        · exact ⟨st, h1, h4⟩
      obtain ⟨st2, k1, k2⟩ := kset
      by_cases c : f' = f ∧ f < w.fields.length
      · obtain ⟨cf, cl⟩ := c
        subst cf
        refine ⟨st2, _, g, k1, set_self cl, ?_, k2⟩
        simp only
        rw [h2] at hf'
        rw [a1, ← Option.some.inj hf']
        exact h3
      · refine ⟨st2, fl, g, k1, ?_, h3, k2⟩
        simp only
        rw [set_get, if_neg c]
        exact h2
  | complete t =>
    simp only [step]
    rcases complete_cases w t with e | ⟨st', o, ht, ho, e⟩
    · rw [e]; exact ⟨st, fl, g, h1, h2, h3, h4⟩
    · rw [e]
      simp only [Option.getD_some]
      rcases hop t rfl with rfl | hno
      · rw [h1] at ht
        have := Option.some.inj ht
        subst this
        have k1 : (w.sets.set t { st with completed := true })[t]? = some { st with completed := true } := by
          rw [set_get, if_pos ⟨rfl, lt_of_get h1⟩]
        have k3 : (w.grids.zipIdx.map fun p => if p.2 ∈ st.grids then shiftTo o p.1 else p.1)[fl.grid]? =
            some (if fl.grid ∈ st.grids then shiftTo o g else g) := by
          rw [shifted_get, h3]
          rfl
        refine ⟨_, fl, _, k1, h2, k3, ?_⟩
        split
        · rcases shiftTo_origin o g with h5 | h5
          · exact .inl (by rw [shiftTo_length]; exact h5)
          · exact .inr (by simp only; rw [h5]; exact ho)
        · exact h4
      · have hg := hno st' fl ht h2
        have k3 : (w.grids.zipIdx.map fun p => if p.2 ∈ st'.grids then shiftTo o p.1 else p.1)[fl.grid]? = some g := by
          rw [shifted_get, h3]
          simp [hg]
        have kset : ∃ st2, (w.sets.set t { st' with completed := true })[s]? = some st2 ∧ (g.time.length = 1 ∨ st2.origin = some g.origin) := by
          rw [set_get]
          split
          · rename_i c
            obtain ⟨rfl, _⟩ := c
            rw [h1] at ht
            have := Option.some.inj ht
            subst this
            exact ⟨_, rfl, h4⟩
          · exact ⟨st, h1, h4⟩
        obtain ⟨st2, k1, k2⟩ := kset
        exact ⟨st2, fl, g, k1, h2, k3, k2⟩

/-! ### A concrete case, and where C89 fails -/

/-- A flow (Fields 0 and 1, grid 0, origin 0) and waves (Fields 2 and 3, grid 1, origin 100), each in its FieldSet. -/
def exStart : W := start [⟨0, [0, 10, 20], 0⟩, ⟨1, [0, 10, 20], 100⟩] [0, 0, 1, 1]
def exTwo : List Op := [.new, .add 0 0, .add 0 1, .new, .add 1 2, .add 1 3, .complete 0, .complete 1]
/-- Then both are added up in a third FieldSet, with which a ParticleSet is made. -/
def exSum : List Op := [.new, .add 2 0, .add 2 2, .add 2 1, .add 2 3, .complete 2]

example : InPlace (run exStart exTwo) 1 2 ∧ OnClock (run exStart exTwo) 1 2 :=
  ⟨⟨_, _, _, rfl, rfl, rfl, rfl⟩, ⟨_, _, _, rfl, rfl, rfl, .inr (by decide +kernel)⟩⟩
example : Apart (run exStart exTwo) 0 (.complete 1) := by
  refine ⟨by decide, fun st st' h h' f hf fl hfl => ?_⟩
  have e : st = ⟨[0], [0, 1], some 0, true⟩ := by
    have h2 : (run exStart exTwo).sets[0]? = some ⟨[0], [0, 1], some 0, true⟩ := by decide +kernel
    rw [h2] at h; exact (Option.some.inj h).symm
  have e' : st' = ⟨[1], [2, 3], some 100, true⟩ := by
    have h2 : (run exStart exTwo).sets[1]? = some ⟨[1], [2, 3], some 100, true⟩ := by decide +kernel
    rw [h2] at h'; exact (Option.some.inj h').symm
  subst e e'
  simp only [List.mem_cons, List.not_mem_nil, or_false] at hf
  rcases hf with rfl | rfl
  · have h2 : (run exStart exTwo).fields[0]? = some ⟨0, some 0, some 0⟩ := by decide +kernel
    rw [h2] at hfl
    rw [← Option.some.inj hfl]
    decide
  · have h2 : (run exStart exTwo).fields[1]? = some ⟨0, some 0, some 0⟩ := by decide +kernel
    rw [h2] at hfl
    rw [← Option.some.inj hfl]
    decide

/-- C89 fails: the FieldSet of the waves has one grid, and its particles one entry each. After its Fields were put into the
third FieldSet, they are no longer in place: the entry that is used for particle 4 of 5 is outside the array, and the entry
used for any other particle is that of the next one. -/
theorem C89_entry_fails :
    InPlace (run exStart exTwo) 1 2 ∧ ¬ InPlace (run exStart (exTwo ++ exSum)) 1 2 ∧
    ∃ st fl, (run exStart (exTwo ++ exSum)).sets[1]? = some st ∧ (run exStart (exTwo ++ exSum)).fields[2]? = some fl ∧
      2 ∈ st.members ∧ st.grids = [1] ∧ fl.grid = 1 ∧ fl.igrid = some 1 ∧
      entry st.grids.length 4 1 = 5 * st.grids.length ∧ ∀ p, entry st.grids.length p 1 = entry st.grids.length (p + 1) 0 := by
  have e1 : (run exStart (exTwo ++ exSum)).sets[1]? = some ⟨[1], [2, 3], some 100, true⟩ := by decide +kernel
  have e2 : (run exStart (exTwo ++ exSum)).fields[2]? = some ⟨1, some 1, some 2⟩ := by decide +kernel
  refine ⟨⟨_, _, _, rfl, rfl, rfl, rfl⟩, ?_, ⟨_, _, e1, e2, by decide, rfl, rfl, rfl, rfl, fun p => by simp [entry]⟩⟩
  rintro ⟨st, fl, i, h1, h2, h3, h4⟩
  rw [e1] at h1
  rw [e2] at h2
  have := Option.some.inj h1
  subst this
  have := Option.some.inj h2
  subst this
  have : 1 = i := Option.some.inj h3
  subst this
  simp at h4

/-- C89 fails: the times of the waves now count from the origin of the flow, while the particles of the FieldSet of the
waves, also those made before, count from the old origin: at their time 0 (date 100) they see the first snapshot no more,
whose time is now 100. -/
theorem C89_clock_fails :
    OnClock (run exStart exTwo) 1 2 ∧ ¬ OnClock (run exStart (exTwo ++ exSum)) 1 2 ∧
    (run exStart exTwo).grids[1]? = some ⟨1, [0, 10, 20], 100⟩ ∧
    (run exStart (exTwo ++ exSum)).grids[1]? = some ⟨1, [100, 110, 120], 0⟩ ∧
    ((run exStart (exTwo ++ exSum)).sets[1]?).map (·.origin) = some (some 100) := by
  have e1 : (run exStart (exTwo ++ exSum)).sets[1]? = some ⟨[1], [2, 3], some 100, true⟩ := by decide +kernel
  have e2 : (run exStart (exTwo ++ exSum)).fields[2]? = some ⟨1, some 1, some 2⟩ := by decide +kernel
  have e3 : (run exStart (exTwo ++ exSum)).grids[1]? = some ⟨1, [100, 110, 120], 0⟩ := by decide +kernel
  refine ⟨⟨_, _, _, rfl, rfl, rfl, .inr (by decide +kernel)⟩, ?_, by decide +kernel, e3, by rw [e1]; rfl⟩
  rintro ⟨st, fl, g, h1, h2, h3, h4⟩
  rw [e1] at h1
  rw [e2] at h2
  have := Option.some.inj h1
  subst this
  have := Option.some.inj h2
  subst this
  rw [e3] at h3
  have := Option.some.inj h3
  subst this
  rcases h4 with h4 | h4
  · simp at h4
  · exact absurd h4 (by decide +kernel)

/-- C89 fails also if both have the same coordinates, times and origin: the Fields of the second FieldSet get the grid of the
first one, which the second FieldSet does not have. -/
theorem C89_grid_fails :
    let w := start [⟨0, [0, 10, 20], 0⟩, ⟨0, [0, 10, 20], 0⟩] [0, 0, 1, 1]
    InPlace (run w exTwo) 1 2 ∧ ¬ InPlace (run w (exTwo ++ exSum)) 1 2 ∧
    ((run w (exTwo ++ exSum)).sets[1]?).map (·.grids) = some [1] ∧ ((run w (exTwo ++ exSum)).fields[2]?).map (·.grid) = some 0 := by
  intro w
  have e1 : (run w (exTwo ++ exSum)).sets[1]? = some ⟨[1], [2, 3], some 0, true⟩ := by decide +kernel
  have e2 : (run w (exTwo ++ exSum)).fields[2]? = some ⟨0, some 0, some 2⟩ := by decide +kernel
  have b1 : (run w exTwo).sets[1]? = some ⟨[1], [2, 3], some 0, true⟩ := by decide +kernel
  have b2 : (run w exTwo).fields[2]? = some ⟨1, some 0, some 1⟩ := by decide +kernel
  refine ⟨⟨_, _, 0, b1, b2, rfl, rfl⟩, ?_, by rw [e1]; rfl, by rw [e2]; rfl⟩
  rintro ⟨st, fl, i, h1, h2, h3, h4⟩
  rw [e1] at h1
  rw [e2] at h2
  have := Option.some.inj h1
  subst this
  have := Option.some.inj h2
  subst this
  have : 0 = i := Option.some.inj h3
  subst this
  simp at h4

end Parcels.SharedFields
