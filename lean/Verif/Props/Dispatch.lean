import Verif.Proofs.Dispatch

/-!
C91: the generic access methods of a particle collection act on the particles that their argument
stands for.
-/

namespace Parcels.Dispatch

open Parcels.Collection

variable {V : Type}

/-- Three particles with IDs 1, 2, 3 (the particle with ID 0 was removed). -/
def three : Coll Nat := ⟨[1, 2, 3], [("lon", [10, 20, 30]), ("state", [0, 0, 0])], 3, true⟩

/-- Four particles with IDs 0, 1, 2, 3. -/
def four : Coll Nat := ⟨[0, 1, 2, 3], [("lon", [0, 10, 20, 30]), ("state", [0, 0, 0, 0])], 4, true⟩

theorem three_ok : Aligned three ∧ FlagOK three ∧ three.ids.Nodup := by
  refine ⟨⟨rfl, by decide⟩, fun _ => by decide, by decide⟩

/-- C91, partial (numbers and particles; no `np.int64` unless the platform has 32 bits): `get` gives
an accessor of exactly the particle that the argument stands for. If the argument stands for no
particle, `get` raises, or the accessor given is for an index that does not exist. -/
theorem C91_get_partial {c : Coll V} (hf : FlagOK c) (hn : c.ids.Nodup) {w : Bool} {a : Arg}
    (hs : Single a) (h : NoInt64 a ∨ w = false) :
    ((∃ k, Denotes c a k) → ∃ i, get w c a = .ok (.one i)) ∧
    (∀ g, get w c a = .ok g → ∃ i, g = .one i ∧
      ∀ k, (k < c.ids.length ∧ (i = k ∨ i + c.ids.length = k)) ↔ Denotes c a k) := by
  rw [get_way hs]
  have hl := fun k => wayOf_leads hs h c k
  rcases hw : wayOf w a with i | i
  · rw [hw] at hl
    refine ⟨fun _ => ⟨i, rfl⟩, ?_⟩
    intro g hg
    injection hg with hg
    exact ⟨i, hg.symm, fun k => (npIndex_iff _ _ _).symm.trans (hl k)⟩
  · rw [hw] at hl
    refine ⟨?_, ?_⟩
    · rintro ⟨k, hk⟩
      have hk' : c.ids[k]? = some i := (hl k).mpr hk
      obtain ⟨j, hj⟩ := indexOfID_found hf (List.mem_of_getElem? hk')
      refine ⟨j, ?_⟩
      simp only [getByID, hj]
    · intro g hg
      simp only [getByID] at hg
      rcases hj : indexOfID c i with e | j
      · rw [hj] at hg; cases hg
      · rw [hj] at hg
        injection hg with hg
        refine ⟨j, hg.symm, fun k => ?_⟩
        have h1 := (indexOfID_ok hf hj).1
        have h2 := lt_of_some h1
        rw [← hl k]
        constructor
        · rintro ⟨h3, h4⟩
          have : j = k := by omega
          subst this; exact h1
        · intro h3
          have h4 : j = k := ids_inj hn h1 h3
          subst h4; exact ⟨h2, Or.inl rfl⟩

example : Denotes three (.num .u64 3) 2 ∧ get true three (.num .u64 3) = .ok (.one 2) ∧
    get true three (.num .py (-1)) = .ok (.one (-1)) ∧ get true three (.particle 2) = .ok (.one 1) ∧
    get false three (.num .i64 3) = .ok (.one 2) ∧ Single (.num .u64 3) ∧ NoInt64 (.num .u64 3) :=
  ⟨⟨by decide, fun _ => rfl, fun h => absurd trivial h⟩, rfl, rfl, rfl, rfl, trivial, (fun h => by cases h)⟩

/-- C91, partial (as above): `remove` takes out exactly the particle that the argument stands for and
keeps all others as they are, in order; if the argument stands for no particle, it raises (and
changes nothing). -/
theorem C91_remove_partial {c : Coll V} (ha : Aligned c) (hf : FlagOK c) {w : Bool} {a : Arg}
    (hs : Single a) (h : NoInt64 a ∨ w = false) :
    ((∃ k, Denotes c a k) →
      ∃ k c', Denotes c a k ∧ remove w c a = .ok c' ∧ rows c' = without [k] (rows c) ∧ Aligned c') ∧
    ((¬ ∃ k, Denotes c a k) → ∃ e, remove w c a = .error e) := by
  rw [remove_way hs]
  have hl := fun k => wayOf_leads hs h c k
  rcases hw : wayOf w a with i | i
  · rw [hw] at hl
    refine ⟨?_, ?_⟩
    · rintro ⟨k, hk⟩
      obtain ⟨c', h1, h2, h3⟩ := removeSingle_some ha ((hl k).mpr hk)
      exact ⟨k, c', hk, by simp only [h1, lift], h2, h3⟩
    · intro hno
      rcases hi : npIndex c.ids.length i with _ | k
      · exact ⟨.err .indexError, by simp only [removeSingle, hi, lift]⟩
      · exact absurd ⟨k, (hl k).mp hi⟩ hno
  · rw [hw] at hl
    refine ⟨?_, ?_⟩
    · rintro ⟨k, hk⟩
      have hk' : c.ids[k]? = some i := (hl k).mpr hk
      obtain ⟨j, hj⟩ := indexOfID_found hf (List.mem_of_getElem? hk')
      have h1 := (indexOfID_ok hf hj).1
      obtain ⟨c', h2, h3, h4⟩ := removeSingle_some ha (npIndex_nat (lt_of_some h1))
      exact ⟨j, c', (hl j).mp h1, by simp only [removeByID, hj, h2, lift], h3, h4⟩
    · intro hno
      have : i ∉ c.ids := by
        intro hm
        obtain ⟨k, hk, e⟩ := List.mem_iff_getElem.mp hm
        exact hno ⟨k, (hl k).mp (by
          show c.ids[k]? = some i
          rw [List.getElem?_eq_getElem hk, e])⟩
      obtain ⟨e, he⟩ := indexOfID_missing hf this
      exact ⟨.err e, by simp only [removeByID, he, lift]⟩

example : remove true three (.num .u64 3) = .ok ⟨[1, 2], [("lon", [10, 20]), ("state", [0, 0])], 2, true⟩ ∧
    remove true three (.num .py 0) = .ok ⟨[2, 3], [("lon", [20, 30]), ("state", [0, 0])], 2, true⟩ ∧
    remove true three (.num .py 3) = .error (.err .indexError) ∧
    remove true three (.num .u64 0) = .error (.err .valueError) := by decide

/-- C91: `-=` with a particle takes out exactly the particle of that ID, on every platform. -/
theorem C91_isub_particle {c : Coll V} (ha : Aligned c) (hf : FlagOK c) (id : ℤ) :
    (id ∈ c.ids → ∃ (k : Nat) (c' : Coll V), c.ids[k]? = some id ∧ isub c (.particle id) = .ok (some c') ∧
      rows c' = without [k] (rows c) ∧ Aligned c') ∧
    (id ∉ c.ids → ∃ e, isub c (.particle id) = .error e) := by
  refine ⟨?_, ?_⟩
  · intro hm
    obtain ⟨j, hj⟩ := indexOfID_found hf hm
    have h1 := (indexOfID_ok hf hj).1
    obtain ⟨c', h2, h3, h4⟩ := removeSingle_some ha (npIndex_nat (lt_of_some h1))
    exact ⟨j, c', h1, by simp only [isub, removeByID, hj, h2], h3, h4⟩
  · intro hm
    obtain ⟨e, he⟩ := indexOfID_missing hf hm
    exact ⟨.err e, by simp only [isub, removeByID, he]⟩

example : isub three (.particle 2) = .ok (some ⟨[1, 3], [("lon", [10, 30]), ("state", [0, 0])], 2, true⟩) := by
  decide

/-- C91, partial (numbers; no `np.int64` unless the platform has 32 bits): `delete` marks exactly the
particle that the argument stands for, and changes nothing else; if there is none, it raises. -/
theorem C91_delete_partial {c : Coll V} (hf : FlagOK c) (mark : V) {w : Bool} {t : Kind} {i : ℤ}
    (h : t ≠ .i64 ∨ w = false) :
    ((∃ k, Denotes c (.num t i) k) →
      ∃ k c', Denotes c (.num t i) k ∧ delete w c mark (.num t i) = .ok c' ∧ MarkedOnly mark c c' k) ∧
    ((¬ ∃ k, Denotes c (.num t i) k) → ∃ e, delete w c mark (.num t i) = .error e) := by
  have hs : Single (.num t i) := trivial
  have hl := fun k => wayOf_leads (w := w) hs h c k
  have hd : delete w c mark (.num t i) = match wayOf w (.num t i) with
      | .index i => lift (deleteByIndex c mark i) | .id i => lift (deleteByID c mark i) := by
    cases t <;> cases w <;> rfl
  rw [hd]
  rcases hw : wayOf w (.num t i) with j | j
  · rw [hw] at hl
    refine ⟨?_, ?_⟩
    · rintro ⟨k, hk⟩
      have h1 : npIndex c.ids.length j = some k := (hl k).mpr hk
      exact ⟨k, { c with cols := c.cols.map fun p => (p.1, if p.1 = "state" then p.2.set k mark else p.2) },
        hk, by simp only [deleteByIndex, h1, lift], rfl, rfl, rfl, rfl⟩
    · intro hno
      rcases hi : npIndex c.ids.length j with _ | k
      · exact ⟨.err .indexError, by simp only [deleteByIndex, hi, lift]⟩
      · exact absurd ⟨k, (hl k).mp hi⟩ hno
  · rw [hw] at hl
    refine ⟨?_, ?_⟩
    · rintro ⟨k, hk⟩
      have hk' : c.ids[k]? = some j := (hl k).mpr hk
      obtain ⟨m, hm⟩ := indexOfID_found hf (List.mem_of_getElem? hk')
      have h1 := (indexOfID_ok hf hm).1
      exact ⟨m, { c with cols := c.cols.map fun p => (p.1, if p.1 = "state" then p.2.set m mark else p.2) },
        (hl m).mp h1, by simp only [deleteByID, hm, lift], rfl, rfl, rfl, rfl⟩
    · intro hno
      have : j ∉ c.ids := by
        intro hm
        obtain ⟨k, hk, e⟩ := List.mem_iff_getElem.mp hm
        exact hno ⟨k, (hl k).mp (by
          show c.ids[k]? = some j
          rw [List.getElem?_eq_getElem hk, e])⟩
      obtain ⟨e, he⟩ := indexOfID_missing hf this
      exact ⟨.err e, by simp only [deleteByID, he, lift]⟩

example : delete true three 7 (.num .u64 3) = .ok ⟨[1, 2, 3], [("lon", [10, 20, 30]), ("state", [0, 0, 7])], 3, true⟩ ∧
    delete true three 7 (.num .py 0) = .ok ⟨[1, 2, 3], [("lon", [10, 20, 30]), ("state", [7, 0, 0])], 3, true⟩ ∧
    delete true three 7 (.num .u64 8) = .error (.err .valueError) := by decide

/-- C91, partial (lists, arrays and dicts of Python integers or `np.int32`): `remove` takes out
exactly the particles at these indices; if one of them does not exist it raises. -/
theorem C91_remove_indices_partial {c : Coll V} (ha : Aligned c) {w : Bool} {t : Kind}
    (ht : ¬ standsForID t) {l : List ℤ} :
    (∀ c', remove w c (.arr t l) = .ok c' → ∃ del : List Nat, rows c' = without del (rows c) ∧
      ∀ k, k ∈ del ↔ Denotes c (.arr t l) k) ∧
    ((∃ i ∈ l, ¬ ∃ k, Meant c t i k) → ∃ e, remove w c (.arr t l) = .error e) := by
  have hi : isIndex w t = true := by cases t <;> simp_all [standsForID, isIndex]
  have hmm : ∀ i k, Meant c t i k ↔ npIndex c.ids.length i = some k := by
    intro i k
    rw [npIndex_iff]
    exact ⟨fun h => ⟨h.1, h.2.2 ht⟩, fun h => ⟨h.1, fun h' => absurd h' ht, fun _ => h.2⟩⟩
  have hm : ∀ (l : List ℤ) (del : List Nat), l.mapM (npIndex c.ids.length) = some del →
      ∀ k, k ∈ del ↔ ∃ i ∈ l, Meant c t i k := by
    intro l
    induction l with
    | nil => intro del h k; cases h; simp
    | cons i l ih =>
      intro del h k
      rw [List.mapM_cons] at h
      rcases e1 : npIndex c.ids.length i with _ | j
      · rw [e1] at h; cases h
      · rcases e2 : l.mapM (npIndex c.ids.length) with _ | d
        · rw [e1, e2] at h; cases h
        · rw [e1, e2] at h
          injection h with h
          subst h
          rw [List.mem_cons, ih d e2 k]
          constructor
          · rintro (h3 | ⟨i', h3, h4⟩)
            · subst h3; exact ⟨i, by simp, (hmm _ _).mpr e1⟩
            · exact ⟨i', by simp [h3], h4⟩
          · rintro ⟨i', h3, h4⟩
            rcases List.mem_cons.mp h3 with h5 | h5
            · subst h5
              rw [hmm, e1] at h4
              injection h4 with h4
              exact Or.inl h4.symm
            · exact Or.inr ⟨i', h5, h4⟩
  have hnone : ∀ l : List ℤ, (∃ i ∈ l, ¬ ∃ k, Meant c t i k) → l.mapM (npIndex c.ids.length) = none := by
    intro l
    induction l with
    | nil => rintro ⟨i, h, _⟩; simp at h
    | cons a l ih =>
      rintro ⟨i, h, hno⟩
      rw [List.mapM_cons]
      rcases List.mem_cons.mp h with h5 | h5
      · subst h5
        rcases e1 : npIndex c.ids.length i with _ | j
        · rfl
        · exact absurd ⟨j, (hmm _ _).mpr e1⟩ hno
      · rw [ih ⟨i, h5, hno⟩]
        cases npIndex c.ids.length a <;> rfl
  have hr : remove w c (.arr t l) = if l = [] then .ok c else lift (removeMulti c l) := by
    simp only [remove, hi, if_true]
  rw [hr]
  refine ⟨?_, ?_⟩
  · intro c' h
    by_cases hl : l = []
    · rw [if_pos hl] at h
      injection h with h
      subst h hl
      refine ⟨[], ?_, fun k => by simp [Denotes]⟩
      simp only [without, List.not_mem_nil, not_false_eq_true, decide_true, List.filter_true,
        List.zipIdx_map_fst]
    · rw [if_neg hl] at h
      rcases hm' : removeMulti c l with e | c2
      · rw [hm'] at h; cases h
      · rw [hm'] at h
        injection h with h
        subst h
        obtain ⟨del, h1, h2⟩ := (C15_remove_indices ha l).1 _ hm'
        exact ⟨del, h2, hm l del h1⟩
  · intro h
    have hl : l ≠ [] := by
      rintro rfl
      obtain ⟨i, h1, _⟩ := h
      simp at h1
    rw [if_neg hl]
    exact ⟨.err .indexError, by simp only [removeMulti, hnone l h, lift]⟩

example : remove true three (.arr .py [0, -1]) = .ok ⟨[2], [("lon", [20]), ("state", [0])], 1, true⟩ ∧
    remove true three (.arr .i32 [0, 3]) = .error (.err .indexError) ∧ ¬ standsForID .i32 :=
  ⟨by decide, by decide, fun h => h⟩

/-- C91 on platforms where `np.intp` is `np.int64`: a 64-bit ID is treated as an index by `get`,
`remove`, `delete` and `pop`, alone or in a list, for every collection and every ID. -/
theorem C91_int64_is_index (c : Coll V) (mark : V) (i : ℤ) (l : List ℤ) :
    get true c (.num .i64 i) = get true c (.num .py i) ∧
    get true c (.arr .i64 l) = get true c (.arr .py l) ∧
    remove true c (.num .i64 i) = remove true c (.num .py i) ∧
    remove true c (.arr .i64 l) = remove true c (.arr .py l) ∧
    delete true c mark (.num .i64 i) = delete true c mark (.num .py i) ∧
    pop true c (.num .i64 i) = pop true c (.num .py i) ∧
    pop true c (.arr .i64 l) = pop true c (.arr .py l) := ⟨rfl, rfl, rfl, rfl, rfl, rfl, rfl⟩

/-- C91, partial: as long as IDs are positions (one ParticleSet, the first of the process, with the
default IDs and nothing removed), `remove` and `get` with a 64-bit ID find the right particle on all
platforms. -/
theorem C91_int64_fresh_partial {c : Coll V} (ha : Aligned c) (hids : c.ids = arange c.ids.length)
    {id : ℤ} (h : id ∈ c.ids) :
    get true c (.num .i64 id) = .ok (.one id) ∧
    ∃ (k : Nat) (c' : Coll V), (k : ℤ) = id ∧ c.ids[k]? = some id ∧ remove true c (.num .i64 id) = .ok c' ∧
      rows c' = without [k] (rows c) := by
  obtain ⟨k, hk, e⟩ := List.mem_iff_getElem.mp h
  have hpos : c.ids[k]? = some (k : ℤ) := by
    rw [hids]
    simp [arange, hk]
  have e' : (k : ℤ) = id := by
    rw [List.getElem?_eq_getElem hk] at hpos
    injection hpos with hpos
    rw [← e, ← hpos]
  refine ⟨rfl, k, ?_⟩
  obtain ⟨c', h1, h2⟩ := C15_remove_index ha k hk
  subst e'
  exact ⟨c', rfl, hpos, by
    show lift (removeSingle c (k : ℤ)) = .ok c'
    rw [h1]; rfl, h2⟩

example : Aligned four ∧ four.ids = arange four.ids.length ∧
    remove true four (.num .i64 2) =
      .ok ⟨[0, 1, 3], [("lon", [0, 10, 30]), ("state", [0, 0, 0])], 3, true⟩ :=
  ⟨⟨rfl, by decide⟩, by decide, by decide⟩

/-- C91 fails on 64-bit platforms: with IDs 1, 2, 3, `remove(p.id)` and `delete(p.id)` for the
particle `p` with ID 1 remove and mark the particle with ID 2, `get(p.id)` gives the particle with
ID 2, and for the particle with ID 3 `remove` raises IndexError. -/
theorem C91_int64_fails :
    Denotes three (.num .i64 1) 0 ∧ Aligned three ∧ FlagOK three ∧ three.ids.Nodup ∧
    get true three (.num .i64 1) = .ok (.one 1) ∧ three.ids[1]? = some 2 ∧
    remove true three (.num .i64 1) = .ok ⟨[1, 3], [("lon", [10, 30]), ("state", [0, 0])], 2, true⟩ ∧
    delete true three 7 (.num .i64 1) =
      .ok ⟨[1, 2, 3], [("lon", [10, 20, 30]), ("state", [0, 7, 0])], 3, true⟩ ∧
    remove true three (.num .i64 3) = .error (.err .indexError) :=
  ⟨⟨by decide, fun _ => rfl, fun h => absurd trivial h⟩, three_ok.1, three_ok.2.1, three_ok.2.2,
    rfl, rfl, by decide, by decide, by decide⟩

/-- That set is reached: four particles are made, the first is removed. -/
example : remove true four (.num .py 0) = .ok three ∧
    (construct 0 (arange 4) [("lon", [0, 10, 20, 30]), ("state", [0, 0, 0, 0])]).1 = four := by decide

/-- C91 fails: `delete` of a particle or of a list, `a - b` with a particle, a number or a list, and
`pop` of a particle do nothing and raise nothing, for every collection; the particles stay. -/
theorem C91_ignored_fails (w : Bool) (c : Coll V) (mark : V) (id : ℤ) (t : Kind) (i : ℤ) (l : List ℤ) :
    delete w c mark (.particle id) = .ok c ∧ delete w c mark (.arr t l) = .ok c ∧
    sub c (.particle id) = .ok c ∧ sub c (.num t i) = .ok c ∧ sub c (.arr t l) = .ok c ∧
    pop w c (.particle id) = .ok c := ⟨rfl, rfl, rfl, rfl, rfl, rfl⟩

/-- C91 fails: `pop` never gives a particle: with an index or an ID, or a list of them, it raises. -/
theorem C91_pop_fails (w : Bool) (c : Coll V) (t : Kind) (i : ℤ) (l : List ℤ) (hl : l ≠ []) :
    pop w c (.num t i) = .error .notImplemented ∧ pop w c (.arr t l) = .error .notImplemented := by
  cases t <;> cases w <;> simp [pop, isIndex, isID, hl]

/-- C91: whatever the argument, `get` leaves the collection (it returns none), and `remove`, `-`, `-=`
and `pop` with the remaining kinds of arguments either raise or leave the collection as it is; only
`-= None` replaces the variable by `None`. -/
theorem C91_other_arguments (w : Bool) (c : Coll V) (a : Arg)
    (ha : a = .none ∨ a = .same ∨ a = .other ∨ a = .thing ∨ ∃ n, a = .objs n) :
    ((remove w c a = .ok c) ∨ ∃ e, remove w c a = .error e) ∧
    ((sub c a = .ok c) ∨ ∃ e, sub c a = .error e) ∧
    ((pop w c a = .ok c) ∨ ∃ e, pop w c a = .error e) ∧
    ((a = .none ∧ isub c a = .ok none) ∨ ∃ e, isub c a = .error e) := by
  rcases ha with rfl | rfl | rfl | rfl | ⟨n, rfl⟩
  · exact ⟨.inl rfl, .inl rfl, .inl rfl, .inl ⟨rfl, rfl⟩⟩
  · exact ⟨.inr ⟨_, rfl⟩, .inr ⟨_, rfl⟩, .inl rfl, .inr ⟨_, rfl⟩⟩
  · exact ⟨.inr ⟨_, rfl⟩, .inr ⟨_, rfl⟩, .inl rfl, .inr ⟨_, rfl⟩⟩
  · exact ⟨.inr ⟨_, rfl⟩, .inl rfl, .inl rfl, .inr ⟨_, rfl⟩⟩
  · refine ⟨?_, .inl rfl, .inl rfl, .inr ⟨_, rfl⟩⟩
    by_cases hn : n = 0
    · exact .inl (by simp [remove, hn])
    · exact .inr ⟨.notImplemented, by simp [remove, hn]⟩

end Parcels.Dispatch
