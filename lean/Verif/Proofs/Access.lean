import Verif.Spec.Access
import Mathlib.Data.List.Induction

/-! Helper lemmas for C84. -/

namespace Parcels.Access

open Collection

variable {V : Type}

theorem npIndex_nat {n k : Nat} (h : k < n) : npIndex n (k : ℤ) = some k := by
  unfold npIndex
  rw [if_pos ⟨by omega, by exact_mod_cast h⟩]
  simp

theorem npIndex_lt {n k : Nat} {i : ℤ} (h : npIndex n i = some k) : k < n := by
  unfold npIndex at h
  split_ifs at h with h1 h2
  · injection h with h; omega
  · injection h with h; omega

theorem lookup_mem {α : Type} {l : List (String × α)} {v : String} {x : α} (h : l.lookup v = some x) :
    (v, x) ∈ l := by
  induction l with
  | nil => simp at h
  | cons p l ih =>
    obtain ⟨n, y⟩ := p
    rw [List.lookup_cons] at h
    by_cases hv : v = n
    · subst hv; simp at h; subst h; simp
    · have : (v == n) = false := by simpa using hv
      rw [this] at h
      exact List.mem_cons_of_mem _ (ih h)

theorem lookup_of_name {α : Type} {l : List (String × α)} {v : String} (h : v ∈ l.map (·.1)) :
    ∃ x, l.lookup v = some x := by
  induction l with
  | nil => simp at h
  | cons p l ih =>
    obtain ⟨n, y⟩ := p
    rw [List.lookup_cons]
    by_cases hv : v = n
    · subst hv; exact ⟨y, by simp⟩
    · have : (v == n) = false := by simpa using hv
      rw [this]
      simp only [List.map_cons, List.mem_cons] at h
      rcases h with h | h
      · exact absurd h hv
      · exact ih h

theorem lookup_none {α : Type} {l : List (String × α)} {v : String} (h : v ∉ l.map (·.1)) :
    l.lookup v = none := by
  induction l with
  | nil => rfl
  | cons p l ih =>
    obtain ⟨n, y⟩ := p
    rw [List.lookup_cons]
    simp only [List.map_cons, List.mem_cons, not_or] at h
    have : (v == n) = false := by simpa using h.1
    rw [this]
    exact ih h.2

theorem lookup_map {α β : Type} (g : α → β) (l : List (String × α)) (v : String) :
    (l.map fun p => (p.1, g p.2)).lookup v = (l.lookup v).map g := by
  induction l with
  | nil => rfl
  | cons p l ih =>
    obtain ⟨n, y⟩ := p
    simp only [List.map_cons, List.lookup_cons]
    cases (v == n) <;> simp [ih]

theorem get_row (c : Coll V) (k : Nat) (v : String) :
    Record.get (row c k) v = (c.cols.lookup v).bind (·[k]?) := by
  unfold Record.get row
  rw [lookup_map (fun l : List V => l[k]?)]
  cases c.cols.lookup v <;> rfl

theorem getVar_row {c : Coll V} (hA : Aligned c) {i : ℤ} {k : Nat} {v : String} (hv : v ∈ names c)
    (hk : npIndex c.ids.length i = some k) :
    ∃ x, getVar c i v = .ok x ∧ Record.get (row c k) v = some x := by
  obtain ⟨col, hcol⟩ := lookup_of_name hv
  have hlen := hA.2 _ (lookup_mem hcol)
  have hlt : k < col.length := by have := npIndex_lt hk; simp only at hlen; omega
  refine ⟨col[k], ?_, ?_⟩
  · unfold getVar
    simp only at hlen
    rw [hcol]
    simp only [hlen, hk]
    rw [List.getElem?_eq_getElem hlt]
  · rw [get_row, hcol]
    simp [List.getElem?_eq_getElem hlt]

theorem setEntry_fst (v : String) (k : Nat) (x : V) (p : String × List V) : (setEntry v k x p).1 = p.1 := by
  unfold setEntry; split_ifs <;> rfl

theorem setVar_ok {c : Coll V} (hA : Aligned c) {i : ℤ} {k : Nat} {v : String} (x : V) (hv : v ∈ names c)
    (hk : npIndex c.ids.length i = some k) :
    setVar c i v x = .ok { c with cols := c.cols.map (setEntry v k x) } := by
  obtain ⟨col, hcol⟩ := lookup_of_name hv
  have hlen := hA.2 _ (lookup_mem hcol)
  simp only at hlen
  unfold setVar
  rw [hcol]
  simp only [hlen, hk]

theorem setVar_props {c : Coll V} (hA : Aligned c) {i : ℤ} {k : Nat} {v : String} (x : V) (hv : v ∈ names c)
    (hk : npIndex c.ids.length i = some k) :
    ∃ c', setVar c i v x = .ok c' ∧ Aligned c' ∧ names c' = names c ∧ c'.ids = c.ids ∧
      c'.ncount = c.ncount ∧ c'.sorted = c.sorted ∧
      row c' k = (Record.set (row c k) v x) ∧ ∀ j, j ≠ k → row c' j = row c j := by
  refine ⟨_, setVar_ok hA x hv hk, ?_, ?_, rfl, rfl, rfl, ?_, ?_⟩
  · refine ⟨hA.1, ?_⟩
    intro p hp
    simp only [List.mem_map] at hp
    obtain ⟨q, hq, rfl⟩ := hp
    have := hA.2 q hq
    unfold setEntry
    split_ifs <;> simpa using this
  · unfold names
    simp only [List.map_map]
    apply List.map_congr_left
    intro p _
    exact setEntry_fst v k x p
  · have hkl := npIndex_lt hk
    unfold row Record.set
    simp only [List.map_map, Prod.mk.injEq, true_and]
    apply List.map_congr_left
    intro p hp
    have hl := hA.2 p hp
    simp only [Function.comp, setEntry]
    by_cases hpv : p.1 = v
    · rw [if_pos hpv, if_pos hpv]
      simp [hl, hkl]
    · rw [if_neg hpv, if_neg hpv]
  · intro j hj
    unfold row
    simp only [List.map_map, Prod.mk.injEq, true_and]
    apply List.map_congr_left
    intro p _
    simp only [Function.comp, setEntry]
    by_cases hpv : p.1 = v
    · rw [if_pos hpv]
      simp [List.getElem?_set_ne (Ne.symm hj)]
    · rw [if_neg hpv]

theorem mapM_get {c : Coll V} (hA : Aligned c) {i : ℤ} {k : Nat} {rs : List String}
    (hr : ∀ r ∈ rs, r ∈ names c) (hk : npIndex c.ids.length i = some k) :
    ∃ vals, rs.mapM (getVar c i) = .ok vals ∧ rs.mapM (Record.get (row c k)) = some vals := by
  induction rs with
  | nil => exact ⟨[], rfl, rfl⟩
  | cons r rs ih =>
    obtain ⟨vals, h1, h2⟩ := ih fun q hq => hr q (List.mem_cons_of_mem _ hq)
    obtain ⟨x, g1, g2⟩ := getVar_row hA (hr r List.mem_cons_self) hk
    refine ⟨x :: vals, ?_, ?_⟩
    · rw [List.mapM_cons, g1, h1]; rfl
    · rw [List.mapM_cons, g2, h2]; rfl

/-- What stays the same, and what happens to the rows, when position `k` is worked on. -/
def StepAt (as : List (Assign V)) (k : Nat) (c c' : Coll V) : Prop :=
  Aligned c' ∧ names c' = names c ∧ c'.ids = c.ids ∧ c'.ncount = c.ncount ∧ c'.sorted = c.sorted ∧
    row c' k = Record.run as (row c k) ∧ ∀ j, j ≠ k → row c' j = row c j

theorem execBody_step {i : ℤ} {k : Nat} (as : List (Assign V)) : ∀ {c : Coll V}, Aligned c →
    Uses as (names c) → npIndex c.ids.length i = some k →
    ∃ c', execBody i as c = .ok c' ∧ StepAt as k c c' := by
  induction as with
  | nil => intro c hA _ _; exact ⟨c, rfl, hA, rfl, rfl, rfl, rfl, rfl, fun _ _ => rfl⟩
  | cons a as ih =>
    intro c hA hU hk
    have ha := hU a List.mem_cons_self
    obtain ⟨vals, m1, m2⟩ := mapM_get hA ha.2 hk
    obtain ⟨c1, s1, hA1, hn1, hi1, hc1, hs1, hr1, hj1⟩ := setVar_props hA (a.f vals) ha.1 hk
    have hU1 : Uses as (names c1) := by
      rw [hn1]; intro b hb; exact hU b (List.mem_cons_of_mem _ hb)
    obtain ⟨c2, e2, hA2, hn2, hi2, hc2, hs2, hr2, hj2⟩ := ih hA1 hU1 (by rw [hi1]; exact hk)
    refine ⟨c2, ?_, hA2, hn2.trans hn1, hi2.trans hi1, hc2.trans hc1, hs2.trans hs1, ?_, ?_⟩
    · rw [execBody]
      simp only [execAssign, m1, s1, e2]
    · rw [hr2, hr1, Record.run]
      congr 1
      simp only [Record.assign, m2]
    · intro j hj
      rw [hj2 j hj, hj1 j hj]

theorem next_eq {l : List ℤ} {p : Nat} (h : p < l.length) :
    next ⟨l, l.length, p⟩ = some (l[p], ⟨l, l.length, p + 1⟩) := by
  unfold next
  rw [if_pos (by simpa using h)]
  simp [List.getElem?_eq_getElem h]

theorem forLoop_fold {S : Type} (body : ℤ → S → Except Err S) (l : List ℤ) : ∀ (fuel p : Nat) (s : S),
    p + fuel = l.length →
    forLoop body fuel ⟨l, l.length, p⟩ s = (l.drop p).foldlM (fun s i => body i s) s := by
  intro fuel
  induction fuel with
  | zero =>
    intro p s h
    rw [forLoop, List.drop_eq_nil_of_le (by omega)]
    rfl
  | succ n ih =>
    intro p s h
    have hp : p < l.length := by omega
    rw [forLoop, next_eq hp, List.drop_eq_getElem_cons hp, List.foldlM_cons]
    simp only
    cases hb : body l[p] s with
    | error e => rfl
    | ok s' => exact ih (p + 1) s' (by omega)

theorem forLoop_all {S : Type} (body : ℤ → S → Except Err S) (l : List ℤ) (s : S) :
    forLoop body l.length ⟨l, l.length, 0⟩ s = l.foldlM (fun s i => body i s) s := by
  rw [forLoop_fold body l l.length 0 s (by omega), List.drop_zero]

theorem pyRange_nat (n : Nat) : pyRange (n : ℤ) = (List.range n).map fun (k : Nat) => (k : ℤ) := by
  unfold pyRange; rw [Int.toNat_natCast]

theorem pyRange_length (n : Nat) : (pyRange (n : ℤ)).length = n := by
  rw [pyRange_nat]; simp

/-- The order in which a loop visits the positions of a set of `n` particles. -/
theorem loopOver_all {S : Type} {c : Coll V} (hA : Aligned c) (rev : Bool)
    (body : ℤ → Coll V × S → Except Err (Coll V × S)) (s : S) :
    loopOver rev none body c s =
      (((if rev then (List.range c.ids.length).reverse else List.range c.ids.length).map
        fun (k : Nat) => (k : ℤ))).foldlM (fun st i => body i st) (c, s) := by
  unfold loopOver mkIter
  rw [hA.1]
  cases rev with
  | false =>
    simp only [Bool.false_eq_true, if_false]
    have h := forLoop_all body (pyRange (c.ids.length : ℤ)) (c, s)
    rw [pyRange_length] at h ⊢
    rw [h, pyRange_nat]
  | true =>
    simp only [if_true]
    have h := forLoop_all body (pyRange (c.ids.length : ℤ)).reverse (c, s)
    rw [List.length_reverse, pyRange_length] at h ⊢
    rw [h, pyRange_nat, List.map_reverse]

theorem loopOver_subset {S : Type} (c : Coll V) (l : List ℤ)
    (body : ℤ → Coll V × S → Except Err (Coll V × S)) (s : S) :
    loopOver false (some l) body c s = l.foldlM (fun st i => body i st) (c, s) := by
  unfold loopOver mkIter
  simp only [Bool.false_eq_true, if_false]
  exact forLoop_all body l (c, s)

/-- The body of assignments as a body of the loop. -/
def asBody (as : List (Assign V)) (i : ℤ) (st : Coll V × Unit) : Except Err (Coll V × Unit) :=
  match execBody i as st.1 with
  | .error e => .error e
  | .ok c' => .ok (c', ())

theorem foldl_assign (as : List (Assign V)) : ∀ (l : List Nat) (c : Coll V), Aligned c →
    Uses as (names c) → l.Nodup → (∀ k ∈ l, k < c.ids.length) →
    ∃ c', (l.map fun (k : Nat) => (k : ℤ)).foldlM (fun st i => asBody as i st) (c, ()) = .ok (c', ()) ∧
      Aligned c' ∧ names c' = names c ∧ c'.ids = c.ids ∧
      ∀ k, row c' k = if k ∈ l then Record.run as (row c k) else row c k := by
  intro l
  induction l with
  | nil => intro c hA _ _ _; exact ⟨c, rfl, hA, rfl, rfl, fun k => by simp⟩
  | cons a l ih =>
    intro c hA hU hN hlt
    have ha : npIndex c.ids.length (a : ℤ) = some a := npIndex_nat (hlt a List.mem_cons_self)
    obtain ⟨c1, e1, hA1, hn1, hi1, _, _, hr1, hj1⟩ := execBody_step as hA hU ha
    obtain ⟨c2, e2, hA2, hn2, hi2, hr2⟩ := ih c1 hA1 (by rw [hn1]; exact hU) (List.nodup_cons.1 hN).2
      (by intro k hk; rw [hi1]; exact hlt k (List.mem_cons_of_mem _ hk))
    refine ⟨c2, ?_, hA2, hn2.trans hn1, hi2.trans hi1, ?_⟩
    · rw [List.map_cons, List.foldlM_cons]
      simp only [asBody, e1]
      exact e2
    · intro k
      rw [hr2]
      by_cases hka : k = a
      · subst hka
        have hnot : k ∉ l := (List.nodup_cons.1 hN).1
        rw [if_neg hnot, if_pos List.mem_cons_self, hr1]
      · rw [hj1 k hka]
        by_cases hkl : k ∈ l
        · rw [if_pos hkl, if_pos (List.mem_cons_of_mem _ hkl)]
        · rw [if_neg hkl, if_neg (by simp [hka, hkl])]

theorem dataIndices_mem {eq : V → V → Bool} {c : Coll V} {v : String} {values : List V} {inv : Bool}
    {l : List ℤ} (h : dataIndices eq c v values inv = .ok l) :
    ∃ ks : List Nat, l = ks.map (fun (k : Nat) => (k : ℤ)) ∧ ks.Pairwise (· < ·) ∧
      ∀ k, k ∈ ks ↔ ∃ x, Record.get (row c k) v = some x ∧ ((values.any (eq x)) != inv) = true := by
  unfold dataIndices at h
  cases hc : c.cols.lookup v with
  | none => simp [hc] at h
  | some col =>
    rw [hc] at h
    simp only [Except.ok.injEq] at h
    refine ⟨_, h.symm, List.Pairwise.filter _ List.pairwise_lt_range, ?_⟩
    intro k
    rw [get_row, hc]
    simp only [List.mem_filter, List.mem_range, Option.bind_some]
    by_cases hk : k < col.length
    · rw [List.getElem?_eq_getElem hk]
      simp [hk]
    · rw [List.getElem?_eq_none (by omega)]
      simp

theorem countP_range {α : Type} (l : List α) (f : α → Bool) :
    (((List.range l.length).filter fun k => match l[k]? with | none => false | some x => f x)).length =
      l.countP f := by
  induction l using List.reverseRecOn with
  | nil => rfl
  | append_singleton l a ih =>
    rw [List.length_append, List.length_singleton, List.range_succ, List.filter_append, List.length_append,
      List.countP_append, ← ih]
    congr 1
    · congr 1
      apply List.filter_congr
      intro k hk
      rw [List.getElem?_append_left (List.mem_range.1 hk)]
    · simp only [List.filter_cons, List.filter_nil, List.countP_cons, List.countP_nil]
      rw [List.getElem?_append_right (le_refl _)]
      simp only [Nat.sub_self, List.getElem?_cons_zero]
      cases f a <;> simp

/-- Positions before every removed one are not moved. -/
theorem npDelete_before {α : Type} (l : List α) (del : List Nat) (k : Nat) (h : ∀ d ∈ del, k < d) :
    (npDelete del l)[k]? = l[k]? := by
  by_cases hk : k < l.length
  · have hs : survivors l.length del = List.range (k + 1) ++
        ((List.range (l.length - (k + 1))).map (k + 1 + ·)).filter fun i => i ∉ del := by
      unfold survivors
      have : l.length = (k + 1) + (l.length - (k + 1)) := by omega
      rw [this, List.range_add, List.filter_append]
      congr 1
      · apply List.filter_eq_self.2
        intro i hi
        have := List.mem_range.1 hi
        simp only [decide_not, Bool.not_eq_true', decide_eq_false_iff_not]
        intro hd
        have := h i hd
        omega
      · have : k + 1 + (l.length - (k + 1)) - (k + 1) = l.length - (k + 1) := by omega
        rw [this]
    unfold npDelete
    rw [hs, List.filterMap_append]
    have h1 : (List.range (k + 1)).filterMap (fun i => l[i]?) = l.take (k + 1) := by
      clear hs h
      have : ∀ m, m ≤ l.length → (List.range m).filterMap (fun i => l[i]?) = l.take m := by
        intro m
        induction m with
        | zero => intro _; rfl
        | succ m ih =>
          intro hm
          rw [List.range_succ, List.filterMap_append, ih (by omega)]
          rw [List.take_succ, List.getElem?_eq_getElem (show m < l.length by omega)]
          congr 1
          rw [List.filterMap_cons, List.getElem?_eq_getElem (show m < l.length by omega)]
          rfl
      exact this (k + 1) (by omega)
    rw [h1, List.getElem?_append_left (by rw [List.length_take]; omega), List.getElem?_take]
    simp
  · rw [List.getElem?_eq_none (by omega : l.length ≤ k)]
    apply List.getElem?_eq_none
    have : (npDelete del l).length ≤ l.length := by
      unfold npDelete survivors
      refine (List.length_filterMap_le _ _).trans ((List.length_filter_le _ _).trans ?_)
      simp
    omega

end Parcels.Access
