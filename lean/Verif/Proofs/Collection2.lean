import Verif.Proofs.Collection
import Mathlib.Data.List.Sort
import Mathlib.Data.List.GetD

namespace Parcels.Collection

variable {V : Type}

/-! ### Index lists -/

theorem npIndex_inj {n : Nat} {i j : ℤ} {k : Nat} (hi : npIndex n i = some k) (hj : npIndex n j = some k) :
    i = j ∨ i = j + n ∨ j = i + n := by
  unfold npIndex at hi hj
  split at hi
  · split at hj
    · cases hi; injection hj with hj; omega
    · split at hj
      · cases hi; injection hj with hj; omega
      · cases hj
  · split at hi
    · split at hj
      · cases hi; injection hj with hj; omega
      · split at hj
        · cases hi; injection hj with hj; omega
        · cases hj
    · cases hi

theorem mapM_mem {n : Nat} : ∀ (idx : List ℤ) (del : List Nat), idx.mapM (npIndex n) = some del →
    ∀ k ∈ del, ∃ i ∈ idx, npIndex n i = some k := by
  intro idx
  induction idx with
  | nil => intro del h; simp at h; subst h; simp
  | cons i idx ih =>
    intro del h k hk
    rw [List.mapM_cons] at h
    rcases hi : npIndex n i with _ | k'
    · rw [hi] at h; simp at h
    · rw [hi] at h
      rcases hr : idx.mapM (npIndex n) with _ | d
      · rw [hr] at h; simp at h
      · rw [hr] at h
        simp at h
        subst h
        rcases List.mem_cons.mp hk with e | e
        · subst e; exact ⟨i, by simp, hi⟩
        · obtain ⟨j, hj, hjk⟩ := ih d hr k e
          exact ⟨j, by simp [hj], hjk⟩

theorem mapM_nodup {n : Nat} : ∀ (idx : List ℤ) (del : List Nat), idx.mapM (npIndex n) = some del →
    (idx.Pairwise fun (i j : ℤ) => i ≠ j ∧ i ≠ j + n ∧ j ≠ i + n) → del.Nodup := by
  intro idx
  induction idx with
  | nil => intro del h _; simp at h; subst h; simp
  | cons i idx ih =>
    intro del h hp
    rw [List.mapM_cons] at h
    rcases hi : npIndex n i with _ | k'
    · rw [hi] at h; simp at h
    · rw [hi] at h
      rcases hr : idx.mapM (npIndex n) with _ | d
      · rw [hr] at h; simp at h
      · rw [hr] at h
        simp at h
        subst h
        rw [List.pairwise_cons] at hp
        rw [List.nodup_cons]
        refine ⟨?_, ih d hr hp.2⟩
        intro hmem
        obtain ⟨j, hj, hjk⟩ := mapM_mem idx d hr _ hmem
        have := hp.1 j hj
        have := npIndex_inj hi hjk
        omega

/-! ### Removal keeps the set consistent -/

theorem removeMulti_good {c c' : Coll V} {idx : List ℤ} (ha : Aligned c) (hf : FlagOK c)
    (h : removeMulti c idx = .ok c')
    (hd : ∀ del, idx.mapM (npIndex c.ids.length) = some del → del.Nodup) :
    Aligned c' ∧ FlagOK c' ∧ ∃ del, idx.mapM (npIndex c.ids.length) = some del ∧
      rows c' = without del (rows c) ∧ names c' = names c := by
  unfold removeMulti at h
  rcases hm : idx.mapM (npIndex c.ids.length) with _ | del
  · rw [hm] at h; simp at h
  · rw [hm] at h
    simp only [Except.ok.injEq] at h
    subst h
    obtain ⟨hl, hb⟩ := mapM_npIndex idx del hm
    have hs := survivors_length (hd del hm) hb
    refine ⟨⟨?_, ?_⟩, ?_, del, rfl, rows_delete c ha.2 del _ _, ?_⟩
    · show c.ncount - (idx.length : ℤ) = ((npDelete del c.ids).length : ℤ)
      rw [npDelete_length, ha.1]; omega
    · intro p hp
      simp only [List.mem_map] at hp
      obtain ⟨q, hq, rfl⟩ := hp
      show (npDelete del q.2).length = (npDelete del c.ids).length
      rw [npDelete_length, npDelete_length, ha.2 q hq]
    · intro hsort
      exact (hf hsort).sublist (npDelete_sublist _ _)
    · simp [names, Function.comp_def]

theorem removeSingle_good {c c' : Coll V} {i : ℤ} (ha : Aligned c) (hf : FlagOK c)
    (h : removeSingle c i = .ok c') :
    Aligned c' ∧ FlagOK c' ∧ ∃ k, npIndex c.ids.length i = some k ∧
      rows c' = without [k] (rows c) ∧ names c' = names c := by
  unfold removeSingle at h
  rcases hm : npIndex c.ids.length i with _ | k
  · rw [hm] at h; simp at h
  · rw [hm] at h
    simp only [Except.ok.injEq] at h
    subst h
    have hb : ∀ j ∈ [k], j < c.ids.length := by
      intro j hj; rw [List.mem_singleton] at hj; subst hj; exact npIndex_lt hm
    have hs := survivors_length (List.nodup_singleton k) hb
    refine ⟨⟨?_, ?_⟩, ?_, k, rfl, rows_delete c ha.2 [k] _ _, ?_⟩
    · show c.ncount - 1 = ((npDelete [k] c.ids).length : ℤ)
      rw [npDelete_length, ha.1]; simp at hs; omega
    · intro p hp
      simp only [List.mem_map] at hp
      obtain ⟨q, hq, rfl⟩ := hp
      show (npDelete [k] q.2).length = (npDelete [k] c.ids).length
      rw [npDelete_length, npDelete_length, ha.2 q hq]
    · intro hsort
      exact (hf hsort).sublist (npDelete_sublist _ _)
    · simp [names, Function.comp_def]

theorem removeBool_mapM {c c' : Coll V} {v : List Bool} (h : removeBool c v = .ok c') :
    (((List.range v.length).filter fun i => v.getD i false).map fun (i : Nat) => (i : ℤ)).mapM
      (npIndex c.ids.length) = some ((List.range v.length).filter fun i => v.getD i false) := by
  have hlt : ∀ k ∈ (List.range v.length).filter fun i => v.getD i false, k < c.ids.length := by
    unfold removeBool removeMulti at h
    split at h
    · cases h
    · rename_i del hm
      intro k hk
      have : ∀ (ks : List Nat) (d : List Nat),
          (ks.map fun (i : Nat) => (i : ℤ)).mapM (npIndex c.ids.length) = some d →
          ∀ k ∈ ks, k < c.ids.length := by
        intro ks
        induction ks with
        | nil => intro d _ k hk; simp at hk
        | cons a ks ih =>
          intro d hd k hk
          rw [List.map_cons, List.mapM_cons] at hd
          rcases hi : npIndex c.ids.length (a : ℤ) with _ | k'
          · rw [hi] at hd; simp at hd
          · rw [hi] at hd
            rcases hr : (ks.map fun (i : Nat) => (i : ℤ)).mapM (npIndex c.ids.length) with _ | d'
            · rw [hr] at hd; simp at hd
            · rcases List.mem_cons.mp hk with e | e
              · subst e
                unfold npIndex at hi
                split at hi
                · omega
                · split at hi
                  · omega
                  · cases hi
              · exact ih d' hr k e
      exact this _ _ hm k hk
  exact mapM_nat _ hlt

/-! ### Adding -/

theorem zipWith_mem {α β γ : Type} {f : α → β → γ} {l : List α} {m : List β} {x : γ}
    (h : x ∈ List.zipWith f l m) : ∃ a ∈ l, ∃ b ∈ m, x = f a b := by
  rw [List.mem_iff_getElem] at h
  obtain ⟨i, hi, rfl⟩ := h
  rw [List.length_zipWith] at hi
  refine ⟨l[i], List.getElem_mem _, m[i], List.getElem_mem _, ?_⟩
  simp

theorem map_zipWith_left {α β γ δ : Type} (f : α → β → γ) (g : γ → δ) (g' : α → δ) :
    ∀ (l : List α) (m : List β), l.length = m.length → (∀ a ∈ l, ∀ b ∈ m, g (f a b) = g' a) →
    (List.zipWith f l m).map g = l.map g' := by
  intro l
  induction l with
  | nil => intro m _ _; simp
  | cons a l ih =>
    intro m hm h
    cases m with
    | nil => simp at hm
    | cons b m =>
      simp only [List.zipWith_cons_cons, List.map_cons]
      rw [h a (by simp) b (by simp), ih m (by simpa using hm)
        (fun x hx y hy => h x (by simp [hx]) y (by simp [hy]))]

theorem map_zipWith_right {β γ δ : Type} (f : (String × List V) → (String × β) → γ) (g : γ → δ)
    (g' : (String × β) → δ) :
    ∀ (l : List (String × List V)) (m : List (String × β)), m.map (·.1) = l.map (·.1) →
    (∀ a ∈ l, ∀ b ∈ m, b.1 = a.1 → g (f a b) = g' b) →
    (List.zipWith f l m).map g = m.map g' := by
  intro l
  induction l with
  | nil => intro m hm _; cases m with | nil => simp | cons b m => simp at hm
  | cons a l ih =>
    intro m hm h
    cases m with
    | nil => simp at hm
    | cons b m =>
      simp only [List.map_cons, List.cons.injEq] at hm
      simp only [List.zipWith_cons_cons, List.map_cons]
      rw [h a (by simp) b (by simp) hm.1, ih m hm.2
        (fun x hx y hy => h x (by simp [hx]) y (by simp [hy]))]

theorem pairwise_le_getLast {l : List ℤ} (h : l.Pairwise (· ≤ ·)) {z : ℤ} (hz : l.getLast? = some z) :
    ∀ a ∈ l, a ≤ z := by
  intro a ha
  obtain ⟨l', rfl⟩ := List.getLast?_eq_some_iff.mp hz
  rw [List.pairwise_append] at h
  rcases List.mem_append.mp ha with e | e
  · exact h.2.2 a e z (by simp)
  · simp at e; omega

theorem pairwise_head_le {l : List ℤ} (h : l.Pairwise (· ≤ ·)) {z : ℤ} (hz : l.head? = some z) :
    ∀ a ∈ l, z ≤ a := by
  intro a ha
  cases l with
  | nil => simp at hz
  | cons b l =>
    simp at hz; subst hz
    rw [List.pairwise_cons] at h
    rcases List.mem_cons.mp ha with e | e
    · omega
    · exact h.1 a e

theorem add_good {c o : Coll V} (ha : Aligned c) (hf : FlagOK c) (hao : Aligned o) (hfo : FlagOK o)
    (hn : names o = names c) (hnd : (names o).Nodup)
    (he : c.ids = [] → c.sorted = true → o.ids.Pairwise (· ≤ ·)) :
    (addSame c o).2 = none ∧ Aligned (addSame c o).1 ∧ FlagOK (addSame c o).1 ∧
    names (addSame c o).1 = names c ∧
    (rows (addSame c o).1 = rows c ++ rows o ∨
      (rows (addSame c o).1 = rows o ++ rows c ∧ c.sorted = true ∧ o.sorted = true)) := by
  unfold addSame
  by_cases h0 : o.ncount = 0
  · rw [if_pos h0]
    have : o.ids = [] := by
      have := hao.1; rw [h0] at this
      exact List.eq_nil_of_length_eq_zero (by omega)
    refine ⟨rfl, ha, hf, rfl, Or.inl ?_⟩
    have hr : rows o = [] := by simp [rows, this]
    simp [hr]
  rw [if_neg h0]
  by_cases h1 : c.ncount = 0
  · rw [if_pos h1]
    have hc : c.ids = [] := by
      have := ha.1; rw [h1] at this
      exact List.eq_nil_of_length_eq_zero (by omega)
    refine ⟨rfl, ⟨hao.1, hao.2⟩, fun hs => he hc hs, hn, Or.inl ?_⟩
    have hr : rows c = [] := by simp [rows, hc]
    rw [hr]; rfl
  rw [if_neg h1]
  have hcne : c.ids ≠ [] := by
    intro hh; apply h1; rw [ha.1, hh]; rfl
  have hone : o.ids ≠ [] := by
    intro hh; apply h0; rw [hao.1, hh]; rfl
  have hlook : ∀ p ∈ o.cols, o.cols.lookup p.1 = some p.2 := lookup_self hnd
  have hlen : c.cols.length = o.cols.length := by
    have := congrArg List.length hn
    simp [names] at this; omega
  rw [List.head?_eq_some_head hcne, List.getLast?_eq_some_getLast hcne,
    List.head?_eq_some_head hone, List.getLast?_eq_some_getLast hone]
  simp only
  by_cases hfr : (c.sorted && o.sorted && decide (c.ids.head hcne > o.ids.getLast hone)) = true
  · rw [if_pos hfr, concatCols_same true c.cols o.cols o.cols hn hlook]
    simp only [if_true]
    simp only [Bool.and_eq_true, decide_eq_true_eq] at hfr
    obtain ⟨⟨hcs, hos⟩, hgt⟩ := hfr
    refine ⟨trivial, ⟨?_, ?_⟩, ?_, ?_, Or.inr ⟨?_, hcs, hos⟩⟩
    · simp [ha.1, hao.1]; omega
    · intro p hp
      obtain ⟨a, hac, b, hbo, rfl⟩ := zipWith_mem hp
      simp [ha.2 a hac, hao.2 b hbo]
    · intro _
      show (o.ids ++ c.ids).Pairwise (· ≤ ·)
      rw [List.pairwise_append]
      refine ⟨hfo hos, hf hcs, fun a hA b hB => ?_⟩
      have e1 := pairwise_le_getLast (hfo hos) (List.getLast?_eq_some_getLast hone) a hA
      have e2 := pairwise_head_le (hf hcs) (List.head?_eq_some_head hcne) b hB
      omega
    · show List.map Prod.fst (List.zipWith _ c.cols o.cols) = c.cols.map (·.1)
      exact map_zipWith_left _ _ _ _ _ hlen (fun a _ b _ => rfl)
    · apply rows_append o c _ _ _ _ rfl hao.2
      · intro i hi
        apply map_zipWith_right _ _ _ _ _ hn
        intro a _ b hb hab
        show (a.1, (b.2 ++ a.2)[i]?) = (b.1, b.2[i]?)
        rw [hab, List.getElem?_append_left (by rw [hao.2 b hb]; exact hi)]
      · intro i hi
        apply map_zipWith_left _ _ _ _ _ hlen
        intro a _ b hb
        show (a.1, (b.2 ++ a.2)[o.ids.length + i]?) = (a.1, a.2[i]?)
        rw [List.getElem?_append_right (by rw [hao.2 b hb]; omega), hao.2 b hb]
        simp
  · rw [if_neg hfr, concatCols_same false c.cols o.cols o.cols hn hlook]
    simp only [if_true, Bool.false_eq_true, if_false]
    refine ⟨trivial, ⟨?_, ?_⟩, ?_, ?_, Or.inl ?_⟩
    · simp [ha.1, hao.1]
    · intro p hp
      obtain ⟨a, hac, b, hbo, rfl⟩ := zipWith_mem hp
      simp [ha.2 a hac, hao.2 b hbo]
    · intro hs
      show (c.ids ++ o.ids).Pairwise (· ≤ ·)
      change (if (o.sorted && decide (c.ids.getLast hcne < o.ids.head hone)) = true then c.sorted
        else false) = true at hs
      split at hs
      · rename_i hcond
        simp only [Bool.and_eq_true, decide_eq_true_eq] at hcond
        rw [List.pairwise_append]
        refine ⟨hf hs, hfo hcond.1, fun a hA b hB => ?_⟩
        have e1 := pairwise_le_getLast (hf hs) (List.getLast?_eq_some_getLast hcne) a hA
        have e2 := pairwise_head_le (hfo hcond.1) (List.head?_eq_some_head hone) b hB
        omega
      · cases hs
    · show List.map Prod.fst (List.zipWith _ c.cols o.cols) = c.cols.map (·.1)
      exact map_zipWith_left _ _ _ _ _ hlen (fun a _ b _ => rfl)
    · apply rows_append c o _ _ _ _ rfl ha.2
      · intro i hi
        apply map_zipWith_left _ _ _ _ _ hlen
        intro a hA b hb
        show (a.1, (a.2 ++ b.2)[i]?) = (a.1, a.2[i]?)
        rw [List.getElem?_append_left (by rw [ha.2 a hA]; exact hi)]
      · intro i hi
        apply map_zipWith_right _ _ _ _ _ hn
        intro a hA b hb hab
        show (a.1, (a.2 ++ b.2)[c.ids.length + i]?) = (b.1, b.2[i]?)
        rw [hab, List.getElem?_append_right (by rw [ha.2 a hA]; omega), ha.2 a hA]
        simp

/-! ### Binary search -/

theorem bisectLoop_spec (l : List ℤ) (x : ℤ) (hs : l.Pairwise (· ≤ ·)) :
    ∀ fuel lo hi, hi ≤ l.length → lo ≤ hi → hi - lo ≤ fuel →
      (∀ i < lo, l.getD i 0 < x) → (∀ i, hi ≤ i → i < l.length → x ≤ l.getD i 0) →
      let k := bisectLoop l x fuel lo hi
      k ≤ l.length ∧ (∀ i < k, l.getD i 0 < x) ∧ (∀ i, k ≤ i → i < l.length → x ≤ l.getD i 0) := by
  have mono : ∀ i j, i ≤ j → j < l.length → l.getD i 0 ≤ l.getD j 0 := by
    intro i j hij hj
    rw [List.getD_eq_getElem _ _ (by omega), List.getD_eq_getElem _ _ hj]
    rcases Nat.lt_or_eq_of_le hij with h | h
    · exact List.pairwise_iff_getElem.mp hs i j (by omega) hj h
    · subst h; exact le_refl _
  intro fuel
  induction fuel with
  | zero =>
    intro lo hi hh hl hfu h1 h2
    have : lo = hi := by omega
    subst this
    exact ⟨hh, h1, h2⟩
  | succ f ih =>
    intro lo hi hh hl hfu h1 h2
    simp only [bisectLoop]
    by_cases hlt : lo < hi
    · rw [if_pos hlt]
      have hm1 : lo ≤ (lo + hi) / 2 := by omega
      have hm2 : (lo + hi) / 2 < hi := by omega
      by_cases hc : l.getD ((lo + hi) / 2) 0 < x
      · rw [if_pos hc]
        refine ih _ _ hh (by omega) (by omega) ?_ h2
        intro i hi'
        exact lt_of_le_of_lt (mono i _ (by omega) (by omega)) hc
      · rw [if_neg hc]
        refine ih _ _ (by omega) hm1 (by omega) h1 ?_
        intro i hi' hil
        exact le_trans (not_lt.mp hc) (mono _ i hi' hil)
    · rw [if_neg hlt]
      have : lo = hi := by omega
      subst this
      exact ⟨hh, h1, h2⟩

theorem bisectLeft_spec (l : List ℤ) (x : ℤ) (hs : l.Pairwise (· ≤ ·)) :
    bisectLeft l x ≤ l.length ∧ (∀ i < bisectLeft l x, l.getD i 0 < x) ∧
    (∀ i, bisectLeft l x ≤ i → i < l.length → x ≤ l.getD i 0) :=
  bisectLoop_spec l x hs l.length 0 l.length (le_refl _) (Nat.zero_le _) (by omega)
    (fun i hi => absurd hi (by omega)) (fun i h1 h2 => absurd h2 (by omega))

/-- `indexOfID` is right whenever the flag tells the truth. -/
theorem indexOfID_ok {c : Coll V} {id : ℤ} {k : Nat} (hf : FlagOK c) (h : indexOfID c id = .ok k) :
    c.ids[k]? = some id ∧ ∀ i < k, c.ids[i]? ≠ some id := by
  unfold indexOfID at h
  by_cases hs : c.sorted = true
  · rw [if_pos hs] at h
    simp only at h
    split at h
    · cases h
    · rename_i hne
      injection h with h
      subst h
      rw [not_or, not_not] at hne
      obtain ⟨h1, h2, h3⟩ := bisectLeft_spec c.ids id (hf hs)
      have hlt : bisectLeft c.ids id < c.ids.length := by omega
      refine ⟨?_, ?_⟩
      · rw [List.getElem?_eq_getElem hlt, ← List.getD_eq_getElem _ 0 hlt, hne.2]
      · intro i hi he
        have := h2 i hi
        rw [List.getD_eq_getElem?_getD, he] at this
        simp at this
  · rw [if_neg hs] at h
    split at h
    · cases h
    · rename_i k' l' hl
      injection h with h
      subst h
      have hm : k' ∈ (List.range c.ids.length).filter fun i => c.ids.getD i 0 = id := by rw [hl]; simp
      rw [List.mem_filter, List.mem_range, decide_eq_true_eq] at hm
      refine ⟨by rw [List.getElem?_eq_getElem hm.1, ← List.getD_eq_getElem _ 0 hm.1, hm.2], ?_⟩
      intro i hi he
      have hil : i < c.ids.length := by omega
      have hmi : i ∈ (List.range c.ids.length).filter fun i => c.ids.getD i 0 = id := by
        rw [List.mem_filter, List.mem_range, decide_eq_true_eq]
        exact ⟨hil, by rw [List.getD_eq_getElem?_getD, he]; rfl⟩
      have hsrt : ((List.range c.ids.length).filter fun i => c.ids.getD i 0 = id).Pairwise (· < ·) :=
        List.pairwise_lt_range.filter _
      rw [hl] at hmi hsrt
      rcases List.mem_cons.mp hmi with e | e
      · omega
      · have := (List.pairwise_cons.mp hsrt).1 i e; omega

theorem indexOfID_found {c : Coll V} {id : ℤ} (hf : FlagOK c) (h : id ∈ c.ids) :
    ∃ k, indexOfID c id = .ok k := by
  obtain ⟨j, hj, rfl⟩ := List.mem_iff_getElem.mp h
  unfold indexOfID
  by_cases hs : c.sorted = true
  · rw [if_pos hs]
    simp only
    obtain ⟨h1, h2, h3⟩ := bisectLeft_spec c.ids c.ids[j] (hf hs)
    have hkj : bisectLeft c.ids c.ids[j] ≤ j := by
      by_contra hc
      have := h2 j (by omega)
      rw [List.getD_eq_getElem _ _ hj] at this
      omega
    have hlt : bisectLeft c.ids c.ids[j] < c.ids.length := by omega
    have e1 := h3 _ (le_refl _) hlt
    have e2 : c.ids.getD (bisectLeft c.ids c.ids[j]) 0 ≤ c.ids[j] := by
      rw [List.getD_eq_getElem _ _ hlt]
      rcases Nat.lt_or_eq_of_le hkj with h | h
      · exact List.pairwise_iff_getElem.mp (hf hs) _ j hlt hj h
      · simp [h]
    rw [if_neg]
    · exact ⟨_, rfl⟩
    · rw [not_or, not_not]; exact ⟨by omega, by omega⟩
  · rw [if_neg hs]
    split
    · rename_i hl
      have hm : j ∈ (List.range c.ids.length).filter fun i => c.ids.getD i 0 = c.ids[j] := by
        rw [List.mem_filter, List.mem_range, decide_eq_true_eq]
        exact ⟨hj, List.getD_eq_getElem _ _ hj⟩
      rw [hl] at hm; simp at hm
    · exact ⟨_, rfl⟩

theorem indexOfID_missing {c : Coll V} {id : ℤ} (hf : FlagOK c) (h : id ∉ c.ids) :
    ∃ e, indexOfID c id = .error e := by
  rcases hr : indexOfID c id with e | k
  · exact ⟨e, rfl⟩
  · exact absurd (List.mem_of_getElem? (indexOfID_ok hf hr).1) h

/-! ### Looking up several IDs -/

theorem bisectLoop_le (l : List ℤ) (x : ℤ) :
    ∀ fuel lo hi, lo ≤ hi → bisectLoop l x fuel lo hi ≤ hi := by
  intro fuel
  induction fuel with
  | zero => intro lo hi h; exact h
  | succ f ih =>
    intro lo hi h
    simp only [bisectLoop]
    split
    · split
      · exact ih _ _ (by omega)
      · exact le_trans (ih _ _ (by omega)) (by omega)
    · exact h

theorem bisectLeft_le (l : List ℤ) (x : ℤ) : bisectLeft l x ≤ l.length :=
  bisectLoop_le l x _ _ _ (Nat.zero_le _)

theorem slice_length_le {α : Type} (l : List α) (lo hi : Nat) : (slice l lo hi).length ≤ l.length := by
  simp [slice]

/-- IDs at the returned indices form a sublist of the IDs asked for. -/
theorem recLookup_sublist (ids : List ℤ) : ∀ fuel low high sub r,
    recLookup ids fuel low high sub = .ok r →
    (r.vals.map fun i => ids.getD i 0).Sublist sub ∧ ∀ i ∈ r.vals, i < ids.length := by
  intro fuel
  induction fuel with
  | zero => intro low high sub r h; simp [recLookup] at h
  | succ f ih =>
    intro low high sub r h
    simp only [recLookup] at h
    split at h
    · cases h
    · rename_i m hm
      have hidx := le_trans (bisectLeft_le (slice ids low high) m) (slice_length_le ids low high)
      by_cases h1 : sub.length = 1
      · rw [if_pos h1] at h
        split at h
        · injection h with h; subst h; simp
        · rename_i hne
          rw [not_or, not_not] at hne
          injection h with h; subst h
          obtain ⟨a, rfl⟩ := List.length_eq_one_iff.mp h1
          simp at hm
          subst hm
          have e2 := hne.2
          refine ⟨?_, by intro i hi; simp at hi; omega⟩
          show [ids.getD (bisectLeft (slice ids low high) a) 0].Sublist [a]
          rw [e2]
      · rw [if_neg h1] at h
        by_cases h2 : bisectLeft (slice ids low high) m = ids.length
        · rw [if_pos h2] at h
          obtain ⟨e1, e2⟩ := ih _ _ _ _ h
          exact ⟨e1.trans (List.eraseIdx_sublist _ _), e2⟩
        · rw [if_neg h2] at h
          by_cases h3 : ids.getD (bisectLeft (slice ids low high) m) 0 ≠ m
          · rw [if_pos h3] at h
            split at h
            · cases h
            · rename_i l hl
              split at h
              · cases h
              · rename_i r' hr'
                injection h with h; subst h
                obtain ⟨a1, a2⟩ := ih _ _ _ _ hl
                obtain ⟨b1, b2⟩ := ih _ _ _ _ hr'
                refine ⟨?_, ?_⟩
                · rw [List.map_append]
                  refine (a1.append b1).trans ?_
                  have := List.eraseIdx_sublist sub (sub.length / 2)
                  rw [List.eraseIdx_eq_take_drop_succ] at this
                  exact this
                · intro i hi
                  rcases List.mem_append.mp hi with e | e
                  · exact a2 i e
                  · exact b2 i e
          · rw [if_neg h3] at h
            split at h
            · cases h
            · split at h <;> cases h

theorem removeByIDs_nodup {c : Coll V} {q : List ℤ} {r : Idx} (hq : q.Nodup)
    (h : indicesOfIDs c q = .ok r) : r.vals.Nodup ∧ ∀ i ∈ r.vals, i < c.ids.length := by
  unfold indicesOfIDs at h
  by_cases hs : c.sorted = true
  · rw [if_pos hs] at h
    obtain ⟨h1, h2⟩ := recLookup_sublist _ _ _ _ _ _ h
    have : (npSort q).Nodup := (List.perm_insertionSort _ q).nodup_iff.mpr hq
    exact ⟨(this.sublist h1).of_map, h2⟩
  · rw [if_neg hs] at h
    injection h with h; subst h
    refine ⟨List.nodup_range.filter _, ?_⟩
    intro i hi
    rw [List.mem_filter, List.mem_range] at hi
    exact hi.1

end Parcels.Collection
