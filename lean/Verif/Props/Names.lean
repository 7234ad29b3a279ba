import Verif.Model.Names
import Mathlib.Data.List.Nodup
import Mathlib.Data.List.Infix
import Mathlib.Tactic.Common

/-!
C43: names in generated C code do not clash, and a sample reads the field it names. The code can give the same name
twice, when a field is called like another field followed by a number; excluding that, names are pairwise different.
-/

namespace Parcels.Names

/-- `b` is `a` followed by a decimal number. -/
def NumberedFrom (a b : String) : Prop := ∃ ds : List Char, ds ≠ [] ∧ (∀ c ∈ ds, c.isDigit = true) ∧ b.toList = a.toList ++ ds

theorem toString_toList (k : Nat) : (toString k).toList = Nat.toDigits 10 k := Nat.toList_repr

theorem digits_inj {k j : Nat} (h : Nat.toDigits 10 k = Nat.toDigits 10 j) : k = j := by
  rw [← Nat.ofDigitChars_ten_toDigits (n := k), h, Nat.ofDigitChars_ten_toDigits]

theorem digits_digit {k : Nat} {c : Char} (h : c ∈ Nat.toDigits 10 k) : c.isDigit = true :=
  Nat.isDigit_of_mem_toDigits (by decide) (by decide) h

/-- A numbered name never equals a name that is not numbered from it. -/
theorem numbered_of_eq {a b : String} {k : Nat} (h : a ++ toString k = b) : NumberedFrom a b := by
  refine ⟨Nat.toDigits 10 k, Nat.toDigits_ne_nil, fun c hc => digits_digit hc, ?_⟩
  rw [← h, String.toList_append, toString_toList]

theorem ext_list {a b : String} (h : a.toList = b.toList) : a = b := String.toList_injective h

/-- Two numbered names are equal only if one of the names is numbered from the other, or all is equal. -/
theorem numbered_eq {a b : String} {k j : Nat} (h : a ++ toString k = b ++ toString j) :
    (a = b ∧ k = j) ∨ NumberedFrom a b ∨ NumberedFrom b a := by
  have h' : a.toList ++ Nat.toDigits 10 k = b.toList ++ Nat.toDigits 10 j := by
    have := congrArg String.toList h
    rwa [String.toList_append, String.toList_append, toString_toList, toString_toList] at this
  rcases List.append_eq_append_iff.mp h' with ⟨w, hw1, hw2⟩ | ⟨w, hw1, hw2⟩
  · by_cases hw : w = []
    · subst hw
      exact Or.inl ⟨ext_list (by simpa using hw1.symm), digits_inj (by simpa using hw2)⟩
    · exact Or.inr (Or.inl ⟨w, hw, fun c hc => digits_digit (k := k) (by rw [hw2]; simp [hc]), hw1⟩)
  · by_cases hw : w = []
    · subst hw
      exact Or.inl ⟨ext_list (by simpa using hw1), digits_inj (by simpa using hw2.symm)⟩
    · exact Or.inr (Or.inr ⟨w, hw, fun c hc => digits_digit (k := j) (by rw [hw2]; simp [hc]), hw1⟩)

/-- What holds of the names given so far: each is a field's name, or a field's name and a smaller number. -/
def Known (all used : List String) (counter : Nat) : Prop :=
  ∀ u ∈ used, u ∈ all ∨ ∃ a ∈ all, ∃ k < counter, u = a ++ toString k

theorem assign_nodup (all : List String) (hall : ∀ a ∈ all, ∀ b ∈ all, ¬ NumberedFrom a b) :
    ∀ (names used : List String) (counter : Nat), (∀ n ∈ names, n ∈ all) → Known all used counter → used.Nodup →
      (used ++ assign names used counter).Nodup
  | [], used, counter, _, _, hu => by simpa [assign] using hu
  | n :: rest, used, counter, hn, hk, hu => by
    have hna := hn n (List.mem_cons_self)
    have hrest : ∀ m ∈ rest, m ∈ all := fun m hm => hn m (List.mem_cons_of_mem _ hm)
    unfold assign
    by_cases hin : n ∈ used
    · rw [if_pos hin]
      have hfresh : n ++ toString counter ∉ used := by
        intro hmem
        rcases hk _ hmem with h | ⟨a, ha, k, hkc, h⟩
        · exact hall n hna _ h (numbered_of_eq rfl)
        · rcases numbered_eq h with ⟨_, h2⟩ | h2 | h2
          · omega
          · exact hall _ hna _ ha h2
          · exact hall _ ha _ hna h2
      have := assign_nodup all hall rest (used ++ [n ++ toString counter]) (counter + 1) hrest
        (by
          intro u hu
          rcases List.mem_append.mp hu with h | h
          · rcases hk u h with h1 | ⟨a, ha, k, hkc, h1⟩
            · exact Or.inl h1
            · exact Or.inr ⟨a, ha, k, by omega, h1⟩
          · exact Or.inr ⟨n, hna, counter, by omega, List.mem_singleton.mp h⟩)
        (List.nodup_append.mpr ⟨hu, List.nodup_singleton _, by
          intro x hx y hy hxy
          rw [List.mem_singleton.mp hy] at hxy
          exact hfresh (hxy ▸ hx)⟩)
      simpa using this
    · rw [if_neg hin]
      have := assign_nodup all hall rest (used ++ [n]) counter hrest
        (by
          intro u hu
          rcases List.mem_append.mp hu with h | h
          · exact hk u h
          · exact Or.inl (List.mem_singleton.mp h ▸ hna))
        (List.nodup_append.mpr ⟨hu, List.nodup_singleton _, by
          intro x hx y hy hxy
          rw [List.mem_singleton.mp hy] at hxy
          exact hin (hxy ▸ hx)⟩)
      simpa using this

/-- C43 (partial): if no field is called like another field followed by a number, the names in C are pairwise
different. Missing: name sets where a field is called like another one followed by a number, for which the claim is
false, see `C43_full_false`. -/
theorem C43_distinct_partial (names : List String) (hall : ∀ a ∈ names, ∀ b ∈ names, ¬ NumberedFrom a b) :
    (ccodeNames names).Nodup := by
  have := assign_nodup names hall names [] 1 (fun _ h => h) (by intro u hu; cases hu) List.nodup_nil
  simpa [ccodeNames] using this

theorem not_numbered_of_length {a b : String} (h : b.length ≤ a.length) : ¬ NumberedFrom a b := by
  rintro ⟨ds, h1, _, h3⟩
  have := congrArg List.length h3
  simp only [String.length_toList, List.length_append] at this
  have := List.length_pos_iff.mpr h1
  omega

/-- The hypotheses of `C43_distinct_partial` hold for two summed velocity fields, of two components each. -/
example : ∀ a ∈ ["U", "U", "U", "V", "V", "V", "T"], ∀ b ∈ ["U", "U", "U", "V", "V", "V", "T"], ¬ NumberedFrom a b := by
  intro a ha b hb
  apply not_numbered_of_length
  revert a b; decide

example : ccodeNames ["U", "U", "U", "V", "V", "V", "T"] = ["U", "U1", "U2", "V", "V3", "V4", "T"] := by decide

theorem assign_length : ∀ (names used : List String) (counter : Nat), (assign names used counter).length = names.length
  | [], _, _ => rfl
  | n :: rest, used, counter => by
    unfold assign; split <;> simp [assign_length rest]

theorem assign_distinct : ∀ (names used : List String) (counter : Nat), (used ++ names).Nodup →
    assign names used counter = names
  | [], _, _, _ => rfl
  | n :: rest, used, counter, h => by
    have hn : n ∉ used := by
      intro hin
      exact (List.nodup_append.mp h).2.2 n hin n List.mem_cons_self rfl
    unfold assign
    rw [if_neg hn, assign_distinct rest (used ++ [n]) counter (by simpa using h)]

/-- C43: fields with pairwise different names keep their names, whatever they are. -/
theorem C43_kept (names : List String) (h : names.Nodup) : ccodeNames names = names :=
  assign_distinct names [] 1 (by simpa using h)

example : ["U", "V", "U1", "V12"].Nodup := by decide

/-- C43: there is a name for each field, and it begins with the field's own name: only a number is ever added. -/
theorem C43_own (names : List String) :
    (ccodeNames names).length = names.length ∧
      ∀ (i : Nat) (n : String), names[i]? = some n → ∃ s : String, (ccodeNames names)[i]? = some (n ++ s) := by
  refine ⟨assign_length _ _ _, ?_⟩
  suffices H : ∀ (names used : List String) (c i : Nat) (n : String), names[i]? = some n →
      ∃ s : String, (assign names used c)[i]? = some (n ++ s) from fun i n h => H names [] 1 i n h
  intro names
  induction names with
  | nil => intro used c i n h; simp at h
  | cons m rest ih =>
    intro used c i n h
    unfold assign
    cases i with
    | zero =>
      have e : m = n := by simpa using h
      subst e
      by_cases hin : m ∈ used
      · exact ⟨toString c, by rw [if_pos hin]; rfl⟩
      · exact ⟨"", by rw [if_neg hin]; simp⟩
    | succ i =>
      have h' : rest[i]? = some n := by simpa using h
      by_cases hin : m ∈ used
      · rw [if_pos hin]; simpa using ih _ _ i n h'
      · rw [if_neg hin]; simpa using ih _ _ i n h'

/-- The full claim of C43 is false of the code: a field `P1`, then a summed field `P` with a component `P`. The
component is called `P1`, too. -/
theorem C43_full_false : ¬ ∀ names : List String, (ccodeNames names).Nodup :=
  fun h => absurd (h ["P1", "P", "P"]) (by decide)

/-! ### What a sample reads -/

theorem dictSet_find (d : List (String × Nat)) (k : String) (v : Nat) (q : String) :
    ((dictSet d k v).find? fun p => decide (p.1 = q)) =
      if k = q then some (k, v) else d.find? fun p => decide (p.1 = q) := by
  induction d with
  | nil =>
    unfold dictSet
    by_cases h : k = q <;> simp [h]
  | cons p rest ih =>
    obtain ⟨k', v'⟩ := p
    unfold dictSet
    by_cases hk : k' = k
    · rw [if_pos hk]
      by_cases h : k = q
      · simp [h]
      · have : k' ≠ q := hk ▸ h
        simp [h, this]
    · rw [if_neg hk]
      by_cases h' : k' = q
      · have : k ≠ q := fun e => hk (h'.trans e.symm)
        simp [h', this]
      · rw [List.find?_cons_of_neg (by simpa using h'), ih, List.find?_cons_of_neg (by simpa using h')]

/-- The dictionary gives, for each name, the field visited last among those with the name. -/
theorem foldl_find (cc : List String) (q : String) : ∀ (visited : List Nat) (d : List (String × Nat)),
    ((visited.foldl (fun d i => dictSet d (cc.getD i "") i) d).find? fun p => decide (p.1 = q)).map (·.2) =
      match visited.reverse.find? fun i => decide (cc.getD i "" = q) with
      | some i => some i
      | none => (d.find? fun p => decide (p.1 = q)).map (·.2)
  | [], d => rfl
  | i :: rest, d => by
    rw [List.foldl_cons, foldl_find cc q rest, List.reverse_cons, List.find?_append]
    cases h : rest.reverse.find? fun i => decide (cc.getD i "" = q) with
    | some j => rfl
    | none =>
      simp only [Option.none_or]
      rw [dictSet_find]
      by_cases hi : cc.getD i "" = q
      · rw [if_pos hi]
        rw [List.find?_cons_of_pos (by simpa using hi)]; rfl
      · rw [if_neg hi]
        rw [List.find?_cons_of_neg (by simpa using hi)]; rfl

/-- C43: if the names are pairwise different, every sample in the kernel reads the field it was written for. -/
theorem C43_reads (cc : List String) (hcc : cc.Nodup) (visited : List Nat) (hv : ∀ i ∈ visited, i < cc.length)
    (i : Nat) (hi : i ∈ visited) : cReads cc visited i = some i := by
  unfold cReads fieldArgs
  rw [foldl_find]
  have hii := hv i hi
  cases h : visited.reverse.find? fun j => decide (cc.getD j "" = cc.getD i "") with
  | none =>
    have := List.find?_eq_none.mp h i (List.mem_reverse.mpr hi)
    simp at this
  | some j =>
    have h1 := List.find?_some h
    have h2 := hv j (List.mem_reverse.mp (List.mem_of_find?_eq_some h))
    have h3 : cc[j] = cc[i] := by simpa [List.getD_eq_getElem?_getD, h2, hii] using h1
    rw [(List.Nodup.getElem_inj_iff hcc).mp h3]

example : (["U", "U1", "V"].Nodup ∧ ∀ i ∈ [2, 0, 1, 0], i < ["U", "U1", "V"].length) := by decide

/-- C43, end to end (partial): with no field called like another one followed by a number, every sample in the C code
reads the field it was written for. -/
theorem C43_samples_partial (names : List String) (hall : ∀ a ∈ names, ∀ b ∈ names, ¬ NumberedFrom a b)
    (visited : List Nat) (hv : ∀ i ∈ visited, i < names.length) (i : Nat) (hi : i ∈ visited) :
    cReads (ccodeNames names) visited i = some i :=
  C43_reads _ (C43_distinct_partial names hall) visited (fun j hj => by rw [(C43_own names).1]; exact hv j hj) i hi

/-- A clash is not reported: in the kernel that samples the field `P1` and then the component `P`, the C code reads
the component both times. -/
theorem C43_clash_reads : cReads (ccodeNames ["P1", "P", "P"]) [0, 2] 0 = some 2 := by decide

end Parcels.Names
