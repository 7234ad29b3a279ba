import Verif.Model.Indent
import Verif.Spec.Indent

/-!
C128: kernels that are defined inside functions.
-/

namespace Parcels.Indent

theorem removeFirst_short (w l : List Char) (h : l.length < w.length) : removeFirst w l = l := by
  induction l with
  | nil => rfl
  | cons c l ih =>
    have hp : w.isPrefixOf (c :: l) = false := by
      rw [Bool.eq_false_iff]
      intro q
      have := (List.isPrefixOf_iff_prefix.1 q).length_le
      omega
    rw [removeFirst, hp, if_neg (by simp), ih (by simp only [List.length_cons] at h; omega)]

theorem removeFirst_prefix (w l : List Char) (hw : w ≠ []) : removeFirst w (w ++ l) = l := by
  cases w with
  | nil => exact absurd rfl hw
  | cons c w =>
    have hp : (c :: w).isPrefixOf (c :: (w ++ l)) = true := List.isPrefixOf_iff_prefix.2 ⟨l, rfl⟩
    rw [List.cons_append, removeFirst, hp, if_pos rfl]
    simp

theorem removeFirst_without (w l s : List Char) (hw : w ≠ []) (h : Without w l s) : removeFirst w l = s := by
  rcases h with rfl | ⟨h, rfl⟩
  · exact removeFirst_prefix w s hw
  · exact removeFirst_short w _ h

theorem removeFirst_none (w l : List Char) (h : ¬ w <:+: l) : removeFirst w l = l := by
  induction l with
  | nil => rfl
  | cons c l ih =>
    have hp : w.isPrefixOf (c :: l) = false := by
      rw [Bool.eq_false_iff]
      intro q
      exact h (List.isPrefixOf_iff_prefix.1 q).isInfix
    rw [removeFirst, hp, if_neg (by simp), ih]
    rintro ⟨a, b, e⟩
    exact h ⟨c :: a, b, by simp [← e]⟩

theorem isSpace_iff (c : Char) : isSpace c = true ↔ c ∈ blanks := by
  simp [isSpace, blanks, or_assoc]

theorem indentation (w : List Char) (hw : ∀ c ∈ w, c ∈ blanks) (c : Char) (hc : c ∉ blanks) (l0 : List Char) : (w ++ c :: l0).takeWhile isSpace = w := by
  have h : isSpace c = false := by rw [← Bool.not_eq_true, isSpace_iff]; exact hc
  rw [List.takeWhile_append_of_pos (fun c hc => (isSpace_iff c).2 (hw c hc)), List.takeWhile_cons, h]
  simp

/-- C128: a kernel that is indented by `w` is read as if it stood at the left margin: each line loses exactly `w`, lines that are too short for it stay. Partial: all
lines are indented by at least as much as the first, or too short (`C128_less_fails`). -/
theorem C128_indented_partial (w : List Char) (hw : ∀ c ∈ w, c ∈ blanks) (c : Char) (hc : c ∉ blanks) (l0 : List Char) (long short : List (List Char))
    (h : List.Forall₂ (Without w) long short) : fix ((w ++ c :: l0) :: long) = (c :: l0) :: short := by
  have ht := indentation w hw c hc l0
  unfold fix
  simp only [ht]
  by_cases hn : w = []
  · subst hn
    rw [if_pos rfl, List.nil_append]
    congr 1
    induction h with
    | nil => rfl
    | cons h _ ih =>
      rcases h with rfl | ⟨h, -⟩
      · rw [ih]
      · simp at h
  · rw [if_neg hn, List.map_cons, removeFirst_prefix w _ hn]
    congr 1
    induction h with
    | nil => rfl
    | cons h _ ih => rw [List.map_cons, ih, removeFirst_without w _ _ hn h]

/-- C128: a line with less indentation stays as it is, if the indentation of the first line does not occur in it elsewhere; and a kernel that stands at the left margin
is not changed at all. -/
theorem C128_kept (w : List Char) (hw : ∀ c ∈ w, c ∈ blanks) (c : Char) (hc : c ∉ blanks) (l0 : List Char) (ls : List (List Char)) :
    (∀ l ∈ ls, ¬ w <:+: l) ∨ w = [] → fix ((w ++ c :: l0) :: ls) = (c :: l0) :: ls := by
  intro h
  have ht := indentation w hw c hc l0
  unfold fix
  simp only [ht]
  by_cases hn : w = []
  · subst hn; rfl
  · rw [if_neg hn, List.map_cons, removeFirst_prefix w _ hn]
    congr 1
    rcases h with h | h
    · conv_rhs => rw [← List.map_id ls]
      apply List.map_congr_left
      intro l hl
      exact removeFirst_none w l (h l hl)
    · exact absurd h hn

/-- A kernel inside a function: the inner indentation is kept, an empty line stays. -/
example : (fix ["    def k(p):".toList, "        p.x += 1".toList, "".toList, "        p.y = 'a    b'".toList]).map String.ofList =
    ["def k(p):", "    p.x += 1", "", "    p.y = 'a    b'"] := by decide +kernel

example : List.Forall₂ (Without "    ".toList) ["        p.x += 1".toList, []] ["    p.x += 1".toList, []] :=
  .cons (Or.inl (by decide +kernel)) (.cons (Or.inr ⟨by decide +kernel, rfl⟩) .nil)

/-- C128 is false for lines with less indentation, which Python allows inside brackets and strings: the first occurrence of the indentation is removed, wherever it
is. Here a line loses blanks inside a string. -/
theorem C128_less_fails : (fix ["    def k(p):".toList, "        print(".toList, "  'a    b')".toList]).map String.ofList =
    ["def k(p):", "    print(", "  'ab')"] := by decide +kernel

end Parcels.Indent
