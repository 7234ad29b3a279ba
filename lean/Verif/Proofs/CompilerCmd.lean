import Verif.Spec.CompilerCmd

/-!
Lemmas for C132.
-/

namespace Parcels.CompilerCmd

theorem begins_append (p s t : String) (h : p.toList.length = s.toList.length) : Begins p (s ++ t) = decide (p.toList = s.toList) := by
  unfold Begins
  rw [String.toList_append]
  generalize p.toList = a at *
  generalize s.toList = b at *
  induction a generalizing b with
  | nil => cases b with
    | nil => simp
    | cons y b => simp at h
  | cons x a ih => cases b with
    | nil => simp at h
    | cons y b =>
      have := ih b (by simpa using h)
      simp only [List.cons_append, List.isPrefixOf_cons₂, this]
      by_cases hxy : x = y <;> simp [hxy]

theorem filter_map_nil (p s : String) (h : p.toList.length = s.toList.length) (hn : p.toList ≠ s.toList) (l : List String) :
    (l.map (s ++ ·)).filter (Begins p) = [] := by
  rw [List.filter_eq_nil_iff]
  intro x hx
  obtain ⟨y, -, rfl⟩ := List.mem_map.1 hx
  rw [begins_append p s y h]
  simp [hn]

end Parcels.CompilerCmd
