import Verif.Model.Movie

/-!
Lemmas for C133.
-/

namespace Parcels.Movie

theorem mem_insert (x z : ℚ) (l : List ℚ) : z ∈ insert x l ↔ z = x ∨ z ∈ l := by
  induction l with
  | nil => simp [insert]
  | cons y ys ih =>
    simp only [insert]
    split
    · simp
    · split
      · rename_i h
        subst h
        simp
      · simp only [List.mem_cons, ih]
        tauto

theorem insert_sorted (x : ℚ) (l : List ℚ) (h : l.Pairwise (· < ·)) : (insert x l).Pairwise (· < ·) := by
  induction l with
  | nil => simp [insert]
  | cons y ys ih =>
    obtain ⟨h1, h2⟩ := List.pairwise_cons.1 h
    simp only [insert]
    split
    · rename_i hx
      refine List.pairwise_cons.2 ⟨fun z hz => ?_, h⟩
      rcases List.mem_cons.1 hz with rfl | hz
      · exact hx
      · exact hx.trans (h1 z hz)
    · split
      · exact h
      · rename_i ha hb
        refine List.pairwise_cons.2 ⟨fun z hz => ?_, ih h2⟩
        rcases (mem_insert x z ys).1 hz with rfl | hz
        · exact lt_of_le_of_ne (not_lt.1 ha) (Ne.symm hb)
        · exact h1 z hz

theorem unique_sorted (l : List (Option ℚ)) : (unique l).Pairwise (· < ·) := by
  unfold unique
  induction l.filterMap id with
  | nil => exact List.Pairwise.nil
  | cons x xs ih => exact insert_sorted x _ ih

theorem mem_unique (l : List (Option ℚ)) (t : ℚ) : t ∈ unique l ↔ some t ∈ l := by
  have h : t ∈ l.filterMap id ↔ some t ∈ l := by simp
  rw [← h]
  unfold unique
  induction l.filterMap id with
  | nil => simp
  | cons x xs ih => simp only [List.foldr_cons, mem_insert, ih, List.mem_cons]

theorem mem_plottimes (forward : Bool) (rs : List Rec) (t : ℚ) : t ∈ plottimes forward rs ↔ ∃ r ∈ rs, r.time = some t := by
  have : t ∈ plottimes forward rs ↔ t ∈ unique (rs.map Rec.time) := by
    cases forward <;> simp [plottimes]
  rw [this, mem_unique]
  simp

end Parcels.Movie
