import Verif.Proofs.Collection2
import Mathlib.Tactic.Linarith

namespace Parcels.Collection

variable {V : Type}

/-! ### The sorted path of the multi-ID lookup -/

theorem slice_get (l : List ℤ) (lo hi i : Nat) (h : i < (slice l lo hi).length) :
    (slice l lo hi).getD i 0 = l.getD (lo + i) 0 := by
  unfold slice at *
  simp only [List.length_drop, List.length_take] at h
  rw [List.getD_eq_getElem?_getD, List.getD_eq_getElem?_getD, List.getElem?_drop, List.getElem?_take]
  rw [if_pos (by omega)]

theorem slice_len (l : List ℤ) (lo hi : Nat) : (slice l lo hi).length = min hi l.length - lo := by
  simp [slice]

theorem slice_sorted {l : List ℤ} (hs : l.Pairwise (· < ·)) (lo hi : Nat) :
    (slice l lo hi).Pairwise (· ≤ ·) := by
  have : (slice l lo hi).Sublist l := (List.drop_sublist _ _).trans (List.take_sublist _ _)
  exact (hs.sublist this).imp (fun h => le_of_lt h)

theorem strict_mono {l : List ℤ} (hs : l.Pairwise (· < ·)) {i j : Nat} (hij : i < j) (hj : j < l.length) :
    l.getD i 0 < l.getD j 0 := by
  rw [List.getD_eq_getElem _ _ (by omega), List.getD_eq_getElem _ _ hj]
  exact List.pairwise_iff_getElem.mp hs i j (by omega) hj hij

/-- Away from the start of the array the relative index never points at the ID asked for. -/
theorem rel_ne {ids : List ℤ} (hs : ids.Pairwise (· < ·)) {low high : Nat} {m : ℤ} (hlow : 0 < low)
    (hm : ids.getD 0 0 < m) (hlt : bisectLeft (slice ids low high) m < ids.length) :
    ids.getD (bisectLeft (slice ids low high) m) 0 ≠ m := by
  intro he
  obtain ⟨h1, h2, h3⟩ := bisectLeft_spec (slice ids low high) m (slice_sorted hs low high)
  set k := bisectLeft (slice ids low high) m with hk
  rw [slice_len] at h1 h3
  have hk0 : 0 < k := by
    by_contra hc
    have : k = 0 := by omega
    rw [this] at he; omega
  have h4 := h2 (k - 1) (by omega)
  rw [slice_get _ _ _ _ (by rw [slice_len]; omega)] at h4
  have h5 : ids.getD k 0 ≤ ids.getD (low + (k - 1)) 0 := by
    rcases Nat.lt_or_eq_of_le (show k ≤ low + (k - 1) by omega) with h | h
    · exact le_of_lt (strict_mono hs h (by omega))
    · rw [← h]
  omega

/-- Any successful lookup that does not start at the first particle gives a float index array. -/
theorem recLookup_float {ids : List ℤ} (hs : ids.Pairwise (· < ·)) : ∀ fuel low high sub r, 0 < low →
    (∀ m ∈ sub, ids.getD 0 0 < m) → recLookup ids fuel low high sub = .ok r → r.isFloat = true := by
  intro fuel
  induction fuel with
  | zero => intro low high sub r _ _ h; simp [recLookup] at h
  | succ f ih =>
    intro low high sub r hlow hgt h
    simp only [recLookup] at h
    split at h
    · cases h
    · rename_i m hm
      have hmm : m ∈ sub := List.mem_of_getElem? hm
      have hidx := le_trans (bisectLeft_le (slice ids low high) m) (slice_length_le ids low high)
      by_cases h1 : sub.length = 1
      · rw [if_pos h1] at h
        split at h
        · injection h with h; subst h; rfl
        · rename_i hne
          rw [not_or, not_not] at hne
          exact absurd hne.2 (rel_ne hs hlow (hgt m hmm) (by omega))
      · rw [if_neg h1] at h
        by_cases h2 : bisectLeft (slice ids low high) m = ids.length
        · rw [if_pos h2] at h
          exact ih _ _ _ _ hlow (fun x hx => hgt x (List.mem_of_mem_eraseIdx hx)) h
        · rw [if_neg h2] at h
          split at h
          · split at h
            · cases h
            · rename_i l hl
              split at h
              · cases h
              · injection h with h; subst h
                have := ih _ _ _ _ hlow (fun x hx => hgt x (List.mem_of_mem_take hx)) hl
                simp [this]
          · split at h
            · cases h
            · split at h <;> cases h

/-- With two particles of the set among the IDs, the lookup raises or gives a float index array. -/
theorem recLookup_two {ids : List ℤ} (hs : ids.Pairwise (· < ·)) : ∀ fuel high sub r, high ≤ ids.length →
    sub.Pairwise (· ≤ ·) →
    (∃ x ∈ sub, ∃ y ∈ sub, x < y ∧ (∃ i < high, ids.getD i 0 = x) ∧ ∃ j < high, ids.getD j 0 = y) →
    recLookup ids fuel 0 high sub = .ok r → r.isFloat = true := by
  intro fuel
  induction fuel with
  | zero => intro high sub r _ _ _ h; simp [recLookup] at h
  | succ f ih =>
    intro high sub r hh hsub hxy h
    obtain ⟨x, hx, y, hy, hlt, ⟨i, hi, hix⟩, ⟨j, hj, hjy⟩⟩ := hxy
    simp only [recLookup] at h
    split at h
    · cases h
    · rename_i m hm
      obtain ⟨b1, b2, b3⟩ := bisectLeft_spec (slice ids 0 high) m (slice_sorted hs 0 high)
      have hidx := le_trans (bisectLeft_le (slice ids 0 high) m) (slice_length_le ids 0 high)
      set k := bisectLeft (slice ids 0 high) m with hk
      have hsl : (slice ids 0 high).length = high := by rw [slice_len]; omega
      have b2' : ∀ t < k, ids.getD t 0 < m := by
        intro t ht
        have := b2 t ht
        rwa [slice_get _ _ _ _ (by omega), Nat.zero_add] at this
      have b3' : ∀ t, k ≤ t → t < high → m ≤ ids.getD t 0 := by
        intro t ht ht'
        have := b3 t ht (by omega)
        rwa [slice_get _ _ _ _ (by omega), Nat.zero_add] at this
      by_cases h1 : sub.length = 1
      · obtain ⟨a, rfl⟩ := List.length_eq_one_iff.mp h1
        simp at hx hy; omega
      · rw [if_neg h1] at h
        have hmed : sub.length / 2 < sub.length := by
          have := List.length_pos_of_mem hx; omega
        rw [List.getElem?_eq_getElem hmed] at hm
        injection hm with hm
        -- where the elements of `sub` smaller or greater than `m` are
        have hleft : ∀ z ∈ sub, z < m → z ∈ sub.take (sub.length / 2) := by
          intro z hz hzm
          obtain ⟨p, hp, rfl⟩ := List.mem_iff_getElem.mp hz
          have : p < sub.length / 2 := by
            by_contra hc
            rcases Nat.lt_or_eq_of_le (not_lt.mp hc) with e | e
            · have := List.pairwise_iff_getElem.mp hsub _ p hmed hp e; omega
            · subst e; omega
          rw [List.mem_take_iff_getElem]
          exact ⟨p, by omega, rfl⟩
        have hright : ∀ z ∈ sub, m < z → z ∈ sub.drop (sub.length / 2 + 1) := by
          intro z hz hzm
          obtain ⟨p, hp, rfl⟩ := List.mem_iff_getElem.mp hz
          have : sub.length / 2 < p := by
            by_contra hc
            rcases Nat.lt_or_eq_of_le (not_lt.mp hc) with e | e
            · have := List.pairwise_iff_getElem.mp hsub p _ hp hmed e; omega
            · subst e; omega
          rw [List.mem_drop_iff_getElem]
          exact ⟨p - (sub.length / 2 + 1), by omega, by congr 1; omega⟩
        have hdrop : ∀ z ∈ sub.drop (sub.length / 2 + 1), m ≤ z := by
          intro z hz
          rw [List.mem_drop_iff_getElem] at hz
          obtain ⟨p, hp, rfl⟩ := hz
          have := List.pairwise_iff_getElem.mp hsub (sub.length / 2) (sub.length / 2 + 1 + p) hmed
            (by omega) (by omega)
          omega
        by_cases h2 : k = ids.length
        · rw [if_pos h2] at h
          have hxm : x < m := by rw [← hix]; exact b2' i (by omega)
          have hym : y < m := by rw [← hjy]; exact b2' j (by omega)
          have hE : sub.eraseIdx (sub.length / 2) =
              sub.take (sub.length / 2) ++ sub.drop (sub.length / 2 + 1) :=
            List.eraseIdx_eq_take_drop_succ _ _
          refine ih _ _ _ hh (hsub.sublist (List.eraseIdx_sublist _ _)) ?_ h
          exact ⟨x, by rw [hE]; exact List.mem_append_left _ (hleft x hx hxm), y,
            by rw [hE]; exact List.mem_append_left _ (hleft y hy hym), hlt, ⟨i, hi, hix⟩, ⟨j, hj, hjy⟩⟩
        · rw [if_neg h2] at h
          by_cases h3 : ids.getD k 0 ≠ m
          · rw [if_pos h3] at h
            have habs : ∀ t < high, ids.getD t 0 ≠ m := by
              intro t ht he
              have hkt : k ≤ t := by
                by_contra hc
                have := b2' t (by omega); omega
              have := b3' k (le_refl _) (by omega)
              rcases Nat.lt_or_eq_of_le hkt with e | e
              · have := strict_mono hs e (by omega); omega
              · rw [← e] at he; exact h3 he
            have hxm : x ≠ m := by rw [← hix]; exact habs i hi
            have hym : y ≠ m := by rw [← hjy]; exact habs j hj
            have pos_lt : ∀ t < high, ids.getD t 0 < m → t < k := by
              intro t ht hc
              by_contra hcc
              have := b3' t (by omega) ht; omega
            split at h
            · cases h
            · rename_i l hl
              split at h
              · cases h
              · rename_i r' hr'
                injection h with h; subst h
                by_cases hyl : y < m
                · have := ih _ _ _ (by omega) (hsub.sublist (List.take_sublist _ _))
                    ⟨x, hleft x hx (by omega), y, hleft y hy hyl, hlt,
                      ⟨i, pos_lt i hi (by omega), hix⟩, ⟨j, pos_lt j hj (by omega), hjy⟩⟩ hl
                  simp [this]
                · by_cases hk0 : k = 0
                  · rw [hk0] at hr'
                    have hxg : m < x := by
                      have := b3' i (by omega) hi
                      omega
                    have := ih _ _ _ hh (hsub.sublist (List.drop_sublist _ _))
                      ⟨x, hright x hx hxg, y, hright y hy (by omega), hlt, ⟨i, hi, hix⟩, ⟨j, hj, hjy⟩⟩ hr'
                    simp [this]
                  · have := recLookup_float hs _ _ _ _ _ (by omega) (fun z hz => by
                      have := hdrop z hz
                      have := b2' 0 (by omega)
                      omega) hr'
                    simp [this]
          · rw [if_neg h3] at h
            split at h
            · cases h
            · split at h <;> cases h

end Parcels.Collection
