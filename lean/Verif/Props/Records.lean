import Verif.Model.TimeChunk
import Verif.Proofs.Search
import Verif.Proofs.TimeInterp

/-!
C55: the record read from a file in deferred mode.
-/

namespace Parcels.TimeChunk
open Parcels.Search Parcels.TimeInterp

/-- The file that holds global time index `k`, and its record there. -/
theorem dataFiles_spec : ∀ (files : List (List ℚ)) (s k : Nat), k < files.flatten.length →
    ∃ f r, f < files.length ∧ r < (files.getD f []).length ∧
      ((files.zipIdx s).flatMap fun (ts, f) => List.replicate ts.length f).getD k 0 = s + f ∧
      (files.getD f []).getD r 0 = files.flatten.getD k 0 := by
  intro files
  induction files with
  | nil => intro s k h; simp at h
  | cons a files ih =>
    intro s k h
    rw [List.zipIdx_cons, List.flatMap_cons, List.flatten_cons]
    by_cases c : k < a.length
    · refine ⟨0, k, by simp, by simpa using c, ?_, ?_⟩
      · rw [List.getD_append _ _ _ _ (by simpa using c), List.getD_replicate _ c]; rfl
      · rw [List.getD_append _ _ _ _ c]; rfl
    · rw [List.flatten_cons, List.length_append] at h
      obtain ⟨f, r, h1, h2, h3, h4⟩ := ih (s + 1) (k - a.length) (by omega)
      refine ⟨f + 1, r, by simpa using h1, by simpa using h2, ?_, ?_⟩
      · rw [List.getD_append_right _ _ _ _ (by simpa using c), List.length_replicate, h3]; omega
      · rw [List.getD_append_right _ _ _ _ (by omega), ← h4]; simp

theorem dataFiles_length (files : List (List ℚ)) (s : Nat) :
    ((files.zipIdx s).flatMap fun (ts, f) => List.replicate ts.length f).length = files.flatten.length := by
  induction files generalizing s with
  | nil => rfl
  | cons a fs ih =>
    rw [List.zipIdx_cons, List.flatMap_cons, List.length_append, ih, List.flatten_cons, List.length_append, List.length_replicate]

theorem recordIdx_spec {l : List ℚ} (hl : Increasing l) {r : Nat} (hr : r < l.length) : recordIdx l (l.getD r 0) = r := by
  have hne : l ≠ [] := by intro e; rw [e] at hr; simp at hr
  unfold recordIdx
  by_cases c : r + 1 = l.length
  · have : (l.all fun v => decide (v ≤ l.getD r 0)) = true := by
      rw [all_le_iff hl hne, show l.length - 1 = r from by omega]
    simp only [this, if_true]
    unfold wrapIdx
    rw [if_pos (by norm_num)]
    omega
  · have h1 := inc_lt hl (Nat.lt_succ_self r) (show r + 1 < l.length by omega)
    have hall : (l.all fun v => decide (v ≤ l.getD r 0)) = false := by
      rw [Bool.eq_false_iff]
      intro h
      have := (all_le_iff hl hne _).1 h
      have := inc_lt hl (i := r) (j := l.length - 1) (by omega) (by omega)
      linarith
    have hex : ∃ v ∈ l, (!decide (v ≤ l.getD r 0)) = true := by
      refine ⟨l.getD (r + 1) 0, ?_, ?_⟩
      · rw [List.getD_eq_getElem _ _ (by omega)]; exact List.getElem_mem _
      · rw [Bool.not_eq_true', decide_eq_false_iff_not, not_le]; exact h1
    obtain ⟨f1, f2, f3⟩ := findIdx_spec l _ hex
    have hidx : (l.findIdx fun v => !decide (v ≤ l.getD r 0)) = r + 1 := by
      rcases Nat.lt_trichotomy (l.findIdx fun v => !decide (v ≤ l.getD r 0)) (r + 1) with h | h | h
      · exfalso
        rw [Bool.not_eq_true', decide_eq_false_iff_not, not_le] at f2
        have := inc_le hl (i := l.findIdx fun v => !decide (v ≤ l.getD r 0)) (j := r) (by omega) hr
        linarith
      · exact h
      · exfalso
        have := f3 _ h
        rw [Bool.not_eq_false', decide_eq_true_eq] at this
        have h1' : l.getD r 0 < l.getD (r + 1) 0 := h1
        linarith
    simp only [hall, Bool.false_eq_true, if_false]
    rw [hidx]
    have : (((r + 1 : Nat) : ℤ) - 1) = (r : ℤ) := by push_cast; ring
    rw [this, wrapIdx_nat]

theorem increasing_file {files : List (List ℚ)} (h : Increasing files.flatten) {f : Nat} (hf : f < files.length) :
    Increasing (files.getD f []) := by
  unfold Increasing at h ⊢
  rw [List.pairwise_flatten] at h
  rw [List.getD_eq_getElem _ _ hf]
  exact h.1 _ (List.getElem_mem _)

/-- C55, every snapshot of the files: for every distribution of (increasing) times over files, with or without the extra
snapshot of periodic fields, and every global time index `k` of the files, the record read exists and has the `k`-th
time. Missing: the extra snapshot (`C55_extra_record_wrong`, `C55_extra_record_single`). -/
theorem C55_record_partial (files : List (List ℚ)) (h : Increasing files.flatten) (extra : Bool) (last : ℚ) (k : Nat)
    (hk : k < files.flatten.length) :
    let full := if extra then files.flatten ++ [last] else files.flatten
    let fr := recordOf files extra full k
    fr.1 < files.length ∧ fr.2 < (files.getD fr.1 []).length ∧ (files.getD fr.1 []).getD fr.2 0 = files.flatten.getD k 0 := by
  obtain ⟨f, r, h1, h2, h3, h4⟩ := dataFiles_spec files 0 k hk
  have hlen : ((files.zipIdx).flatMap fun (ts, f) => List.replicate ts.length f).length = files.flatten.length := dataFiles_length files 0
  have hfull : (if extra then files.flatten ++ [last] else files.flatten).getD k 0 = files.flatten.getD k 0 := by
    split_ifs
    · exact List.getD_append _ _ _ _ hk
    · rfl
  have hfile : (dataFiles files extra).getD k 0 = f := by
    unfold dataFiles
    simp only
    split_ifs
    · rw [List.getD_append _ _ _ _ (by rw [hlen]; exact hk)]; simpa using h3
    · simpa using h3
  have hrec : recordOf files extra (if extra then files.flatten ++ [last] else files.flatten) k = (f, r) := by
    unfold recordOf
    simp only [hfile, hfull, ← h4]
    rw [recordIdx_spec (increasing_file h h1) h2]
  simp only [hrec]
  exact ⟨h1, h2, h4⟩

/-- C55, the extra snapshot of a periodic field, which repeats the first: right if the first file has one record only. -/
theorem C55_extra_record_single (files : List (List ℚ)) (t0 last : ℚ) (hf : files.head? = some [t0]) (hl : t0 ≤ last) :
    recordOf files true (files.flatten ++ [last]) files.flatten.length = (0, 0) := by
  cases files with
  | nil => simp at hf
  | cons a rest =>
    simp only [List.head?_cons, Option.some.injEq] at hf
    subst hf
    have hlen : (([t0] :: rest).zipIdx.flatMap fun (ts, f) => List.replicate ts.length f).length =
        ([t0] :: rest).flatten.length := dataFiles_length _ 0
    have h0 : (dataFiles ([t0] :: rest) true).getD ([t0] :: rest).flatten.length 0 = 0 := by
      unfold dataFiles
      simp only [if_true]
      rw [← hlen, List.getD_append_right _ _ _ _ (le_refl _), Nat.sub_self]
      simp [List.zipIdx_cons]
    unfold recordOf
    simp only [h0]
    rw [List.getD_append_right _ _ _ _ (le_refl _), Nat.sub_self]
    simp [recordIdx, hl, wrapIdx]

/-- C55 is false for the extra snapshot of a periodic field if the first file has several records: for daily data of
three days in one file, repeated with a period of three days, the record read for the extra time is the last (day 2), not
the first. -/
theorem C55_extra_record_wrong : recordOf [[0, 1, 2]] true [0, 1, 2, 3] 3 = (0, 2) := by decide +kernel

/-- Hypotheses of `C55_record_partial`: seven snapshots over three files. -/
example : Increasing ([[0, 1], [2, 3, 4], [5, 7]] : List (List ℚ)).flatten := by unfold Increasing; decide +kernel
example : recordOf [[0, 1], [2, 3, 4], [5, 7]] false [0, 1, 2, 3, 4, 5, 7] 4 = (1, 2) ∧
    recordOf [[0, 1], [2, 3, 4], [5, 7]] false [0, 1, 2, 3, 4, 5, 7] 5 = (2, 0) := by decide +kernel

end Parcels.TimeChunk
