import Verif.Proofs.Movie

/-!
C133: movies of trajectories.
-/

namespace Parcels.Movie

/-- C133: the frames are in the order of time (or in the reverse order), without repetitions, and there is a frame for a time if and only if there is a record with that
time. -/
theorem C133_frames (rs : List Rec) :
    ((movie true rs).map Prod.fst).Pairwise (· < ·) ∧ ((movie false rs).map Prod.fst).Pairwise (· > ·) ∧
    ∀ forward t, t ∈ (movie forward rs).map Prod.fst ↔ ∃ r ∈ rs, r.time = some t := by
  have e : ∀ forward, (movie forward rs).map Prod.fst = plottimes forward rs := by
    intro forward
    simp [movie, Function.comp_def]
  refine ⟨?_, ?_, fun forward t => ?_⟩
  · rw [e]
    exact unique_sorted _
  · rw [e]
    exact List.pairwise_reverse.2 (unique_sorted _)
  · rw [e]
    exact mem_plottimes forward rs t

/-- C133: a frame shows the records of its time and no others, each as often as it is in the file, with position and colour of the same record. -/
theorem C133_records (forward : Bool) (rs : List Rec) (t : ℚ) (ps : List (ℚ × ℚ × ℚ)) (h : (t, ps) ∈ movie forward rs) (x y v : ℚ) :
    ps.count (x, y, v) = rs.count ⟨some t, x, y, v⟩ := by
  obtain ⟨t', -, e⟩ := List.mem_map.1 h
  injection e with e1 e2
  subst e1
  subst e2
  unfold frame
  clear h
  induction rs with
  | nil => rfl
  | cons r rs ih =>
    obtain ⟨rt, rx, ry, rv⟩ := r
    by_cases ht : rt = some t'
    · subst ht
      rw [List.filter_cons_of_pos (by simp), List.map_cons, List.count_cons, List.count_cons, ih]
      congr 1
      by_cases hx : rx = x ∧ ry = y ∧ rv = v
      · obtain ⟨rfl, rfl, rfl⟩ := hx
        simp
      · have h1 : ¬ ((rx, ry, rv) = (x, y, v)) := by simpa using hx
        have h2 : ¬ ((⟨some t', rx, ry, rv⟩ : Rec) = ⟨some t', x, y, v⟩) := by simpa using hx
        simp [beq_eq_false_iff_ne.2 h1, beq_eq_false_iff_ne.2 h2]
    · rw [List.filter_cons_of_neg (by simpa using ht), ih, List.count_cons]
      have h2 : ¬ ((⟨rt, rx, ry, rv⟩ : Rec) = ⟨some t', x, y, v⟩) := by
        intro q
        injection q with q1
        exact ht q1
      simp [beq_eq_false_iff_ne.2 h2]

/-- C133: on a map, longitudes are drawn between -180 and 180 at the same meridian. Partial: for longitudes from -180 to 540 only (`C133_longitude_fails`). -/
theorem C133_longitude_partial (ln : ℚ) (h1 : -180 ≤ ln) (h2 : ln < 540) :
    -180 ≤ mapLon ln ∧ mapLon ln < 180 ∧ ∃ k : ℤ, mapLon ln = ln + 360 * k := by
  unfold mapLon
  split
  · exact ⟨h1, by assumption, 0, by simp⟩
  · rename_i h
    refine ⟨by linarith, by linarith, -1, ?_⟩
    push_cast
    ring

/-- C133 is false for all other longitudes, which particles reach that go round the globe. -/
theorem C133_longitude_fails (ln : ℚ) (h : ln < -180 ∨ 540 ≤ ln) : ¬ (-180 ≤ mapLon ln ∧ mapLon ln < 180) := by
  unfold mapLon
  rintro ⟨h1, h2⟩
  rcases h with h | h
  · rw [if_pos (by linarith)] at h1
    linarith
  · rw [if_neg (by linarith)] at h2
    linarith

/-- Two particles, one of which starts later; an empty entry. -/
example : movie true [⟨some 3600, 1, 2, 5⟩, ⟨some 0, 1, 1, 4⟩, ⟨none, 0, 0, 0⟩, ⟨some 3600, 7, 8, 9⟩] = [(0, [(1, 1, 4)]), (3600, [(1, 2, 5), (7, 8, 9)])] ∧
    (movie false [⟨some 3600, 1, 2, 5⟩, ⟨some 0, 1, 1, 4⟩]).map Prod.fst = [3600, 0] := by decide +kernel

example : mapLon 190 = -170 ∧ mapLon (-190) = -190 ∧ mapLon 600 = 240 := by norm_num [mapLon]

end Parcels.Movie
