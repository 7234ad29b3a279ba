import Verif.Proofs.SearchLon

/-!
C26: longitudes are found modulo 360 on spherical grids.
-/

namespace Parcels.Search

/-- C26 (Scipy), soundness: on every eastward axis (which may cross the date line), every accepted result is right
modulo 360. -/
theorem C26_scipy_sound (g : RGrid) (hs : g.spherical = true) (U : List ℚ) (hU : EastwardAxis g.lon U)
    (x y z : ℚ) (p : Pos) (hp : searchRect g x y z = .ok p) : LocatesMod360 g.lon x p.xi p.xsi := by
  have hl := eastward_length hU
  have hlen : 2 ≤ g.lon.length := by obtain ⟨_, _, _, _, h, _⟩ := hU; exact h
  have hinc : Increasing U := by obtain ⟨_, _, _, _, _, _, _, h, _⟩ := hU; exact h
  unfold searchRect at hp
  split_ifs at hp
  have hX : searchX g x = axisSearch (lonFixed g.lon x) x := by
    unfold searchX
    rw [if_pos (by omega), hs, cond_true]
  rw [hX] at hp
  rcases hx : axisSearch (lonFixed g.lon x) x with _ | ⟨xi, xsi⟩
  · simp [hx] at hp
  rw [hx] at hp
  simp only at hp
  rcases hy : searchY g y with _ | ⟨yi, eta⟩
  · simp [hy] at hp
  rw [hy] at hp
  simp only at hp
  rcases hz : searchDepth g z with e | ⟨zi, zeta⟩
  · simp [hz] at hp
  rw [hz] at hp
  simp only at hp
  split_ifs at hp with hu
  simp only [Except.ok.injEq] at hp
  subst hp
  simp only [Bool.and_eq_true, inUnit, decide_eq_true_eq] at hu
  obtain ⟨⟨⟨h0, h1⟩, _⟩, _⟩ := hu
  show LocatesMod360 g.lon x xi xsi
  unfold lonFixed at hx
  rw [unwrap_eastward hU] at hx
  by_cases hlt : x < U.headD 0
  · rw [if_pos hlt] at hx
    have := axisSearch_sound (increasing_sub hinc) (by rw [List.length_map]; omega) hx h0 h1
    exact locates_shift hU 1 (locates_sub this)
  · rw [if_neg hlt] at hx
    have := axisSearch_sound hinc (by omega) hx h0 h1
    exact locates_shift hU 0 (by simpa using this)

/-- The hypothesis on an axis across the date line, and a search there. -/
def dateline : RGrid := { lon := [160, 170, 180, -170, -160], lat := [0, 10], depth := [0], spherical := true,
                          zonalPeriodic := false, mom5 := false }

example : EastwardAxis dateline.lon [160, 170, 180, 190, 200] := by
  refine ⟨[160, 170, 180], [-170, -160], rfl, by decide +kernel, by decide, by decide, by decide +kernel, ?_, ?_⟩
  · unfold Increasing; decide +kernel
  · intro n a b ha hb
    obtain ⟨h1, rfl⟩ := List.getElem?_eq_some_iff.mp ha
    obtain ⟨h2, rfl⟩ := List.getElem?_eq_some_iff.mp hb
    have hn : n < 4 := by simp at h2; omega
    have hall : ∀ m : Fin 4, ([160, 170, 180, 190, 200] : List ℚ).getD (m.val + 1) 0 -
        ([160, 170, 180, 190, 200] : List ℚ).getD m.val 0 < 180 := by decide +kernel
    have := hall ⟨n, hn⟩
    simpa only [List.getD_eq_getElem _ 0 h1, List.getD_eq_getElem _ 0 h2] using this

example : searchRect dateline (-165) 5 0 = .ok ⟨1 / 2, 1 / 2, 0, 3, 0, -1⟩ ∧
    searchRect dateline 175 5 0 = .ok ⟨1 / 2, 1 / 2, 0, 1, 0, -1⟩ := by decide +kernel

/-- C26 (Scipy), completeness: every longitude accepted by the range check and lying, as it is or with 360 added, in
the extent of the unwrapped axis, is found. -/
theorem C26_scipy_found_partial (g : RGrid) (hs : g.spherical = true) (U : List ℚ) (hU : EastwardAxis g.lon U)
    (hlat : Increasing g.lat) (hlat2 : 2 ≤ g.lat.length) (h2d : g.depth.length ≤ 1) (x y z : ℚ)
    (hrange : g.zonalPeriodic = true ∨ InRange g.lon x) (hy : InRange g.lat y)
    (hx : (U.headD 0 ≤ x ∧ x ≤ U.getLastD 0) ∨ (x < U.headD 0 ∧ U.headD 0 ≤ x + 360 ∧ x + 360 ≤ U.getLastD 0)) :
    ∃ p, searchRect g x y z = .ok p ∧ LocatesMod360 g.lon x p.xi p.xsi ∧ Locates g.lat y p.yi p.eta := by
  have hl := eastward_length hU
  have hlen : 2 ≤ g.lon.length := by obtain ⟨_, _, _, _, h, _⟩ := hU; exact h
  have hinc : Increasing U := by obtain ⟨_, _, _, _, _, _, _, h, _⟩ := hU; exact h
  rw [inRange_inc hlat hlat2] at hy
  obtain ⟨m, hm, hc, hd, ht⟩ := axisSearch_found hlat hlat2 hy.1 hy.2
  have hly := locates_of_cell hlat hm hc hd
  have key : ∃ i r, axisSearch (lonFixed g.lon x) x = some (i, r) ∧ 0 ≤ r ∧ r ≤ 1 := by
    unfold lonFixed
    rw [unwrap_eastward hU]
    rcases hx with ⟨h1, h2⟩ | ⟨h1, h2, h3⟩
    · rw [if_neg (not_lt.mpr h1)]
      rw [headD_getD] at h1
      rw [getLastD_getD] at h2
      obtain ⟨n, hn, ha, hb, hs⟩ := axisSearch_found hinc (by omega) h1 h2
      obtain ⟨_, _, _, _, _, _, a, b, _⟩ := locates_of_cell hinc hn ha hb
      exact ⟨_, _, hs, a, b⟩
    · rw [if_pos h1]
      have hinc' := increasing_sub hinc
      have e : ∀ k, k < U.length → (U.map (· - 360)).getD k 0 = U.getD k 0 - 360 := by
        intro k hk
        rw [List.getD_eq_getElem _ 0 (show k < (U.map (· - 360)).length by rw [List.length_map]; exact hk),
          List.getD_eq_getElem U 0 hk, List.getElem_map]
      rw [headD_getD] at h2
      rw [getLastD_getD] at h3
      obtain ⟨n, hn, ha, hb, hs⟩ := axisSearch_found hinc' (x := x) (by rw [List.length_map]; omega)
        (by rw [e 0 (by omega)]; linarith)
        (by rw [List.length_map, e _ (by omega)]; linarith)
      obtain ⟨_, _, _, _, _, _, a, b, _⟩ := locates_of_cell hinc' hn ha hb
      exact ⟨_, _, hs, a, b⟩
  obtain ⟨i, r, hr, h0, h1⟩ := key
  have ux : inUnit r = true := by
    unfold inUnit; rw [Bool.and_eq_true]; exact ⟨decide_eq_true h0, decide_eq_true h1⟩
  have uy : inUnit ((y - g.lat.getD m 0) / (g.lat.getD (m + 1) 0 - g.lat.getD m 0)) = true := by
    obtain ⟨_, _, _, _, _, _, a, b, _⟩ := hly
    unfold inUnit; rw [Bool.and_eq_true]; exact ⟨decide_eq_true a, decide_eq_true b⟩
  have hok : searchRect g x y z = .ok ⟨r, (y - g.lat.getD m 0) / (g.lat.getD (m + 1) 0 - g.lat.getD m 0), 0,
      i, m, -1⟩ := by
    unfold searchRect
    have r1 : ¬ (1 < g.lon.length ∧ g.zonalPeriodic = false ∧ (x < minL g.lon ∨ maxL g.lon < x)) := by
      rintro ⟨_, hz, hh⟩
      rcases hrange with h | ⟨a, b, ha, hb, h1, h2⟩
      · rw [h] at hz; exact absurd hz (by decide)
      · have := minL_le g.lon a ha
        have := le_maxL g.lon b hb
        rcases hh with h | h <;> linarith
    rw [if_neg r1]
    rw [if_neg (by rw [minL_inc hlat, maxL_inc hlat]; rintro ⟨_, h | h⟩ <;> linarith)]
    have e1 : searchX g x = some (i, r) := by
      unfold searchX
      rw [if_pos (by omega), hs, cond_true, hr]
    have e2 : searchY g y = some ((m : ℤ), (y - g.lat.getD m 0) / (g.lat.getD (m + 1) 0 - g.lat.getD m 0)) := by
      simp only [searchY, if_pos (show 1 < g.lat.length by omega), ht]
    have e3 : searchDepth g z = .ok (-1, 0) := by
      simp only [searchDepth]; rw [if_neg (by omega)]
    have u0 : inUnit 0 = true := by decide +kernel
    simp only [e1, e2, e3, ux, uy, u0, Bool.and_self, if_true]
  exact ⟨_, hok, C26_scipy_sound g hs U hU x y z _ hok, hly⟩

/-- A zonally periodic axis: longitude -90 is found with 360 added. -/
def global : RGrid := { lon := [0, 90, 180, 270, 360], lat := [0, 10], depth := [0], spherical := true,
                        zonalPeriodic := true, mom5 := false }

example : searchRect global (-60) 5 0 = .ok ⟨1 / 3, 1 / 2, 0, 3, 0, -1⟩ := by decide +kernel

/-- C26 (JIT), soundness: the C search, from any starting cell, gives a cell and a relative coordinate that are
right modulo 360. -/
theorem C26_jit_sound (g : RGrid) (hs : g.spherical = true) (U : List ℚ) (hU : EastwardAxis g.lon U)
    (x y z : ℚ) (xi yi zi : Nat) (hxi : xi + 1 < g.lon.length) (p : Pos)
    (hp : cSearchRect g x y z xi yi zi = .ok p) : LocatesMod360 g.lon x p.xi p.xsi := by
  have hl := eastward_length hU
  have hlen : 2 ≤ g.lon.length := by obtain ⟨_, _, _, _, h, _⟩ := hU; exact h
  have hinc : Increasing U := by obtain ⟨_, _, _, _, _, _, _, h, _⟩ := hU; exact h
  unfold cSearchRect at hp
  by_cases c1 : g.zonalPeriodic = false ∧ 1 < g.lon.length ∧ (x < minL g.lon ∨ maxL g.lon < x)
  · rw [if_pos c1] at hp; exact absurd hp (by simp)
  rw [if_neg c1] at hp
  by_cases c2 : 1 < g.lat.length ∧ (y < minL g.lat ∨ maxL g.lat < y)
  · rw [if_pos c2] at hp; exact absurd hp (by simp)
  rw [if_neg c2] at hp
  · unfold cSearchX at hp
    rw [if_neg (by omega), hs, cond_true] at hp
    rcases hx : cSphere g.lon x 10000 xi with e | ⟨i, a, b⟩
    · simp [hx] at hp
    rw [hx] at hp
    simp only at hp
    rcases hz : (if 1 < g.depth.length then cSearchZ g.depth g.mom5 z zi else .ok ((zi : ℤ), 0)) with e | ⟨k, zeta⟩
    · rw [hz] at hp; simp at hp
    rw [hz] at hp
    simp only at hp
    have hp' : p.xi = i ∧ p.xsi = (x - a) / (b - a) ∧ inUnit ((x - a) / (b - a)) = true := by
      split_ifs at hp with hu
      simp only [Except.ok.injEq] at hp
      subst hp
      simp only [Bool.and_eq_true] at hu
      exact ⟨rfl, rfl, hu.1.1⟩
    obtain ⟨e1, e2, e3⟩ := hp'
    rw [e1, e2]
    simp only [Bool.and_eq_true, inUnit, decide_eq_true_eq] at e3
    exact cSphere_locates hU hx (by omega) (by exact_mod_cast hxi) e3.1 e3.2

example : cSearchRect global 365 5 0 2 0 0 = .ok ⟨1 / 18, 1 / 2, 0, 0, 0, 0⟩ ∧
    cSearchRect dateline (-165) 5 0 0 0 0 = .ok ⟨1 / 2, 1 / 2, 0, 3, 0, 0⟩ := by decide +kernel

/-- C26 is false in Scipy mode: on a grid across the date line the range check accepts longitudes outside the grid
(here 0, on an axis from 160 to -160), and the search then raises IndexError. -/
theorem C26_range_check_too_wide :
    InRange dateline.lon 0 ∧ searchRect dateline 0 5 0 = .error .index := by
  exact ⟨⟨-160, 160, by decide +kernel, by decide +kernel, by decide +kernel, by decide +kernel⟩, by decide +kernel⟩

/-- C26 is false in Scipy mode on a zonally periodic grid beyond one turn: 365 degrees raises IndexError and -365 a
sampling error; the JIT search finds 365, but reports 725 as out of bounds. -/
theorem C26_more_than_one_turn :
    searchRect global 365 5 0 = .error .index ∧ searchRect global (-365) 5 0 = .error .sampling ∧
    (∃ p, cSearchRect global 365 5 0 0 0 0 = .ok p) := by
  exact ⟨by decide +kernel, by decide +kernel, ⟨1 / 18, 1 / 2, 0, 0, 0, 0⟩, by decide +kernel⟩

/-- The cell of the date line cannot be entered at all: on the axis 160, 170, 180, -170, -160, which is eastward, the
middle of the third cell is rejected under both its names, in both modes. -/
theorem C26_dateline_cell_rejected :
    searchRect dateline (-175) 5 0 = .error .outOfBounds ∧ searchRect dateline 185 5 0 = .error .outOfBounds ∧
    cSearchRect dateline (-175) 5 0 0 0 0 = .error .outOfBounds ∧
    cSearchRect dateline 185 5 0 0 0 0 = .error .outOfBounds := by decide +kernel

end Parcels.Search
