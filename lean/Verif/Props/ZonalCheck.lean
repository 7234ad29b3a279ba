import Verif.Proofs.ZonalCheck
import Verif.Props.SearchLon
import Verif.Props.SearchSphere

/-!
C92: a grid that goes round the globe is recognised as such.
-/

namespace Parcels.ZonalCheck
open Parcels.Search

/-- C92: on the sphere, whatever the convention for longitudes, wherever the jumps by 360 degrees are, and in whichever direction the axis
runs: the grid is recognised if and only if its longitudes go more than 359.9 degrees to the east in all. (On a curvilinear grid: those of the
first row.) `U` are the same meridians without jumps. -/
theorem C92_winding (lon : Lon) (hn : lon.size ≠ 1) (U : List ℚ) (hU : SameMeridians lon.first U) (hl : StepsBelow 540 lon.first)
    (hs : StepsBelow 180 U) : check false false lon = true ↔ 3599 / 10 < U.getLastD 0 - U.headD 0 := by
  have h1 : (lon.size == 1) = false := by simpa using hn
  unfold check
  rw [sum_fold _ U hU hl hs, h1]
  simp

/-- C92: the convention for longitudes does not matter: if the same meridians are given with other multiples of 360 degrees, the answer is
the same. -/
theorem C92_convention (l l' U : List ℚ) (h : SameMeridians l U) (h' : SameMeridians l' U) (hl : StepsBelow 540 l) (hl' : StepsBelow 540 l')
    (hs : StepsBelow 180 U) : check false false (.axis l) = check false false (.axis l') := by
  by_cases hn : l.length = 1
  · have hn' : l'.length = 1 := by rw [h'.1, ← h.1, hn]
    simp [check, Lon.size, hn, hn']
  · have hn' : l'.length ≠ 1 := by rw [h'.1, ← h.1]; exact hn
    have e := C92_winding (.axis l) hn U h hl hs
    have e' := C92_winding (.axis l') hn' U h' hl' hs
    rw [Bool.eq_iff_iff, e, e']

example : SameMeridians [0, 90, 180, 270, 0] [0, 90, 180, 270, 360] ∧ SameMeridians [0, 90, -180, -90, 0] [0, 90, 180, 270, 360] ∧
    check false false (.axis [0, 90, -180, -90, 0]) = true ∧ check false false (.axis [0, 90, 180, 270, 0]) = true ∧
    check false false (.axis [0, -90, 180, 90, 0]) = false ∧ check false false (.axis [0, 90, 180, 270]) = false := by
  refine ⟨⟨rfl, ?_⟩, ⟨rfl, ?_⟩, by decide +kernel, by decide +kernel, by decide +kernel, by decide +kernel⟩
  · intro n a b ha hb
    match n, ha, hb with
    | 0, ha, hb => exact ⟨0, by simp at ha hb; push_cast; linarith⟩
    | 1, ha, hb => exact ⟨0, by simp at ha hb; push_cast; linarith⟩
    | 2, ha, hb => exact ⟨0, by simp at ha hb; push_cast; linarith⟩
    | 3, ha, hb => exact ⟨0, by simp at ha hb; push_cast; linarith⟩
    | 4, ha, hb => exact ⟨1, by simp at ha hb; push_cast; linarith⟩
    | n + 5, ha, _ => simp at ha
  · intro n a b ha hb
    match n, ha, hb with
    | 0, ha, hb => exact ⟨0, by simp at ha hb; push_cast; linarith⟩
    | 1, ha, hb => exact ⟨0, by simp at ha hb; push_cast; linarith⟩
    | 2, ha, hb => exact ⟨1, by simp at ha hb; push_cast; linarith⟩
    | 3, ha, hb => exact ⟨1, by simp at ha hb; push_cast; linarith⟩
    | 4, ha, hb => exact ⟨1, by simp at ha hb; push_cast; linarith⟩
    | n + 5, ha, _ => simp at ha

/-- C92: flat grids, and grids of one node, are never recognised by the check; and a grid that was made periodic by a halo stays so. -/
theorem C92_kept (flat : Bool) (lon : Lon) : check true flat lon = true ∧ check false true lon = false ∧
    (lon.size = 1 → check false flat lon = false) := by
  refine ⟨by simp [check], by simp [check], fun h => by simp [check, h]⟩

/-- C92: a rectilinear grid on the sphere whose longitudes go once round (or further) is recognised when the FieldSet is completed, and then
every longitude of one turn is found, in Scipy mode. -/
theorem C92_closed_scipy (g : RGrid) (U : List ℚ) (hg : SphereGrid g U) (h360 : 360 ≤ U.getLastD 0 - U.headD 0) :
    (complete g).zonalPeriodic = true ∧ ∀ x y z : ℚ, g.depth.length ≤ 1 → InRange g.lat y → U.headD 0 - 360 ≤ x → x ≤ U.getLastD 0 →
      ∃ p, searchRect (complete g) x y z = .ok p ∧ LocatesMod360 g.lon x p.xi p.xsi ∧ Locates g.lat y p.yi p.eta := by
  obtain ⟨s1, s2, s3⟩ := eastward_same hg.lon
  have hlen : 2 ≤ g.lon.length := by obtain ⟨_, _, _, _, h, _⟩ := hg.lon; exact h
  have hz : (complete g).zonalPeriodic = true := by
    unfold complete
    dsimp only
    rw [hg.sph, Bool.not_true]
    cases hp : g.zonalPeriodic with
    | true => simp [check]
    | false => exact (C92_winding (.axis g.lon) (by simp [Lon.size]; omega) U s1 s2 s3).mpr (by linarith)
  refine ⟨hz, fun x y z h2d hy h1 h2 => ?_⟩
  refine C26_scipy_found_partial (complete g) hg.sph U hg.lon hg.latInc hg.latLen h2d x y z (Or.inl hz) hy ?_
  by_cases h : U.headD 0 ≤ x
  · exact Or.inl ⟨h, h2⟩
  · exact Or.inr ⟨by linarith, by linarith, by linarith⟩

/-- C92: the same in JIT mode, from every cell where the particle was (cells narrower than 135 degrees, one turn, at most 5000 longitudes). -/
theorem C92_closed_jit_partial (g : RGrid) (U : List ℚ) (hg : SphereGrid g U) (hm : ModestAxis U) (hn : g.lon.length ≤ 5000)
    (h360 : U.getLastD 0 - U.headD 0 = 360) (x y z : ℚ) (xi yi zi : Nat) (hxi : xi + 1 < g.lon.length) (hyi : yi + 1 < g.lat.length)
    (h2d : g.depth.length ≤ 1) (hy : InRange g.lat y) (h1 : U.headD 0 - 360 ≤ x) (h2 : x ≤ U.getLastD 0) :
    ∃ p, cSearchRect (complete g) x y z xi yi zi = .ok p ∧ LocatesMod360 g.lon x p.xi p.xsi ∧ Locates g.lat y p.yi p.eta := by
  have hz := (C92_closed_scipy g U hg h360.ge).1
  have hg' : SphereGrid (complete g) U := ⟨hg.sph, hg.lon, hg.latInc, hg.latLen⟩
  by_cases h : U.headD 0 ≤ x
  · exact C26_jit_found_partial (complete g) U hg' hm hn h2d x y z xi yi zi hxi hyi (Or.inl hz) hy 0 (Or.inl rfl)
      ⟨by push_cast; linarith, by push_cast; linarith⟩
  · exact C26_jit_found_partial (complete g) U hg' hm hn h2d x y z xi yi zi hxi hyi (Or.inl hz) hy 1 (Or.inr (Or.inl rfl))
      ⟨by push_cast; linarith, by push_cast; linarith⟩

/-- A grid round the globe, in four cells, with the date line in the middle. -/
def exRound : RGrid where
  lon := [0, 90, 180, -90, 0]
  lat := [0, 10]
  depth := [0]
  spherical := true
  zonalPeriodic := false
  mom5 := false

example : SphereGrid exRound [0, 90, 180, 270, 360] ∧ ModestAxis [0, 90, 180, 270, 360] := by
  refine ⟨⟨rfl, ⟨[0, 90, 180], [-90, 0], rfl, by norm_num, by decide, by simp, ?_, by unfold Increasing; decide +kernel, ?_⟩,
    by unfold Increasing exRound; decide +kernel, by decide⟩, ?_, by norm_num⟩
  · intro b hb a ha
    simp at ha hb
    subst hb
    rcases ha with rfl | rfl | rfl <;> norm_num
  · intro n a b ha hb
    match n, ha, hb with
    | 0, ha, hb => simp at ha hb; linarith
    | 1, ha, hb => simp at ha hb; linarith
    | 2, ha, hb => simp at ha hb; linarith
    | 3, ha, hb => simp at ha hb; linarith
    | n + 4, _, hb => simp at hb
  · intro n a b ha hb
    match n, ha, hb with
    | 0, ha, hb => simp at ha hb; linarith
    | 1, ha, hb => simp at ha hb; linarith
    | 2, ha, hb => simp at ha hb; linarith
    | 3, ha, hb => simp at ha hb; linarith
    | n + 4, _, hb => simp at hb

example : searchRect (complete exRound) (-45) 5 0 = .ok ⟨1 / 2, 1 / 2, 0, 3, 0, -1⟩ ∧ searchRect (complete exRound) 315 5 0 = .ok ⟨1 / 2, 1 / 2, 0, 3, 0, -1⟩ ∧
    cSearchRect (complete exRound) 315 5 0 0 0 0 = .ok ⟨1 / 2, 1 / 2, 0, 3, 0, 0⟩ := by decide +kernel

/-- C92 fails for grids that are not closed: `n` meridians at equal distances round the globe, the last of which is one cell before the
first, are recognised only if the cells are narrower than 0.1 degrees. -/
theorem C92_open_fails (x0 : ℚ) (n : Nat) (hn : 3 ≤ n) : check false false (.axis (around x0 n)) = true ↔ 3600 < n := by
  have hn' : (3 : ℚ) ≤ n := by exact_mod_cast hn
  have hp : (0 : ℚ) < n := by linarith
  have get : ∀ (i : Nat) (a : ℚ), (around x0 n)[i]? = some a → a = x0 + i * (360 / n) := by
    intro i a h
    unfold around at h
    rw [List.getElem?_map] at h
    obtain ⟨j, hj, rfl⟩ := Option.map_eq_some_iff.mp h
    obtain ⟨h1, h2⟩ := List.getElem?_eq_some_iff.mp hj
    rw [List.getElem_range] at h2
    rw [h2]
  have len : (around x0 n).length = n := by simp [around]
  have steps : ∀ d : ℚ, 120 < d → StepsBelow d (around x0 n) := by
    intro d hd i a b ha hb
    rw [get _ _ ha, get _ _ hb]
    push_cast
    rw [show x0 + ((i : ℚ) + 1) * (360 / n) - (x0 + i * (360 / n)) = 360 / n by ring, abs_of_pos (by positivity)]
    have : (360 : ℚ) / n ≤ 120 := by rw [div_le_iff₀ hp]; linarith
    linarith
  have same : SameMeridians (around x0 n) (around x0 n) := ⟨rfl, fun i a b ha hb => ⟨0, by rw [ha] at hb; injection hb with hb; rw [hb]; simp⟩⟩
  rw [C92_winding (.axis (around x0 n)) (by simp [Lon.size, len]; omega) (around x0 n) same (steps _ (by norm_num)) (steps _ (by norm_num))]
  have hh : (around x0 n).headD 0 = x0 := by
    obtain ⟨m, rfl⟩ : ∃ m, n = m + 1 := ⟨n - 1, by omega⟩
    simp [around, List.range_succ_eq_map]
  have hl : (around x0 n).getLastD 0 = x0 + ((n : ℚ) - 1) * (360 / n) := by
    obtain ⟨m, rfl⟩ : ∃ m, n = m + 1 := ⟨n - 1, by omega⟩
    simp [around, List.range_succ]
  rw [hh, hl]
  have e : x0 + ((n : ℚ) - 1) * (360 / n) - x0 = 360 - 360 / n := by field_simp; ring
  rw [e]
  have : (3599 : ℚ) / 10 < 360 - 360 / n ↔ (360 : ℚ) / n < 1 / 10 := by constructor <;> intro h <;> linarith
  rw [this, div_lt_iff₀ hp]
  constructor
  · intro h; have : (3600 : ℚ) < n := by linarith
    exact_mod_cast this
  · intro h; have : (3600 : ℚ) < n := by exact_mod_cast h
    linarith

/-- … and whether they are or not, no longitude between the last meridian and the first is ever found: in either mode, in any turn. -/
theorem C92_gap_fails (g : RGrid) (hs : g.spherical = true) (x0 : ℚ) (n : Nat) (hn : 3 ≤ n) (hl : g.lon = around x0 n) (x y z : ℚ) (turn : ℤ)
    (h1 : x0 + (n - 1 : ℚ) * (360 / n) < x + 360 * turn) (h2 : x + 360 * turn < x0 + 360) :
    (∀ p, searchRect (complete g) x y z ≠ .ok p) ∧
      ∀ xi yi zi p, xi + 1 < g.lon.length → cSearchRect (complete g) x y z xi yi zi ≠ .ok p := by
  have hn' : (3 : ℚ) ≤ n := by exact_mod_cast hn
  have hp : (0 : ℚ) < n := by linarith
  have hw : (0 : ℚ) < 360 / n := by positivity
  have hw' : (360 : ℚ) / n ≤ 120 := by rw [div_le_iff₀ hp]; linarith
  have get : ∀ (i : Nat) (a : ℚ), (around x0 n)[i]? = some a → i < n ∧ a = x0 + i * (360 / n) := by
    intro i a h
    unfold around at h
    rw [List.getElem?_map] at h
    obtain ⟨j, hj, rfl⟩ := Option.map_eq_some_iff.mp h
    obtain ⟨h1, h2⟩ := List.getElem?_eq_some_iff.mp hj
    rw [List.getElem_range] at h2
    subst h2
    exact ⟨by simpa using h1, rfl⟩
  have len : (around x0 n).length = n := by simp [around]
  have east : EastwardAxis g.lon (around x0 n) := by
    refine ⟨around x0 n, [], by simp [hl], by simp, by rw [hl, len]; omega, ?_, by simp, ?_, ?_⟩
    · intro h; rw [h] at len; simp at len; omega
    · unfold Increasing
      rw [List.pairwise_iff_getElem]
      intro i j hi hj hij
      rw [(get i _ (List.getElem?_eq_getElem hi)).2, (get j _ (List.getElem?_eq_getElem hj)).2]
      have : (i : ℚ) < j := by exact_mod_cast hij
      nlinarith
    · intro i a b ha hb
      rw [(get _ _ ha).2, (get _ _ hb).2]
      push_cast
      linarith
  have none : ∀ i r, ¬ LocatesMod360 g.lon x i r := by
    rintro i r ⟨m, a, b, w, p, q, -, ha, hb, hwe, hw0, hw1, hr0, hr1, hx⟩
    rw [hl] at ha hb
    obtain ⟨hm, rfl⟩ := get _ _ ha
    obtain ⟨hm1, rfl⟩ := get _ _ hb
    push_cast at hwe
    have hwe' : w = 360 / n + 360 * p := by rw [hwe]; ring
    have p1 : (-1 : ℚ) < p := by linarith
    have p2 : (p : ℚ) < 1 := by linarith
    have hp0 : p = 0 := by
      have : -1 < p := by exact_mod_cast p1
      have : p < 1 := by exact_mod_cast p2
      omega
    subst hp0
    have hm1' : (m : ℚ) + 1 ≤ n - 1 := by
      have : m + 1 + 1 ≤ n := by omega
      have : ((m : ℚ) + 1 + 1) ≤ n := by exact_mod_cast this
      linarith
    have hwv : w = 360 / n := by rw [hwe']; simp
    have hx0 : x0 ≤ x + 360 * q := by
      rw [hx]
      have : (0 : ℚ) ≤ m * (360 / n) := by positivity
      have : 0 ≤ r * w := by positivity
      linarith
    have hx1 : x + 360 * q ≤ x0 + (n - 1 : ℚ) * (360 / n) := by
      rw [hx, hwv]
      have : (m : ℚ) * (360 / n) + r * (360 / n) ≤ (n - 1 : ℚ) * (360 / n) := by
        rw [← add_mul]; apply mul_le_mul_of_nonneg_right _ hw.le; linarith
      linarith
    have c1 : (q : ℚ) < turn := by linarith
    have c2 : (turn : ℚ) < q + 1 := by linarith
    have c1' : q < turn := by exact_mod_cast c1
    have c2' : turn < q + 1 := by exact_mod_cast c2
    omega
  refine ⟨fun p hp => none _ _ (C26_scipy_sound (complete g) hs _ east x y z p hp), fun xi yi zi p hxi hp => ?_⟩
  exact none _ _ (C26_jit_sound (complete g) hs _ east x y z xi yi zi hxi p hp)

example : around 0 4 = [0, 90, 180, 270] ∧ check false false (.axis (around 0 4)) = false ∧
    searchRect (complete { exRound with lon := around 0 4 }) 300 5 0 = .error .outOfBounds := by decide +kernel

/-- C92 fails for curvilinear grids whose first row is not typical: a grid that goes round the globe in all rows but the first, where the
longitudes turn back (as in the row of the fold of a tripolar grid), is not recognised; turned upside down, it is. -/
theorem C92_first_row_fails :
    check false false (.rows [[80, 170, 170, 80, 80], [80, 170, 260, 350, 440]]) = false ∧
    check false false (.rows [[80, 170, 260, 350, 440], [80, 170, 170, 80, 80]]) = true := by decide +kernel

end Parcels.ZonalCheck
