import Verif.Model.CellAreas
import Mathlib.Analysis.SpecialFunctions.Trigonometric.Bounds
import Mathlib.Data.List.GetD
import Mathlib.Tactic.Ring
import Mathlib.Tactic.FieldSimp
import Mathlib.Tactic.Linarith

/-!
C78: the areas of grid cells, and particle density per area.
-/

namespace Parcels.CellAreas

variable {K : Type} [Field K]

/-- An axis with equal spacing. -/
def Equidistant (l : List K) (d : K) : Prop := 2 ≤ l.length ∧ ∀ i a b, l[i]? = some a → l[i + 1]? = some b → b - a = d

theorem getD_step {l : List K} {d : K} (h : Equidistant l d) {i : Nat} (hi : i + 1 < l.length) : l.getD (i + 1) 0 = l.getD i 0 + d := by
  have := h.2 i _ _ (List.getElem?_eq_getElem (by omega)) (List.getElem?_eq_getElem hi)
  rw [List.getD_eq_getElem _ _ hi, List.getD_eq_getElem _ _ (by omega), ← this]
  ring

theorem gradient_equal [CharZero K] {l : List K} {d : K} (h : Equidistant l d) :
    ∃ f, gradient l = some f ∧ ∀ i, i < l.length → f i = d := by
  have hl := h.1
  refine ⟨_, if_neg (by omega), ?_⟩
  intro i hi
  by_cases h0 : i = 0
  · rw [if_pos h0, getD_step h (i := 0) (by omega)]; ring
  · rw [if_neg h0]
    obtain ⟨k, rfl⟩ : ∃ k, i = k + 1 := ⟨i - 1, by omega⟩
    have e := getD_step h (i := k) hi
    by_cases h1 : k + 1 = l.length - 1
    · rw [if_pos h1, Nat.add_sub_cancel, e]; ring
    · rw [if_neg h1, getD_step h (i := k + 1) (by omega), Nat.add_sub_cancel, e]
      field_simp; ring

/-- C78: on a flat grid with equal spacing, the area of each cell is its width times its height, and the density per area times the area
of a cell is the number of particles in it. Missing: grids with other spacings (false, `C78_stretched_fails`). -/
theorem C78_equidistant_partial [CharZero K] (lon lat : List K) (dx dy : K) (hx : Equidistant lon dx) (hy : Equidistant lat dy)
    (h0 : dx * dy ≠ 0) (counts : Nat → Nat → K) :
    ∃ areas dens, cellAreas ⟨lon, lat, none, none⟩ = some areas ∧ scaled ⟨lon, lat, none, none⟩ counts = some dens ∧
      ∀ (j i : Nat) (a b c d : K), lon[i]? = some a → lon[i + 1]? = some b → lat[j]? = some c → lat[j + 1]? = some d →
        areas j i = (b - a) * (d - c) ∧ dens j i * ((b - a) * (d - c)) = counts j i := by
  obtain ⟨f, hf, hf'⟩ := gradient_equal hx
  obtain ⟨g, hg, hg'⟩ := gradient_equal hy
  have hc : calcEdges (⟨lon, lat, none, none⟩ : AGrid K) = some
      ({ ny := lat.length, nx := lon.length, x := fun j i => f i, y := fun j _ => g j },
       ⟨lon, lat, none, some { ny := lat.length, nx := lon.length, x := fun j i => f i, y := fun j _ => g j }⟩) := by
    simp [calcEdges, hf, hg, convX, convY]
  refine ⟨fun j i => f i * g j, fun j i => counts j i / (f i * g j), ?_, ?_, ?_⟩
  · simp [cellAreas, hc]
  · simp [scaled, hc]
  · intro j i a b c d ha hb hc' hd
    have hi := (List.getElem?_eq_some_iff.mp ha).1
    have hj := (List.getElem?_eq_some_iff.mp hc').1
    rw [hx.2 i a b ha hb, hy.2 j c d hc' hd]
    dsimp only
    rw [hf' i hi, hg' j hj]
    exact ⟨rfl, div_mul_cancel₀ _ h0⟩

example : Equidistant [(0 : ℚ), 2, 4] 2 ∧ Equidistant [(1 : ℚ), 2] 1 := by
  refine ⟨⟨by decide, ?_⟩, ⟨by decide, ?_⟩⟩
  · intro i a b ha hb
    have hi := (List.getElem?_eq_some_iff.mp hb).1
    have : i = 0 ∨ i = 1 := by simp at hi; omega
    rcases this with rfl | rfl <;> simp at ha hb <;> subst ha hb <;> norm_num
  · intro i a b ha hb
    have hi := (List.getElem?_eq_some_iff.mp hb).1
    have : i = 0 := by simp at hi; omega
    subst this
    simp at ha hb; subst ha hb; norm_num

/-- The radius (in metres) of the sphere on which a degree of latitude is 60 nautical miles. -/
noncomputable def radius : ℝ := 1000 * (1852 / 1000) * 60 * (180 / Real.pi)

/-- The area of the part of that sphere between two meridians and two parallels, in degrees. -/
noncomputable def sphereArea (a b c d : ℝ) : ℝ :=
  radius ^ 2 * ((b - a) * Real.pi / 180) * (Real.sin (d * Real.pi / 180) - Real.sin (c * Real.pi / 180))

theorem sin_step (x h : ℝ) (h0 : 0 ≤ h) (h1 : h ≤ 1) : |Real.sin (x + h) - Real.sin x - h * Real.cos x| ≤ 3 / 4 * h ^ 2 := by
  have e : Real.sin (x + h) - Real.sin x - h * Real.cos x = Real.sin x * (Real.cos h - 1) + Real.cos x * (Real.sin h - h) := by
    rw [Real.sin_add]; ring
  rw [e]
  have c1 : |Real.cos h - 1| ≤ h ^ 2 / 2 := by
    rw [abs_le]
    constructor <;> nlinarith [Real.one_sub_sq_div_two_le_cos (x := h), Real.cos_le_one h, sq_nonneg h]
  have c2 : |Real.sin h - h| ≤ h ^ 3 / 4 := by
    rcases eq_or_lt_of_le h0 with hh | hh
    · rw [← hh]; simp
    · rw [abs_le]
      have := Real.sin_gt_sub_cube hh
      have := Real.sin_le h0
      have : (0 : ℝ) ≤ h ^ 3 := by positivity
      constructor <;> linarith
  have a1 : |Real.sin x * (Real.cos h - 1)| ≤ h ^ 2 / 2 := by
    rw [abs_mul]
    calc |Real.sin x| * |Real.cos h - 1| ≤ 1 * (h ^ 2 / 2) := mul_le_mul (Real.abs_sin_le_one x) c1 (abs_nonneg _) (by norm_num)
      _ = h ^ 2 / 2 := one_mul _
  have a2 : |Real.cos x * (Real.sin h - h)| ≤ h ^ 3 / 4 := by
    rw [abs_mul]
    calc |Real.cos x| * |Real.sin h - h| ≤ 1 * (h ^ 3 / 4) := mul_le_mul (Real.abs_cos_le_one x) c2 (abs_nonneg _) (by norm_num)
      _ = h ^ 3 / 4 := one_mul _
  have a3 : h ^ 3 ≤ h ^ 2 := by nlinarith [sq_nonneg h]
  calc |Real.sin x * (Real.cos h - 1) + Real.cos x * (Real.sin h - h)| ≤ _ := abs_add_le _ _
    _ ≤ h ^ 2 / 2 + h ^ 3 / 4 := add_le_add a1 a2
    _ ≤ 3 / 4 * h ^ 2 := by linarith

/-- The cosine of a latitude in degrees. -/
noncomputable def cosd (lat : ℝ) : ℝ := Real.cos (lat * Real.pi / 180)

/-- C78: on a spherical grid with equal spacing (rows at most 57 degrees apart), the area of each cell is that of the sphere between its meridians and
parallels, up to an error of second order in the distance of the rows. -/
theorem C78_sphere_partial (lon lat : List ℝ) (dx dy : ℝ) (hx : Equidistant lon dx) (hy : Equidistant lat dy) (h0 : 0 ≤ dx) (h1 : 0 ≤ dy)
    (h2 : dy * Real.pi / 180 ≤ 1) :
    ∃ areas, cellAreas ⟨lon, lat, some cosd, none⟩ = some areas ∧
      ∀ (j i : Nat) (a b c d : ℝ), lon[i]? = some a → lon[i + 1]? = some b → lat[j]? = some c → lat[j + 1]? = some d →
        |areas j i - sphereArea a b c d| ≤ radius ^ 2 * (dx * Real.pi / 180) * (3 / 4 * (dy * Real.pi / 180) ^ 2) := by
  obtain ⟨f, hf, hf'⟩ := gradient_equal hx
  obtain ⟨g, hg, hg'⟩ := gradient_equal hy
  refine ⟨fun j i => convX (some cosd) (f i) (lat.getD j 0) * convY (some cosd) (g j),
    by simp only [cellAreas, calcEdges, hf, hg, Option.map_some], ?_⟩
  intro j i a b c d ha hb hc hd
  have hi := (List.getElem?_eq_some_iff.mp ha).1
  have hj := (List.getElem?_eq_some_iff.mp hc).1
  have hcj : lat.getD j 0 = c := by
    rw [List.getD_eq_getElem?_getD, hc]; rfl
  dsimp only
  rw [hf' i hi, hg' j hj, hcj]
  unfold convX convY sphereArea cosd
  dsimp only
  rw [hx.2 i a b ha hb]
  have hd' : d * Real.pi / 180 = c * Real.pi / 180 + dy * Real.pi / 180 := by
    rw [← hy.2 j c d hc hd]; ring
  rw [hd']
  have key := sin_step (c * Real.pi / 180) (dy * Real.pi / 180) (by positivity) h2
  have e : dx * 1000 * (1852 / 1000) * 60 * Real.cos (c * Real.pi / 180) * (dy * 1000 * (1852 / 1000) * 60) -
      radius ^ 2 * (dx * Real.pi / 180) * (Real.sin (c * Real.pi / 180 + dy * Real.pi / 180) - Real.sin (c * Real.pi / 180)) =
      -(radius ^ 2 * (dx * Real.pi / 180) * (Real.sin (c * Real.pi / 180 + dy * Real.pi / 180) - Real.sin (c * Real.pi / 180) -
        dy * Real.pi / 180 * Real.cos (c * Real.pi / 180))) := by
    have hpi : Real.pi ≠ 0 := Real.pi_ne_zero
    unfold radius
    field_simp
    ring
  rw [e, abs_neg, abs_mul, abs_of_nonneg (by positivity)]
  exact mul_le_mul_of_nonneg_left key (by positivity)

/-- C78 fails on stretched grids: the second cell of this flat grid is two wide and one high, but its area is given as 3/2. With two particles in
each unit of area, the density is 2 in the first cell and 8/3 in the second. -/
theorem C78_stretched_fails :
    let g : AGrid ℚ := ⟨[0, 1, 3, 5], [0, 1], none, none⟩
    (cellAreas g).map (fun a => (a 0 0, a 0 1)) = some (1, 3 / 2) ∧
    (scaled g fun _ i => if i = 0 then 2 else 4).map (fun a => (a 0 0, a 0 1)) = some (2, 8 / 3) := by decide +kernel

/-- C78 fails after `add_periodic_halo`: if the areas have been used before, they are not computed again, and the density per area
raises ValueError. For every grid and size of a zonal halo, with or without a meridional one. -/
theorem C78_halo_fails (lon lat : List K) (s : Option (K → K)) (h : Nat) (hh : 1 ≤ h) (hl : h ≤ lon.length) (counts : Nat → Nat → K)
    (e : Edges K) (g' : AGrid K) (hc : calcEdges ⟨lon, lat, s, none⟩ = some (e, g')) (meridional : Bool) :
    scaled (addHalo true meridional h g') counts = none := by
  unfold calcEdges at hc
  simp only at hc
  cases hx : gradient lon with
  | none => rw [hx] at hc; simp at hc
  | some dx =>
    cases hy : gradient lat with
    | none => rw [hx, hy] at hc; simp at hc
    | some dy =>
      rw [hx, hy] at hc
      simp only [Option.some.injEq, Prod.mk.injEq] at hc
      obtain ⟨h1, h2⟩ := hc
      subst h1
      subst h2
      have hlen : (Halo.extendAxis h lon).length = lon.length + 2 * h := by
        unfold Halo.extendAxis Halo.pyLast
        rw [if_neg (by omega)]
        simp
        omega
      cases meridional <;> simp [addHalo, scaled, calcEdges, hlen] <;> omega

example : ∃ e g', calcEdges (⟨[0, 1, 2], [0, 1], none, none⟩ : AGrid ℚ) = some (e, g') := by
  simp [calcEdges, gradient]

end Parcels.CellAreas
