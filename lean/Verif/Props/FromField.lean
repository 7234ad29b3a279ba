import Verif.Proofs.FromField
import Verif.Props.Interp

/-!
C75: `ParticleSet.from_field` releases particles at random positions, distributed according to a field.
-/

namespace Parcels.FromField
open Parcels.Interp Parcels.Search

/-- C75 on rectilinear grids, for every size of release, every field, and all random numbers: there are as many particles as asked for; each
lies in a cell with a positive weight; and the probability of each part of each cell is the cell's share of the weights, times the part's
share of the area of the cell. Missing: that the probability is in proportion to the field also from cell to cell, which needs cells of
the same area (`C75_density_equal_cells`, `C75_stretched_fails`). -/
theorem C75_rectilinear_partial (m : Method) (ny nx : Nat) (v : Nat → Nat → ℚ) (lon lat : List ℚ) (hlon : Increasing lon)
    (hlat : Increasing lat) (hx : lon.length = nx) (hy : lat.length = ny) (he : Enough m ny nx) (hd : Density m ny nx v) :
    ∃ pos, Draws (start2D ny nx v m (.rect lon lat)) pos ∧
      (∀ u xsi eta, Unit01 u → Unit01 xsi → Unit01 eta → ∃ j i, 0 < weight m v j i ∧
        Locates lon (pos u xsi eta).1 (i : Nat) xsi ∧ Locates lat (pos u xsi eta).2 (j : Nat) eta) ∧
      ∀ (j i : Nat) (a b c d x0 x1 y0 y1 : ℚ), lon[i]? = some a → lon[i + 1]? = some b → lat[j]? = some c → lat[j + 1]? = some d →
        a ≤ x0 → x0 ≤ x1 → x1 ≤ b → c ≤ y0 → y0 ≤ y1 → y1 ≤ d →
        Chance (fun u xsi eta => (x0 ≤ (pos u xsi eta).1 ∧ (pos u xsi eta).1 < x1) ∧ (y0 ≤ (pos u xsi eta).2 ∧ (pos u xsi eta).2 < y1))
          (weight m v j i / total m ny nx v * (((x1 - x0) * (y1 - y0)) / ((b - a) * (d - c)))) := by
  have cell : ∀ u, Unit01 u → ∃ a b c d, lon[(chosen m ny nx v u).2]? = some a ∧ lon[(chosen m ny nx v u).2 + 1]? = some b ∧
      lat[(chosen m ny nx v u).1]? = some c ∧ lat[(chosen m ny nx v u).1 + 1]? = some d := by
    intro u hu
    obtain ⟨hj, hi⟩ := chosen_valid he hd hu
    exact ⟨_, _, _, _, List.getElem?_eq_getElem (by omega), List.getElem?_eq_getElem (by omega),
      List.getElem?_eq_getElem (by omega), List.getElem?_eq_getElem (by omega)⟩
  have hpos : ∀ u xsi eta, Unit01 u → place (.rect lon lat) (chosen m ny nx v u).1 (chosen m ny nx v u).2 xsi eta =
      some ((place (.rect lon lat) (chosen m ny nx v u).1 (chosen m ny nx v u).2 xsi eta).getD (0, 0)) := by
    intro u xsi eta hu
    obtain ⟨a, b, c, d, ha, hb, hc, hd'⟩ := cell u hu
    simp [place, ha, hb, hc, hd']
  refine ⟨fun u xsi eta => (place (.rect lon lat) (chosen m ny nx v u).1 (chosen m ny nx v u).2 xsi eta).getD (0, 0),
    fun n rnd hr => monteCarlo_eq _ he hd _ hpos n rnd hr, ?_, ?_⟩
  · intro u xsi eta hu hxsi heta
    obtain ⟨a, b, c, d, ha, hb, hc, hd'⟩ := cell u hu
    refine ⟨(chosen m ny nx v u).1, (chosen m ny nx v u).2, chosen_pos he hd hu, ⟨_, a, b, rfl, ha, hb, hxsi.1, hxsi.2.le, ?_⟩,
      ⟨_, c, d, rfl, hc, hd', heta.1, heta.2.le, ?_⟩⟩ <;>
    · simp only [place, ha, hb, hc, hd', Option.getD_some]
      ring
  · intro j i a b c d x0 x1 y0 y1 ha hb hc hd' h1 h2 h3 h4 h5 h6
    have hab := step_lt hlon ha hb
    have hcd := step_lt hlat hc hd'
    have hi : i + 1 < nx := by rw [← hx]; exact (List.getElem?_eq_some_iff.mp hb).1
    have hj : j + 1 < ny := by rw [← hy]; exact (List.getElem?_eq_some_iff.mp hd').1
    obtain ⟨s, s', hs0, hss, hs1, hsw, hiff⟩ := chosen_iff he hd hj hi
    have pab : 0 < b - a := sub_pos.mpr hab
    have pcd : 0 < d - c := sub_pos.mpr hcd
    refine ⟨s, s', (x0 - a) / (b - a), (x1 - a) / (b - a), (y0 - c) / (d - c), (y1 - c) / (d - c), hs0, hss, hs1,
      div_nonneg (by linarith) pab.le, (div_le_div_iff_of_pos_right pab).mpr (by linarith), (div_le_one pab).mpr (by linarith),
      div_nonneg (by linarith) pcd.le, (div_le_div_iff_of_pos_right pcd).mpr (by linarith), (div_le_one pcd).mpr (by linarith), ?_, ?_⟩
    · rw [hsw]; field_simp; ring
    · intro u xsi eta hu hxsi heta
      rw [← hiff u hu, ← part_iff hab, ← part_iff hcd]
      obtain ⟨a', b', c', d', ha', hb', hc', hdd'⟩ := cell u hu
      simp only [place, ha', hb', hc', hdd', Option.getD_some]
      have q1 := step_lt hlon ha' hb'
      have q2 := step_lt hlat hc' hdd'
      have in1 : a' ≤ a' + xsi * (b' - a') ∧ a' + xsi * (b' - a') < b' := by
        have := mul_nonneg hxsi.1 (sub_pos.mpr q1).le
        have := mul_lt_mul_of_pos_right hxsi.2 (sub_pos.mpr q1)
        constructor <;> linarith
      have in2 : c' ≤ c' + eta * (d' - c') ∧ c' + eta * (d' - c') < d' := by
        have := mul_nonneg heta.1 (sub_pos.mpr q2).le
        have := mul_lt_mul_of_pos_right heta.2 (sub_pos.mpr q2)
        constructor <;> linarith
      constructor
      · rintro ⟨⟨p1, p2⟩, ⟨p3, p4⟩⟩
        have e1 := cell_unique hlon ha hb ha' hb' (le_trans h1 p1) (lt_of_lt_of_le p2 h3) in1.1 in1.2
        have e2 := cell_unique hlat hc hd' hc' hdd' (le_trans h4 p3) (lt_of_lt_of_le p4 h6) in2.1 in2.2
        have : chosen m ny nx v u = (j, i) := by rw [e1, e2]
        rw [this] at ha' hb' hc' hdd'
        have z1 := Option.some.inj (ha.symm.trans ha')
        have z2 := Option.some.inj (hb.symm.trans hb')
        have z3 := Option.some.inj (hc.symm.trans hc')
        have z4 := Option.some.inj (hd'.symm.trans hdd')
        rw [z1, z2, z3, z4]
        exact ⟨this, ⟨p1, p2⟩, ⟨p3, p4⟩⟩
      · rintro ⟨hch, p1, p2⟩
        rw [hch] at ha' hb' hc' hdd'
        have z1 := Option.some.inj (ha.symm.trans ha')
        have z2 := Option.some.inj (hb.symm.trans hb')
        have z3 := Option.some.inj (hc.symm.trans hc')
        have z4 := Option.some.inj (hd'.symm.trans hdd')
        rw [← z1, ← z2, ← z3, ← z4]
        exact ⟨p1, p2⟩

/-- C75: on a grid whose cells all have the area `A`, the probability of each part of a cell is its area times a density that is in
proportion to the weight of the cell, the same proportion for all cells. -/
theorem C75_density_equal_cells (m : Method) (ny nx : Nat) (v : Nat → Nat → ℚ) (lon lat : List ℚ) (hlon : Increasing lon)
    (hlat : Increasing lat) (hx : lon.length = nx) (hy : lat.length = ny) (he : Enough m ny nx) (hd : Density m ny nx v) (A : ℚ)
    (hA : ∀ (j i : Nat) (a b c d : ℚ), lon[i]? = some a → lon[i + 1]? = some b → lat[j]? = some c → lat[j + 1]? = some d →
      (b - a) * (d - c) = A) :
    ∃ pos, Draws (start2D ny nx v m (.rect lon lat)) pos ∧
      ∀ (j i : Nat) (a b c d x0 x1 y0 y1 : ℚ), lon[i]? = some a → lon[i + 1]? = some b → lat[j]? = some c → lat[j + 1]? = some d →
        a ≤ x0 → x0 ≤ x1 → x1 ≤ b → c ≤ y0 → y0 ≤ y1 → y1 ≤ d →
        Chance (fun u xsi eta => (x0 ≤ (pos u xsi eta).1 ∧ (pos u xsi eta).1 < x1) ∧ (y0 ≤ (pos u xsi eta).2 ∧ (pos u xsi eta).2 < y1))
          (weight m v j i * (1 / (total m ny nx v * A)) * ((x1 - x0) * (y1 - y0))) := by
  obtain ⟨pos, h1, _, h3⟩ := C75_rectilinear_partial m ny nx v lon lat hlon hlat hx hy he hd
  refine ⟨pos, h1, ?_⟩
  intro j i a b c d x0 x1 y0 y1 ha hb hc hd' p1 p2 p3 p4 p5 p6
  have := h3 j i a b c d x0 x1 y0 y1 ha hb hc hd' p1 p2 p3 p4 p5 p6
  rw [hA j i a b c d ha hb hc hd'] at this
  have e : weight m v j i / total m ny nx v * ((x1 - x0) * (y1 - y0) / A) =
      weight m v j i * (1 / (total m ny nx v * A)) * ((x1 - x0) * (y1 - y0)) := by
    rw [div_mul_div_comm]; ring
  rwa [e] at this

/-- C75: the value of a field (not negative, interpolated linearly, on a flat grid) sampled where a particle was released is positive, in both modes. -/
theorem C75_value_positive (ny nx : Nat) (v : Nat → Nat → ℚ) (hv : ∀ j i, 0 ≤ v j i) (g : RGrid) (hg : FlatGrid g)
    (h2d : g.depth.length = 1) (hx : g.lon.length = nx) (hy : g.lat.length = ny) (hd : Density .linear ny nx v) (ix : Indexing) :
    ∃ pos, Draws (start2D ny nx v .linear (.rect g.lon g.lat)) pos ∧
      ∀ u xsi eta z, Unit01 u → Unit01 xsi → Unit01 eta → ∃ value, 0 < value ∧
        sample g ix .linear ⟨1, ny, nx, fun _ => v⟩ (pos u xsi eta).1 (pos u xsi eta).2 z = .ok (some value) ∧
        ∀ xi yi zi, xi + 1 < nx → yi + 1 < ny →
          cSample g ix .linear ⟨1, ny, nx, fun _ => v⟩ (pos u xsi eta).1 (pos u xsi eta).2 z xi yi zi = .ok value := by
  have he : Enough .linear ny nx := ⟨by have := hg.latLen; omega, by have := hg.lonLen; omega, fun h => by simp at h⟩
  obtain ⟨pos, h1, h2, _⟩ := C75_rectilinear_partial .linear ny nx v g.lon g.lat hg.lonInc hg.latInc hx hy he hd
  refine ⟨pos, h1, ?_⟩
  intro u xsi eta z hu hxsi heta
  obtain ⟨j, i, hw, l1, l2⟩ := h2 u xsi eta hu hxsi heta
  have hnz : v j i ≠ 0 ∧ v j (i + 1) ≠ 0 ∧ v (j + 1) i ≠ 0 ∧ v (j + 1) (i + 1) ≠ 0 := by
    unfold weight at hw
    rw [if_neg (by simp)] at hw
    by_contra hc
    rw [if_pos (by tauto)] at hw
    exact lt_irrefl _ hw
  have p1 := lt_of_le_of_ne (hv j i) (Ne.symm hnz.1)
  have p2 := lt_of_le_of_ne (hv j (i + 1)) (Ne.symm hnz.2.1)
  have p3 := lt_of_le_of_ne (hv (j + 1) i) (Ne.symm hnz.2.2.1)
  have p4 := lt_of_le_of_ne (hv (j + 1) (i + 1)) (Ne.symm hnz.2.2.2)
  refine ⟨bilinearAt ⟨1, ny, nx, fun _ => v⟩ 0 j i eta xsi, ?_, C29_scipy_2D g hg (by omega) ix _ _ _ _ _ _ _ _ l1 l2, ?_⟩
  · have := (C29_between_2D ⟨1, ny, nx, fun _ => v⟩ 0 j i eta xsi
      (min (min (v j i) (v j (i + 1))) (min (v (j + 1) i) (v (j + 1) (i + 1))))
      (max (max (v j i) (v j (i + 1))) (max (v (j + 1) i) (v (j + 1) (i + 1)))) ⟨heta.1, heta.2.le⟩ ⟨hxsi.1, hxsi.2.le⟩ (by
        intro j' i' hj' hi'
        have : j' = 0 ∨ j' = 1 := by omega
        have : i' = 0 ∨ i' = 1 := by omega
        rcases ‹j' = 0 ∨ j' = 1› with rfl | rfl <;> rcases ‹i' = 0 ∨ i' = 1› with rfl | rfl <;>
          simp only [Nat.add_zero] <;> constructor <;> simp)).1
    refine lt_of_lt_of_le ?_ this
    exact lt_min (lt_min p1 p2) (lt_min p3 p4)
  · intro xi yi zi hxi hyi
    exact C29_jit_2D g hg (by omega) ix _ ⟨hx.symm, hy.symm, h2d.symm⟩ _ _ _ xi yi zi (by omega) (by omega) _ _ _ _ l1 l2

/-- C75: a C-grid tracer sampled where a particle was released (on a flat grid, and not exactly on the edge of a cell) has the value by which
the cell was weighted, which is positive; in both modes. -/
theorem C75_value_cgrid (ny nx : Nat) (v : Nat → Nat → ℚ) (g : RGrid) (hg : FlatGrid g) (h2d : g.depth.length = 1)
    (hx : g.lon.length = nx) (hy : g.lat.length = ny) (he : 3 ≤ ny ∧ 3 ≤ nx) (hd : Density .cgridTracer ny nx v) (ix : Indexing) :
    ∃ pos, Draws (start2D ny nx v .cgridTracer (.rect g.lon g.lat)) pos ∧
      ∀ u xsi eta z, Unit01 u → Unit01 xsi → Unit01 eta → 0 < xsi → 0 < eta → ∃ value, 0 < value ∧
        sample g ix .cgridTracer ⟨1, ny, nx, fun _ => v⟩ (pos u xsi eta).1 (pos u xsi eta).2 z = .ok (some value) ∧
        ∀ xi yi zi, xi + 1 < nx → yi + 1 < ny →
          cSample g ix .cgridTracer ⟨1, ny, nx, fun _ => v⟩ (pos u xsi eta).1 (pos u xsi eta).2 z xi yi zi = .ok value := by
  have he' : Enough .cgridTracer ny nx := ⟨by omega, by omega, fun _ => he⟩
  obtain ⟨pos, h1, h2, _⟩ := C75_rectilinear_partial .cgridTracer ny nx v g.lon g.lat hg.lonInc hg.latInc hx hy he' hd
  refine ⟨pos, h1, ?_⟩
  intro u xsi eta z hu hxsi heta x0 e0
  obtain ⟨j, i, hw, l1, l2⟩ := h2 u xsi eta hu hxsi heta
  have same : ∀ {l : List ℚ} {x : ℚ} {n : Nat} {k : ℤ} {r r' : ℚ}, Increasing l → 0 < r → r < 1 → Locates l x n r →
      Locates l x k r' → k = n := by
    intro l x n k r r' hl r0 r1 a b
    rcases locates_agree hl a b with ⟨e, _⟩ | ⟨_, e, _⟩ | ⟨_, e, _⟩
    · exact e.symm
    · linarith
    · linarith
  have hw' : 0 < v (j + 1) (i + 1) := hw
  have hr := And.intro (locates_inRange hg.lonInc l1) (locates_inRange hg.latInc l2)
  refine ⟨v (j + 1) (i + 1), hw', ?_, ?_⟩
  · obtain ⟨p, hp, q1, q2⟩ := (C24_scipy g hg (by omega) (pos u xsi eta).1 (pos u xsi eta).2 z).1 hr
    have a1 := same hg.lonInc x0 hxsi.2 l1 q1
    have a2 := same hg.latInc e0 heta.2 l2 q2
    unfold sample
    rw [hp]
    simp only [if_pos (show g.depth.length ≤ 1 by omega), interp2D, pyCell2, Arr.py, a1, a2]
    rw [wrap_nat_add, wrap_nat_add]
  · intro xi yi zi hxi hyi
    obtain ⟨p, hp, q1, q2⟩ := (C24_jit g hg (by omega) (pos u xsi eta).1 (pos u xsi eta).2 z xi yi zi (by omega) (by omega)).1 hr
    have a1 := same hg.lonInc x0 hxsi.2 l1 q1
    have a2 := same hg.latInc e0 heta.2 l2 q2
    unfold cSample
    rw [hp]
    simp only [if_pos (show g.depth.length ≤ 1 by omega), cInterp2D, cCell2, a1, a2, Int.toNat_natCast]
    rw [if_neg (by omega), if_neg (by omega)]

/-- C75 on curvilinear grids: there are as many particles as asked for; each cell is chosen with a probability that is its share of the
weights, independently of the position in the cell; and the position is that of the two other random numbers in the bilinear map of the
cell. On a spherical mesh the longitudes of the other corners are taken within 180 degrees of that of the first one.
Missing: as on rectilinear grids, the areas of the cells are not taken into account. -/
theorem C75_curvilinear_partial (m : Method) (v : Nat → Nat → ℚ) (g : Curvilinear.CGrid ℚ) (he : Enough m g.ydim g.xdim)
    (hd : Density m g.ydim g.xdim v) :
    ∃ (cell : ℚ → Nat × Nat) (C : Nat → Nat → Curvilinear.Cell ℚ),
      Draws (start2D g.ydim g.xdim v m (.curv g)) (fun u xsi eta =>
        (Curvilinear.bilinX (C (cell u).1 (cell u).2) xsi eta, Curvilinear.bilinY (C (cell u).1 (cell u).2) xsi eta)) ∧
      (∀ u, Unit01 u → Curvilinear.ValidCell g (cell u).2 (cell u).1 ∧ 0 < weight m v (cell u).1 (cell u).2) ∧
      (∀ j i, j + 1 < g.ydim → i + 1 < g.xdim → ∀ b b' c c', 0 ≤ b → b ≤ b' → b' ≤ 1 → 0 ≤ c → c ≤ c' → c' ≤ 1 →
        Chance (fun u xsi eta => cell u = (j, i) ∧ (b ≤ xsi ∧ xsi < b') ∧ (c ≤ eta ∧ eta < c'))
          (weight m v j i / total m g.ydim g.xdim v * ((b' - b) * (c' - c)))) ∧
      (g.spherical = false → ∀ j i : Nat, C j i = Curvilinear.corners g i j) ∧
      (g.spherical = true → ∀ j i : Nat,
        (C j i).y0 = g.lat j i ∧ (C j i).y1 = g.lat j (i + 1) ∧ (C j i).y2 = g.lat (j + 1) (i + 1) ∧ (C j i).y3 = g.lat (j + 1) i ∧
        (C j i).x0 = g.lon j i ∧ ∀ p ∈ [((C j i).x1, g.lon j (i + 1)), ((C j i).x2, g.lon (j + 1) (i + 1)),
          ((C j i).x3, g.lon (j + 1) i)], Curvilinear.SameLon p.1 p.2 ∧ (|p.2 - g.lon j i| ≤ 540 → |p.1 - g.lon j i| ≤ 180)) := by
  let fix : ℚ → ℚ → ℚ := fun l0 p => bif g.spherical then Curvilinear.near l0 p else p
  let C : Nat → Nat → Curvilinear.Cell ℚ := fun j i =>
    { x0 := g.lon j i, x1 := fix (g.lon j i) (g.lon j (i + 1)), x2 := fix (g.lon j i) (g.lon (j + 1) (i + 1)),
      x3 := fix (g.lon j i) (g.lon (j + 1) i), y0 := g.lat j i, y1 := g.lat j (i + 1), y2 := g.lat (j + 1) (i + 1),
      y3 := g.lat (j + 1) i }
  refine ⟨chosen m g.ydim g.xdim v, C, ?_, ?_, ?_, ?_, ?_⟩
  · refine monteCarlo_eq (.curv g) he hd (fun u xsi eta =>
      (Curvilinear.bilinX (C (chosen m g.ydim g.xdim v u).1 (chosen m g.ydim g.xdim v u).2) xsi eta,
        Curvilinear.bilinY (C (chosen m g.ydim g.xdim v u).1 (chosen m g.ydim g.xdim v u).2) xsi eta)) ?_
    intro u xsi eta hu
    obtain ⟨h1, h2⟩ := chosen_valid he hd hu
    unfold place
    simp only [if_pos (And.intro h2 h1)]
    rfl
  · intro u hu
    obtain ⟨h1, h2⟩ := chosen_valid he hd hu
    exact ⟨⟨by omega, by omega, by omega, by omega⟩, chosen_pos he hd hu⟩
  · intro j i hj hi b b' c c' h1 h2 h3 h4 h5 h6
    obtain ⟨s, s', hs0, hss, hs1, hsw, hiff⟩ := chosen_iff he hd hj hi
    refine ⟨s, s', b, b', c, c', hs0, hss, hs1, h1, h2, h3, h4, h5, h6, by rw [hsw]; ring, ?_⟩
    intro u xsi eta hu _ _
    dsimp only
    rw [hiff u hu]
  · intro hs j i
    simp [C, fix, hs, Curvilinear.corners]
  · intro hs j i
    refine ⟨rfl, rfl, rfl, rfl, rfl, ?_⟩
    have hn : ∀ l0 p : ℚ, Curvilinear.SameLon (fix l0 p) p ∧ (|p - l0| ≤ 540 → |fix l0 p - l0| ≤ 180) := by
      intro l0 p
      have hf : fix l0 p = Curvilinear.near l0 p := by simp [fix, hs]
      rw [hf]
      unfold Curvilinear.near Curvilinear.SameLon
      dsimp only
      by_cases c1 : p - l0 > 180
      · rw [if_pos c1, if_neg (by linarith)]
        refine ⟨⟨-1, by push_cast; ring⟩, fun h => ?_⟩
        rw [abs_le] at h ⊢
        constructor <;> linarith [h.1, h.2]
      · rw [if_neg c1]
        by_cases c2 : -p + l0 > 180
        · rw [if_pos c2]
          refine ⟨⟨1, by push_cast; ring⟩, fun h => ?_⟩
          rw [abs_le] at h ⊢
          constructor <;> linarith [h.1, h.2]
        · rw [if_neg c2]
          refine ⟨⟨0, by push_cast; ring⟩, fun _ => ?_⟩
          rw [abs_le]
          constructor <;> linarith
    intro p hp
    simp only [List.mem_cons, List.not_mem_nil, or_false] at hp
    rcases hp with rfl | rfl | rfl <;> exact hn _ _

/-! ### Examples and failures -/

/-- A field on a flat grid, with land in the west. -/
def exV (j i : Nat) : ℚ := if i = 0 then 0 else j + i
def exF : Start := start2D 3 4 exV .linear (.rect [0, 1, 2, 3] [0, 2, 4])

theorem exDensity : Density .linear 3 4 exV := by
  constructor
  · intro j i hj hi
    have : j = 0 ∨ j = 1 := by omega
    have : i = 0 ∨ i = 1 ∨ i = 2 := by omega
    rcases ‹j = 0 ∨ j = 1› with rfl | rfl <;> rcases ‹i = 0 ∨ i = 1 ∨ i = 2› with rfl | rfl | rfl <;> decide +kernel
  · decide +kernel

-- the hypotheses of C75_rectilinear_partial, C75_density_equal_cells and C75_value_positive hold
example : Increasing [0, 1, 2, 3] ∧ Increasing [0, 2, 4] ∧ Enough .linear 3 4 :=
  ⟨by unfold Increasing; decide +kernel, by unfold Increasing; decide +kernel, by decide, by decide, by simp⟩
example : weight .linear exV 0 0 = 0 ∧ weight .linear exV 0 1 = 2 ∧ weight .linear exV 1 2 = 4 ∧ total .linear 3 4 exV = 12 := by
  decide +kernel
-- two particles: 1/6 of the numbers choose the second cell of the first row
example : monteCarlo exF 2 (fun k => [1 / 7, 1 / 6, 1 / 2, 1 / 4, 3 / 4, 0].getD k 0) "monte_carlo" = .ok [(3 / 2, 3 / 2), (9 / 4, 0)] := by
  decide +kernel
-- C-grid tracers and curvilinear grids
example : monteCarlo (start2D 3 3 (fun j i => if j = 2 ∧ i = 1 then 7 else 0) .cgridTracer (.rect [0, 1, 3] [0, 2, 4])) 1
    (fun _ => 1 / 2) "monte_carlo" = .ok [(1 / 2, 3)] := by decide +kernel
example : Density .cgridTracer 3 3 (fun _ _ => 1) ∧ Enough .cgridTracer 3 3 :=
  ⟨⟨fun _ _ _ _ => by simp [weight], by decide +kernel⟩, by decide, by decide, fun _ => ⟨by decide, by decide⟩⟩
example : monteCarlo (start2D 2 2 (fun _ _ => 1) .linear (.curv
    { xdim := 2, ydim := 2, lon := fun j i => if i = 0 then 179 + j else -179 + j, lat := fun j _ => j, spherical := true,
      zonalPeriodic := false })) 1 (fun _ => 1 / 2) "monte_carlo" = .ok [(181 - 1 / 2, 1 / 2)] := by decide +kernel
-- another mode
example : monteCarlo exF 2 (fun _ => 0) "uniform" = .error .mode := by decide +kernel

/-- C75 fails on stretched grids: with a field that is 1 everywhere, the rectangle [0, 1) x [0, 1) gets half of the particles, and
[1, 2) x [0, 1), which is as large, a quarter of them. -/
theorem C75_stretched_fails : ∃ pos, Draws (start2D 2 3 (fun _ _ => 1) .linear (.rect [0, 1, 3] [0, 1])) pos ∧
    Chance (fun u xsi eta => (0 ≤ (pos u xsi eta).1 ∧ (pos u xsi eta).1 < 1) ∧ (0 ≤ (pos u xsi eta).2 ∧ (pos u xsi eta).2 < 1)) (1 / 2) ∧
    Chance (fun u xsi eta => (1 ≤ (pos u xsi eta).1 ∧ (pos u xsi eta).1 < 2) ∧ (0 ≤ (pos u xsi eta).2 ∧ (pos u xsi eta).2 < 1)) (1 / 4) := by
  obtain ⟨pos, h1, _, h3⟩ := C75_rectilinear_partial .linear 2 3 (fun _ _ => 1) [0, 1, 3] [0, 1] (by unfold Increasing; decide +kernel)
    (by unfold Increasing; decide +kernel) rfl rfl ⟨by decide, by decide, by simp⟩
    ⟨fun j i _ _ => by norm_num [weight], by decide +kernel⟩
  refine ⟨pos, h1, ?_, ?_⟩
  · have := h3 0 0 0 1 0 1 0 1 0 1 rfl rfl rfl rfl (by decide +kernel) (by decide +kernel) (by decide +kernel) (by decide +kernel)
      (by decide +kernel) (by decide +kernel)
    convert this using 1
    decide +kernel
  · have := h3 0 1 1 3 0 1 1 2 0 1 rfl rfl rfl rfl (by decide +kernel) (by decide +kernel) (by decide +kernel) (by decide +kernel)
      (by decide +kernel) (by decide +kernel)
    convert this using 1
    decide +kernel

/-- C75 fails for start fields with depth levels: for every such field whose method is not that of C-grid tracers, every grid and every
release of at least one particle, the call raises ValueError. -/
theorem C75_depth_fails (nz ny nx : Nat) (data : List Nat → ℚ) (m : Method) (hm : m ≠ .cgridTracer) (g : HGrid) (n : Nat) (hn : 1 ≤ n)
    (rnd : Nat → ℚ) :
    monteCarlo { d := { shape := [nz, ny, nx], entry := data }, method := m, grid := g } n rnd "monte_carlo" = .error .value := by
  have hs : (interior { d := { shape := [nz, ny, nx], entry := data }, method := m, grid := g }).shape = [nz - 1, ny - 1, nx] := by
    unfold interior; rw [if_neg (show ¬ m = .cgridTracer from hm)]; rfl
  generalize hf : ({ d := { shape := [nz, ny, nx], entry := data }, method := m, grid := g } : Start) = f at hs
  have hp : ∀ k xsi eta, position f k xsi eta = .error .value := by
    intro k xsi eta
    unfold position
    rw [hs]
    simp [unravel]
  unfold monteCarlo
  rw [if_pos rfl]
  obtain ⟨n', rfl⟩ : ∃ n', n = n' + 1 := ⟨n - 1, by omega⟩
  unfold choice
  split
  · rename_i e he
    split_ifs at he <;> simp_all
  · rename_i inds he
    split_ifs at he
    simp only [Except.ok.injEq] at he
    rw [← he, List.range_succ_eq_map]
    simp [hp, collect]

/-- C75 fails for C-grid tracers with a single row of cells: every call that releases a particle raises ValueError. -/
theorem C75_single_row_fails (nx : Nat) (v : Nat → Nat → ℚ) (g : HGrid) (n : Nat) (hn : 1 ≤ n) (rnd : Nat → ℚ) :
    monteCarlo (start2D 2 nx v .cgridTracer g) n rnd "monte_carlo" = .error .value := by
  have hs : ∀ j i, (interior (start2D 2 nx v .cgridTracer g)).shape ≠ [j, i] := by
    intro j i
    unfold interior
    rw [if_pos (show (start2D 2 nx v .cgridTracer g).method = .cgridTracer from rfl)]
    by_cases h : nx - 1 = 1 <;> simp [Nd.squeeze, Nd.cut, start2D, h]
  have hp : ∀ k xsi eta, position (start2D 2 nx v .cgridTracer g) k xsi eta = .error .value := by
    intro k xsi eta
    unfold position
    split
    · rename_i j i he
      exfalso
      revert he hs
      generalize (interior (start2D 2 nx v .cgridTracer g)).shape = sh
      intro hs he
      match sh with
      | [] => simp [unravel] at he
      | [_] => simp [unravel] at he
      | [a, b] => exact hs a b rfl
      | _ :: _ :: _ :: _ => simp [unravel] at he
    · rfl
  unfold monteCarlo
  rw [if_pos rfl]
  obtain ⟨n', rfl⟩ : ∃ n', n = n' + 1 := ⟨n - 1, by omega⟩
  unfold choice
  split
  · rename_i e he
    split_ifs at he <;> simp_all
  · rename_i inds he
    split_ifs at he
    simp only [Except.ok.injEq] at he
    rw [← he, List.range_succ_eq_map]
    simp [hp, collect]

/-- C75 fails for C-grid tracers with two depth levels: the particles are distributed according to the second level, shifted by one cell to the
east, and may be put outside the grid (IndexError). Here the tracer is positive at the surface in one cell only, the south-western one, and in
another cell below. -/
theorem C75_two_levels_fails :
    let f : Nat → Nat → Start := fun j i =>
      { d := { shape := [2, 3, 3], entry := fun ix => if ix = [0, 1, 1] ∨ ix = [1, j, i] then 1 else 0 }, method := .cgridTracer,
        grid := .rect [0, 1, 2] [0, 1, 2] }
    monteCarlo (f 2 1) 1 (fun _ => 1 / 2) "monte_carlo" = .ok [(3 / 2, 3 / 2)] ∧
    monteCarlo (f 2 2) 1 (fun _ => 1 / 2) "monte_carlo" = .error .index := by decide +kernel

/-- C75 fails on longitudes that jump from 180 to -180 (where the search for cells works): the particle is not in the cell, which is two
degrees wide, but on the other side of the globe. -/
theorem C75_lon_jump_fails :
    monteCarlo (start2D 2 2 (fun _ _ => 1) .linear (.rect [179, -179] [0, 1])) 1 (fun _ => 1 / 2) "monte_carlo" = .ok [(0, 1 / 2)] ∧
    ∀ i r, ¬ LocatesMod360 [179, -179] 0 i r := by
  refine ⟨by decide +kernel, ?_⟩
  rintro i r ⟨n, a, b, w, p, q, _, ha, hb, hw, w0, w1, r0, r1, hx⟩
  have hn : n = 0 := by
    have := (List.getElem?_eq_some_iff.mp hb).1
    simp at this; omega
  subst hn
  simp at ha hb
  subst ha hb
  have hp : p = 1 := by
    have h1 : (0 : ℚ) < 360 * p - 358 := by linarith
    have h2 : (360 * p - 358 : ℚ) ≤ 360 := by linarith
    have h3 : (0 : ℤ) < 360 * p - 358 := by exact_mod_cast h1
    have h4 : (360 * p - 358 : ℤ) ≤ 360 := by exact_mod_cast h2
    omega
  subst hp
  have hw2 : w = 2 := by rw [hw]; norm_num
  subst hw2
  have h1 : (179 : ℚ) ≤ 360 * q := by linarith
  have h2 : (360 * q : ℚ) ≤ 181 := by linarith
  have h3 : (179 : ℤ) ≤ 360 * q := by exact_mod_cast h1
  have h4 : (360 * q : ℤ) ≤ 181 := by exact_mod_cast h2
  omega

/-- C75 fails around nodes where the field is zero: a field that is positive at one node only is positive in the four cells around it, and a B-grid
tracer whose southern row of nodes is zero is positive in all cells of the first row; but no particle can be released. -/
theorem C75_zero_nodes_fails :
    let v : Nat → Nat → ℚ := fun j i => if j = 1 ∧ i = 1 then 1 else 0
    let w : Nat → Nat → ℚ := fun j _ => if j = 0 then 0 else 1
    let g : RGrid := { lon := [0, 1, 2], lat := [0, 1, 2], depth := [0], spherical := false, zonalPeriodic := false, mom5 := false }
    let h : RGrid := { lon := [0, 1, 2], lat := [0, 1], depth := [0], spherical := false, zonalPeriodic := false, mom5 := false }
    monteCarlo (start2D 3 3 v .linear (.rect [0, 1, 2] [0, 1, 2])) 1 (fun _ => 1 / 2) "monte_carlo" = .error .value ∧
    sample g .nemo .linear ⟨1, 3, 3, fun _ => v⟩ (1 / 2) (1 / 2) 0 = .ok (some (1 / 4)) ∧
    monteCarlo (start2D 2 3 w .bgridTracer (.rect [0, 1, 2] [0, 1])) 1 (fun _ => 1 / 2) "monte_carlo" = .error .value ∧
    sample h .nemo .bgridTracer ⟨1, 2, 3, fun _ => w⟩ (1 / 2) (1 / 2) 0 = .ok (some 1) := by decide +kernel

end Parcels.FromField
