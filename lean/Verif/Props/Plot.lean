import Verif.Proofs.Plot

/-!
C119: what `Field.show` and `ParticleSet.show(field=...)` display is what particles sample.
-/

namespace Parcels.Plot

open Search Interp TimeInterp
open GridRun (Fld Sound)
open PeriodRun (Closed Value Repeats span)

/-! ### One field -/

/-- C119: every displayed node, with or without a domain, has the value that a particle samples there at the requested time. -/
theorem C119_node {per : Bool} {f : Fld} (hf : Sound f) (hp : per = true → Closed f) (dom : Option Domain) (level : Nat) (t z : ℚ) (hz : AtLevel f level z)
    {m : Img} (h : plotOne per f dom level t = .ok m) : Faithful per f t z m := by
  obtain ⟨ti, latN, latS, lonE, lonW, g, h1, h2, h3, h4, h5, h6, h7⟩ := plot_parts h
  obtain ⟨g', e, n, n', c, e1, e2, e3, e4⟩ := combine hf.timeInc hf.timeLen h1
  rw [h3] at e
  obtain rfl := Except.ok.inj e
  intro j i y x hy hx
  rw [h6] at hy
  rw [h5] at hx
  obtain ⟨a1, -, rfl⟩ := slice_get hy
  obtain ⟨b1, -, rfl⟩ := slice_get hx
  have hk : 2 ≤ f.grid.depth.length → level < f.grid.depth.length := fun c => by by_contra hc; exact h4 ⟨by omega, by omega⟩
  have hz' : 2 ≤ f.grid.depth.length → z = f.grid.depth.getD level 0 := fun c => by
    have := hz c
    rw [getD_some (hk c)] at this
    exact (Option.some.inj this).symm
  have hs := fun q => space_node hf (f.data q) b1 a1 hk hz'
  rw [h7, e3]
  exact value_at hf hp hs (e4 _ _ fun q _ => snap_ok hf hs q)

/-- C119: without a domain all nodes are displayed. -/
theorem C119_all {per : Bool} {f : Fld} (level : Nat) (t : ℚ) {m : Img} (h : plotOne per f none level t = .ok m) : m.x = f.grid.lon ∧ m.y = f.grid.lat := by
  obtain ⟨ti, latN, latS, lonE, lonW, g, h1, h2, h3, h4, h5, h6, h7⟩ := plot_parts h
  have e := Except.ok.inj h2
  simp only [Prod.mk.injEq] at e
  obtain ⟨rfl, rfl, rfl, rfl⟩ := e
  rw [h5, h6]
  exact ⟨slice_all _, slice_all _⟩

/-- C119: a field is displayed exactly if the time is in the range of its times or it is periodic in time, the level exists, and the domain is inside the grid. -/
theorem C119_shows {per : Bool} {f : Fld} (hf : Sound f) (hp : per = true → Closed f) (dom : Option Domain) (level : Nat) (t : ℚ) :
    (∃ m, plotOne per f dom level t = .ok m) ↔ (per = true ∨ InRange f.time t) ∧ (2 ≤ f.grid.depth.length → level < f.grid.depth.length) ∧ Inside dom f := by
  rw [← shown_iff hf hp, ← domain_iff hf]
  constructor
  · rintro ⟨m, h⟩
    obtain ⟨ti, latN, latS, lonE, lonW, g, h1, h2, h3, h4, h5, h6, h7⟩ := plot_parts h
    exact ⟨⟨_, h1⟩, fun c => by by_contra hc; exact h4 ⟨by omega, by omega⟩, ⟨_, h2⟩⟩
  · rintro ⟨⟨⟨ti, t'⟩, h1⟩, h2, ⟨⟨latN, latS, lonE, lonW⟩, h3⟩⟩
    obtain ⟨g, e, -⟩ := combine hf.timeInc hf.timeLen h1
    unfold plotOne
    rw [h1, h3]
    simp only [e]
    rw [if_neg (by rintro ⟨c1, c2⟩; have := h2 (by omega); omega)]
    exact ⟨_, rfl⟩

/-- C119: the time in the title is the requested one; for a field that is periodic in time, a whole number of periods away from it and in the range of the times. -/
theorem C119_title {per : Bool} {f : Fld} (hf : Sound f) (dom : Option Domain) (level : Nat) (t : ℚ) {m : Img} (h : plotOne per f dom level t = .ok m) :
    (per = false → m.time = t) ∧ (∃ k : ℤ, m.time = t - k * span f) ∧ f.time.headD 0 ≤ m.time ∧ m.time ≤ f.time.getLastD 0 := by
  obtain ⟨ti, latN, latS, lonE, lonW, g, h1, -⟩ := plot_parts h
  unfold shownAt at h1
  cases hti : timeIndex (TAxis.full f.time per f.extrap) t with
  | error e => rw [hti] at h1; cases h1
  | ok a =>
    obtain ⟨i0, k⟩ := a
    rw [hti] at h1
    simp only at h1
    split_ifs at h1 with hc
    obtain ⟨-, e⟩ := Prod.mk.inj (Except.ok.inj h1)
    push Not at hc
    refine ⟨?_, ⟨k, e.symm⟩, by rw [← e]; exact hc.2, by rw [← e]; exact hc.1⟩
    rintro rfl
    have hk : k = 0 := by
      unfold timeIndex TAxis.full at hti
      simp only [Bool.false_eq_true, if_false] at hti
      split_ifs at hti <;> exact (Prod.mk.inj (Except.ok.inj hti)).2.symm
    rw [← e, hk]
    simp

/-- C119: the colour of a cell between four nodes is the value that a particle samples in the middle of the cell, unless one of the nodes is exactly zero (then it is zero). -/
theorem C119_cells {per : Bool} {f : Fld} (hf : Sound f) (hp : per = true → Closed f) (level : Nat) (t z : ℚ) (hz : AtLevel f level z)
    {m : Img} (h : plotOne per f none level t = .ok m) {j i : Nat} {y y' x x' : ℚ} (hy : f.grid.lat[j]? = some y) (hy' : f.grid.lat[j + 1]? = some y')
    (hx : f.grid.lon[i]? = some x) (hx' : f.grid.lon[i + 1]? = some x') :
    (¬ Masked m j i → Value per f t z ((y + y') / 2) ((x + x') / 2) (cell m j i)) ∧ (Masked m j i → cell m j i = 0) := by
  constructor
  · intro hm
    obtain ⟨ti, latN, latS, lonE, lonW, g, h1, h2, h3, h4, h5, h6, h7⟩ := plot_parts h
    obtain ⟨g', e, n, n', c, e1, e2, e3, e4⟩ := combine hf.timeInc hf.timeLen h1
    rw [h3] at e
    obtain rfl := Except.ok.inj e
    have e := Except.ok.inj h2
    simp only [Prod.mk.injEq] at e
    obtain ⟨rfl, rfl, rfl, rfl⟩ := e
    simp only [Int.toNat_zero, zero_add] at h7
    have hj := (List.getElem?_eq_some_iff.mp hy').1
    have hi := (List.getElem?_eq_some_iff.mp hx').1
    rw [getD_some (by omega)] at hy hx
    rw [getD_some hj] at hy'
    rw [getD_some hi] at hx'
    obtain rfl := Option.some.inj hy
    obtain rfl := Option.some.inj hy'
    obtain rfl := Option.some.inj hx
    obtain rfl := Option.some.inj hx'
    have hk : 2 ≤ f.grid.depth.length → level < f.grid.depth.length := fun c => by by_contra hc; exact h4 ⟨by omega, by omega⟩
    have hz' : 2 ≤ f.grid.depth.length → z = f.grid.depth.getD level 0 := fun c => by
      have := hz c
      rw [getD_some (hk c)] at this
      exact (Option.some.inj this).symm
    have hs := fun q => space_mid (f := f) (f.data q) hi hj hk hz' rfl
    have hv : cell m j i = (m.v j i + m.v (j + 1) i + m.v j (i + 1) + m.v (j + 1) (i + 1)) / 4 := by
      unfold Masked at hm
      push Not at hm
      unfold cell
      simp only [if_neg hm.1, if_neg hm.2.1, if_neg hm.2.2.1, if_neg hm.2.2.2]
    rw [hv, h7, h7, h7, h7, e3, e3, e3, e3]
    refine value_at hf hp hs ((e4 _ _ fun q _ => snap_ok hf hs q).trans ?_)
    congr 1
    ring
  · intro hm
    unfold cell
    rcases hm with hm | hm | hm | hm <;> simp [hm]

/-- C119: the colour of a cell of a tracer on a C-grid with one level is the value that a particle samples anywhere inside the cell. -/
theorem C119_tracer {per : Bool} {f : Fld} (hf : Sound f) (h1l : f.grid.depth.length ≤ 1) (level : Nat) (t z : ℚ) {m : Img} (h : plotOne per f none level t = .ok m)
    {j i : Nat} {a a' b b' x y : ℚ} (ha : f.grid.lon[i]? = some a) (ha' : f.grid.lon[i + 1]? = some a') (hb : f.grid.lat[j]? = some b) (hb' : f.grid.lat[j + 1]? = some b')
    (hx : a < x ∧ x < a') (hy : b < y ∧ y < b') : tracerEval per f t z y x = .ok (tracerCell m j i) := by
  obtain ⟨ti, latN, latS, lonE, lonW, g, h1, h2, h3, h4, h5, h6, h7⟩ := plot_parts h
  obtain ⟨g', e, n, n', c, e1, e2, e3, e4⟩ := combine hf.timeInc hf.timeLen h1
  rw [h3] at e
  obtain rfl := Except.ok.inj e
  have e := Except.ok.inj h2
  simp only [Prod.mk.injEq] at e
  obtain ⟨rfl, rfl, rfl, rfl⟩ := e
  simp only [Int.toNat_zero, zero_add] at h7
  obtain ⟨p, hp, lx, ly⟩ := (C24_scipy f.grid hf.flatGrid h1l x y z).1
    ⟨⟨a, a', List.mem_of_getElem? ha, List.mem_of_getElem? ha', hx.1.le, hx.2.le⟩, ⟨b, b', List.mem_of_getElem? hb, List.mem_of_getElem? hb', hy.1.le, hy.2.le⟩⟩
  have hxi := cell_unique hf.lonInc lx ha ha' hx.1 hx.2
  have hyi := cell_unique hf.latInc ly hb hb' hy.1 hy.2
  have hs : ∀ q, sample f.grid .nemo .cgridTracer (f.data q) x y z = .ok (some ((f.data q).v 0 (j + 1) (i + 1))) := by
    intro q
    unfold sample
    rw [hp]
    simp only
    rw [if_pos h1l]
    simp only [interp2D, pyCell2, Arr.py, hxi, hyi, wrap]
    norm_num
    rw [if_neg (by omega), if_neg (by omega)]
  unfold tracerEval tracerCell
  rw [h7, e3, if_neg (by omega)]
  exact e4 _ (fun q => (f.data q).v 0 (j + 1) (i + 1)) fun q _ => by simp only [hs]

/-! ### Vector fields -/

/-- C119 (part): both components are displayed with the values that a particle samples at the requested time, if the first one is not periodic in time, or its period is one of the second one too. Missing: other periods,
see `C119_vector_fails`. -/
theorem C119_vector_partial {perU perV : Bool} {fU fV : Fld} (hU : Sound fU) (hV : Sound fV) (pU : perU = true → Closed fU) (pV : perV = true → Closed fV)
    (hr : perU = true → Repeats perV fV (span fU)) (dom : Option Domain) (level : Nat) (t z : ℚ) (zU : AtLevel fU level z) (zV : AtLevel fV level z)
    {u v : Img} (h : plotVector perU perV fU fV dom level t = .ok (u, v)) : Faithful perU fU t z u ∧ Faithful perV fV t z v ∧ v.x = u.x := by
  unfold plotVector at h
  cases h1 : plotOne perU fU dom level t with
  | error e => rw [h1] at h; cases h
  | ok a =>
    rw [h1] at h
    simp only at h
    cases h2 : plotOne perV fV dom level a.time with
    | error e => rw [h2] at h; cases h
    | ok b =>
      rw [h2] at h
      simp only at h
      split_ifs at h with hx
      obtain ⟨rfl, rfl⟩ := Prod.mk.inj (Except.ok.inj h)
      refine ⟨C119_node hU pU dom level t z zU h1, fun j i y x hy hx => ?_, hx⟩
      have hb := C119_node hV pV dom level a.time z zV h2 j i y x hy hx
      obtain ⟨t1, ⟨k, t2⟩, -⟩ := C119_title hU dom level t h1
      cases perU with
      | false => rw [t1 rfl] at hb; exact hb
      | true =>
        have hk : Repeats perV fV (k * span fU) := by
          rcases hr rfl with ⟨e1, q, e2⟩ | e1
          · exact Or.inl ⟨e1, k * q, by rw [e2]; push_cast; ring⟩
          · exact Or.inr e1
        have := (PeriodRun.value_later hk hV a.time z y x (b.v j i)).mpr hb
        rwa [t2, sub_add_cancel] at this

/-! ### Domains -/

/-- C119 (part): of a domain inside the grid, every node from the western to before the eastern limit, and from the southern to before the northern limit, is displayed. Missing: the nodes on the eastern and northern
limit, see `C119_domain_edge`. -/
theorem C119_domain_partial {per : Bool} {f : Fld} (hf : Sound f) (d : Domain) (level : Nat) (t : ℚ) {m : Img} (h : plotOne per f (some d) level t = .ok m) :
    (∀ x ∈ f.grid.lon, d.W ≤ x → x < d.E → x ∈ m.x) ∧ (∀ y ∈ f.grid.lat, d.S ≤ y → y < d.N → y ∈ m.y) := by
  obtain ⟨ti, latN, latS, lonE, lonW, g, h1, h2, h3, h4, h5, h6, h7⟩ := plot_parts h
  obtain ⟨r1, r2, r3, r4⟩ := (domain_iff hf (some d)).mp ⟨_, h2⟩ d rfl
  obtain ⟨p, n, k, p1, p2, p3, p4, p5, p6, p7, p8, p9, p10, p11⟩ := corner hf r1 r3
  obtain ⟨q, n', k', q1, q2, q3, q4, q5, q6, q7, q8, q9, q10, q11⟩ := corner hf r2 r4
  unfold parsedomain at h2
  simp only [p1, q1, p2, p3, q2, q3] at h2
  have e := Except.ok.inj h2
  simp only [Prod.mk.injEq] at e
  obtain ⟨rfl, rfl, rfl, rfl⟩ := e
  rw [h5, h6]
  constructor
  · intro x hx w1 w2
    obtain ⟨i, hi, rfl⟩ := List.getElem_of_mem hx
    rw [← List.getD_eq_getElem f.grid.lon 0 hi] at w1 w2 ⊢
    refine List.mem_of_getElem? (slice_of ?_ ?_ hi)
    · by_contra hc
      have := inc_lt hf.lonInc (show i < n by omega) (by omega)
      linarith
    · by_contra hc
      have := inc_le hf.lonInc (show n' + 1 ≤ i by omega) hi
      linarith
  · intro x hx w1 w2
    obtain ⟨i, hi, rfl⟩ := List.getElem_of_mem hx
    rw [← List.getD_eq_getElem f.grid.lat 0 hi] at w1 w2 ⊢
    refine List.mem_of_getElem? (slice_of ?_ ?_ hi)
    · by_contra hc
      have := inc_lt hf.latInc (show i < k by omega) (by omega)
      linarith
    · by_contra hc
      have := inc_le hf.latInc (show k' + 1 ≤ i by omega) hi
      linarith

/-- The display of a domain ends before its eastern and its northern limit, on every grid: the cells that contain these limits are not displayed, and the last row and column of a grid never are. -/
theorem C119_domain_edge {per : Bool} {f : Fld} (hf : Sound f) (d : Domain) (level : Nat) (t : ℚ) {m : Img} (h : plotOne per f (some d) level t = .ok m) :
    (f.grid.lon.headD 0 < d.E → ∀ x ∈ m.x, x < d.E) ∧ (f.grid.lat.headD 0 < d.N → ∀ y ∈ m.y, y < d.N) := by
  obtain ⟨ti, latN, latS, lonE, lonW, g, h1, h2, h3, h4, h5, h6, h7⟩ := plot_parts h
  obtain ⟨r1, r2, r3, r4⟩ := (domain_iff hf (some d)).mp ⟨_, h2⟩ d rfl
  obtain ⟨p, n, k, p1, p2, p3, p4, p5, p6, p7, p8, p9, p10, p11⟩ := corner hf r1 r3
  obtain ⟨q, n', k', q1, q2, q3, q4, q5, q6, q7, q8, q9, q10, q11⟩ := corner hf r2 r4
  unfold parsedomain at h2
  simp only [p1, q1, p2, p3, q2, q3] at h2
  have e := Except.ok.inj h2
  simp only [Prod.mk.injEq] at e
  obtain ⟨rfl, rfl, rfl, rfl⟩ := e
  rw [h5, h6, headD_getD, headD_getD]
  constructor
  · intro h0 x hx
    obtain ⟨i, hi, e⟩ := List.getElem_of_mem hx
    obtain ⟨s1, s2, s3⟩ := slice_get (List.getElem?_eq_some_iff.mpr ⟨hi, e⟩)
    rw [← s3]
    exact lt_of_le_of_lt (inc_le hf.lonInc (show (n : ℤ).toNat + i ≤ n' by omega) (by omega)) (q7 h0)
  · intro h0 x hx
    obtain ⟨i, hi, e⟩ := List.getElem_of_mem hx
    obtain ⟨s1, s2, s3⟩ := slice_get (List.getElem?_eq_some_iff.mpr ⟨hi, e⟩)
    rw [← s3]
    exact lt_of_le_of_lt (inc_le hf.latInc (show (k : ℤ).toNat + i ≤ k' by omega) (by omega)) (q10 h0)

/-! ### Cases that meet the hypotheses -/

/-- A field with two levels that repeats after two seconds. -/
def exF : Fld := ⟨⟨[0, 1, 3, 4], [0, 2, 4], [0, 10], false, false, false⟩, [0, 1, 2], false, fun n => ⟨2, 3, 4, fun k j i => 1 + i + 2 * j + 5 * k + if n = 1 then 4 else 0⟩, 0⟩

theorem exSound : Sound exF :=
  ⟨rfl, rfl, rfl, by simp [exF, Increasing] <;> norm_num, by simp [exF], by simp [exF, Increasing] <;> norm_num, by simp [exF], Or.inr (by simp [exF, Increasing]),
    by simp [exF, Increasing], by simp [exF], fun _ => ⟨rfl, rfl, rfl⟩⟩

theorem exClosed : Closed exF := ⟨by simp [exF], by simp [exF]⟩

/-- The hypotheses can be met: the second level three and a half periods later, with all nodes; a part of the first level; a cell. -/
example : Sound exF ∧ Closed exF ∧ AtLevel exF 1 10 ∧
    (match plotOne true exF none 1 (15 / 2) with
    | .ok m => decide (m.x = [0, 1, 3, 4]) && decide (m.time = 3 / 2) && decide (m.v 1 2 = 12) && decide (cell m 1 2 = 27 / 2) && decide (PeriodRun.eval true exF (15 / 2) 10 3 (7 / 2) = .ok (27 / 2))
    | _ => false) = true ∧
    (match plotOne false exF (some ⟨4, 1, 7 / 2, 1 / 2⟩) 0 (1 / 2) with
    | .ok m => decide (m.x = [0, 1, 3]) && decide (m.y = [0, 2]) && decide (m.v 1 2 = 7)
    | _ => false) = true := ⟨exSound, exClosed, fun _ => rfl, by decide +kernel, by decide +kernel⟩

/-- Both components of a vector field that repeats. -/
example : Repeats true exF (span exF) ∧
    (match plotVector true true exF exF none 0 (15 / 2) with
    | .ok (u, v) => decide (u.v 1 2 = 7) && decide (v.v 1 2 = 7)
    | _ => false) = true := ⟨Or.inl ⟨rfl, 1, by simp⟩, by decide +kernel⟩

/-- A tracer with one level. -/
example : (match plotOne false { exF with grid := { exF.grid with depth := [0] }, data := fun n => ⟨1, 3, 4, fun _ j i => 1 + i + 2 * j + n⟩ } none 0 (1 / 2) with
    | .ok m => decide (tracerCell m 1 2 = 17 / 2) &&
        decide (tracerEval false { exF with grid := { exF.grid with depth := [0] }, data := fun n => ⟨1, 3, 4, fun _ j i => 1 + i + 2 * j + n⟩ } (1 / 2) 0 (5 / 2) (7 / 2) = .ok (17 / 2))
    | _ => false) = true := by decide +kernel

/-! ### Where the display differs -/

/-- C119. A field with `allow_time_extrapolation` is sampled at all times, but its display is refused outside the range of its times: here, a field with one time. -/
theorem C119_extrap_fails :
    (match PeriodRun.eval false { exF with time := [0], extrap := true } 5 0 1 1, plotOne false { exF with time := [0], extrap := true } none 0 5 with
    | .ok _, .error .time => true
    | _, _ => false) = true := by decide +kernel

/-- C119. The second component of a vector field is displayed at another time, if the first one is periodic in time and the second one has another period: at time 5 particles sample 10, and 2 is displayed. -/
theorem C119_vector_fails :
    (match plotVector true false exF { exF with time := [0, 10], data := fun n => ⟨2, 3, 4, fun _ _ _ => if n = 0 then 0 else 20⟩ } none 0 5,
      PeriodRun.eval false { exF with time := [0, 10], data := fun n => ⟨2, 3, 4, fun _ _ _ => if n = 0 then 0 else 20⟩ } 5 0 0 0 with
    | .ok (_, v), .ok w => decide (v.v 0 0 = 2) && decide (w = 10)
    | _, _ => false) = true := by decide +kernel

/-- C119. A cell with a corner that is exactly zero is displayed as zero, though particles sample another value in its middle (a velocity of 1 that is zero at one node). -/
theorem C119_zero_fails :
    (match plotOne false { exF with data := fun _ => ⟨2, 3, 4, fun _ j i => if j = 1 ∧ i = 1 then 0 else 1⟩ } none 0 0,
      PeriodRun.eval false { exF with data := fun _ => ⟨2, 3, 4, fun _ j i => if j = 1 ∧ i = 1 then 0 else 1⟩ } 0 0 1 (1 / 2) with
    | .ok m, .ok w => decide (cell m 0 0 = 0) && decide (w = 3 / 4)
    | _, _ => false) = true := by decide +kernel

/-- C119. The arrows of a velocity on a C-grid do not depend on its second component: a northward velocity is displayed as no velocity at all. -/
theorem C119_cgrid_north_fails (x y : List ℚ) (c t : ℚ) : cgridArrows ⟨x, y, fun _ _ => 0, t⟩ ⟨x, y, fun _ _ => c, t⟩ = (fun _ _ => 0, fun _ _ => 0) := by
  unfold cgridArrows
  ext <;> simp

/-- C119. On curvilinear grids with z levels and more columns than rows, some columns are not displayed by default; on rectilinear grids with s levels nothing is: the call raises an IndexError. -/
theorem C119_default_fails (ny nx : Nat) (h : ny < nx) : (∃ r c, defaultShape .curvZ ny nx = .ok (r, c) ∧ c < nx) ∧ defaultShape .rectS ny nx = .error .index :=
  ⟨⟨min ny ny, min ny nx, rfl, by omega⟩, rfl⟩

end Parcels.Plot
