import Verif.Proofs.CurviS

/-!
C29, C74 and C76 on curvilinear grids with s-levels; C76 on rectilinear grids with s-levels.
-/

namespace Parcels.CurviS
open Parcels.Search Parcels.Interp Parcels.TimeInterp Parcels.SLevels

variable (sqrt : ℚ → ℚ) (maxIter : Nat)

theorem timeAt_range {T : List ℚ} {extrap : Bool} {t : ℚ} {i : Nat} {w : ℚ} (h : TimeAt T extrap t i w) : 0 ≤ w ∧ w ≤ 1 := by
  rcases h with ⟨_, _, _, _, _, _, h0, h1, _⟩ | ⟨_, _, h, _⟩
  · exact ⟨h0, h1⟩
  · rw [h]; norm_num

/-- C74 (Scipy, curvilinear grids): a sample is the interpolation in time between values of the two snapshots, each interpolated in a cell in
which the position is and between the levels around z, where they are at that place and time. (The two searches may accept different cells if the
position is on an edge.) Missing: MOM5 and POP indexing, periodic fields. -/
theorem C74_curvilinear_scipy_partial (hs : Curvilinear.IsSqrt sqrt) (f : CSField) (hf : WellFormed f) (hm : f.method = .linear)
    (hix : f.indexing = .nemo ∨ f.indexing = .mitgcm) (T : List ℚ) (hT : Increasing T) (extrap : Bool)
    (ha : f.axis = TAxis.full T false extrap) (t x y z v : ℚ) (start : Nat → ℤ × ℤ) (i : Nat) (w : ℚ) (ht : TimeAt T extrap t i w)
    (h : eval sqrt maxIter f t x y z start = .ok v) :
    ∃ k m n k' m' n' : Nat, ∃ q s r q' s' r' : ℚ, PlacesS f i w x y z k m n q s r ∧ PlacesS f i w x y z k' m' n' q' s' r' ∧
      v = lerp w (trilinearAt (f.data i) k m n q s r) (trilinearAt (f.data (i + 1)) k' m' n' q' s' r') := by
  obtain ⟨n0, hn0, hidx, hcase⟩ := time_found hT ht
  have hw := timeAt_range ht
  have hnd : f.levels.z4d = true → f.levels.ndep = T.length := by intro hz; rw [hf.snapshots hz, ha]; rfl
  have e0 : t - ((0 : ℤ) : ℚ) * (f.axis.fullMax - f.axis.fullMin) = t := by push_cast; ring
  have et : f.axis.time = T := by rw [ha]; rfl
  have ed : f.axis.tdim = T.length := by rw [ha]; rfl
  unfold eval at h
  rw [show timeIndex f.axis t = .ok ((n0 : ℤ), 0) by rw [ha]; exact hidx] at h
  simp only [e0, et, ed, wrapIdx_nat] at h
  -- one sample
  have one : ∀ (j : Nat) (ti : ℤ) (time u : ℚ) (a b : ℤ),
      (∀ m n r s, 0 ≤ r ∧ r ≤ 1 → 0 ≤ s ∧ s ≤ 1 →
        pyColumn f.levels f.axis.time f.method ti time (n : Nat) (m : Nat) r s = .ok (f.levels.levels i w m n s r)) →
      sample sqrt maxIter f j x y z ti time a b = .ok u →
      ∃ k m n : Nat, ∃ q s r : ℚ, PlacesS f i w x y z k m n q s r ∧ u = trilinearAt (f.data j) k m n q s r := by
    intro j ti time u a b hc hu
    unfold sample at hu
    cases hh : searchAll sqrt maxIter f x y z ti time a b with
    | error e => rw [hh] at hu; cases hu
    | ok p =>
      rw [hh] at hu
      obtain ⟨k, m, n, hl⟩ := searchAll_ok (col := fun m n s r => f.levels.levels i w m n s r) hs
        (fun m n r s hr hs' => ⟨hc m n r s hr hs', levels_mono hf i hw m n hs' hr, by rw [levels_length]; exact hf.nz⟩) hh
      simp only [hm, py_value hix hl] at hu
      injection hu with hu
      exact ⟨k, m, n, p.zeta, p.eta, p.xsi, ⟨hl.place, hl.layer⟩, hu.symm⟩
  rcases hcase with ⟨hn1, h1, h2, hv⟩ | ⟨hc, hv⟩
  · have e1 : wrapIdx T.length ((n0 : ℤ) + 1) = n0 + 1 := by
      rw [show ((n0 : ℤ) + 1) = ((n0 + 1 : Nat) : ℤ) by push_cast; rfl, wrapIdx_nat]
    rw [if_pos ⟨by omega, h1⟩, e1] at h
    have hpos : 0 < T.getD (n0 + 1) 0 - T.getD n0 0 := by linarith
    obtain ⟨rfl, rfl⟩ := lerp_determined (div_pos (sub_pos.mpr h1) hpos) (by rw [div_lt_one hpos]; linarith) hv
    have hcol : ∀ ti : ℤ, ti = i ∨ ti = i + 1 → ∀ m n r s, 0 ≤ r ∧ r ≤ 1 → 0 ≤ s ∧ s ≤ 1 →
        pyColumn f.levels f.axis.time f.method ti t (n : Nat) (m : Nat) r s =
          .ok (f.levels.levels i ((t - T.getD i 0) / (T.getD (i + 1) 0 - T.getD i 0)) m n s r) := by
      intro ti hti m n r s hr hs'
      rw [et, hm]
      exact pyColumn_two' hnd hn1 h1 h2 ti hti hr hs'
    cases h0 : sample sqrt maxIter f i x y z i t (start i).1 (start i).2 with
    | error e => rw [h0] at h; cases h
    | ok f0 =>
      rw [h0] at h
      dsimp only at h
      cases h3 : sample sqrt maxIter f (i + 1) x y z (i + 1) t (start (i + 1)).1 (start (i + 1)).2 with
      | error e => rw [h3] at h; cases h
      | ok f1 =>
        rw [h3] at h
        dsimp only at h
        injection h with h
        obtain ⟨k, m, n, q, s, r, hp, rfl⟩ := one _ _ _ _ _ _ (hcol _ (Or.inl rfl)) h0
        obtain ⟨k', m', n', q', s', r', hp', rfl⟩ := one _ _ _ _ _ _ (hcol _ (Or.inr rfl)) h3
        refine ⟨k, m, n, k', m', n', q, s, r, q', s', r', hp, hp', ?_⟩
        rw [← h]
        unfold lerp
        ring
  · rw [if_neg (by rintro ⟨h', h''⟩; exact hc ⟨by omega, h''⟩)] at h
    have hcol : ∀ m n r s, 0 ≤ r ∧ r ≤ 1 → 0 ≤ s ∧ s ≤ 1 →
        pyColumn f.levels f.axis.time f.method n0 (T.getD n0 0) (n : Nat) (m : Nat) r s = .ok (f.levels.levels i w m n s r) := by
      intro m n r s hr hs'
      rw [et, hm, pyColumn_one' hT hnd hn0 hr hs']
      congr 1
      unfold SGrid.levels
      apply List.map_congr_left
      intro k _
      exact (hv fun j => bilinearAt (f.levels.depths j) k m n s r).symm
    obtain ⟨k, m, n, q, s, r, hp, rfl⟩ := one _ _ _ _ _ _ hcol h
    exact ⟨k, m, n, k, m, n, q, s, r, q, s, r, hp, hp, (hv fun j => trilinearAt (f.data j) k m n q s r).symm⟩

/-- C74 (JIT, curvilinear grids): a sample is the reference value in a cell in which the position is, between the levels around z where they are at
that place and time; whatever cell, level and snapshot the particle was in before. Missing: MOM5 and POP indexing, periodic fields. -/
theorem C74_curvilinear_jit_partial (hs : Curvilinear.IsSqrt sqrt) (f : CSField) (hf : WellFormed f) (hm : f.method = .linear)
    (hix : f.indexing = .nemo ∨ f.indexing = .mitgcm) (T : List ℚ) (hT : Increasing T) (extrap : Bool)
    (ha : f.axis = TAxis.full T false extrap) (t x y z v : ℚ) (i : Nat) (w : ℚ) (ht : TimeAt T extrap t i w) (xi yi : ℤ) (zi : Nat)
    (hzi : zi < f.levels.zdim) (fuel : Nat) (ti : ℤ) (hti : ti < T.length)
    (h : cEval sqrt maxIter f (fuel + 1) t x y z xi yi zi ti = some (.ok v)) :
    ∃ k m n : Nat, ∃ q s r : ℚ, PlacesS f i w x y z k m n q s r ∧ v = valueAt f.data i w m n s r k q := by
  have hne : 0 < T.length := by
    rcases ht with h | ⟨_, h, _⟩
    · have := (locates_range hT h).1; omega
    · exact List.length_pos_iff.mpr h
  have hst : startIdx ti < T.length := by unfold startIdx; split_ifs <;> omega
  obtain ⟨hn0, -, hcase⟩ := cTime_found hT ht (startIdx ti) hst
  have hw := timeAt_range ht
  have hidx := cSearch_direct (T := T) false (TAxis.full T false extrap).fullMin (TAxis.full T false extrap).fullMax fuel t ti 0 (Or.inl rfl)
  have et : f.axis.time = T := by rw [ha]; rfl
  have ed : f.axis.tdim = T.length := by rw [ha]; rfl
  have ep : f.axis.periodic = false := by rw [ha]; rfl
  unfold cEval at h
  split_ifs at h
  · simp at h
  rw [ed, et, ep, List.take_length, ha, hidx] at h
  dsimp only at h
  generalize cWalk ltB T t (startIdx ti) = c at *
  -- the search
  have one : ∀ (time t0 t1 : ℚ) (p : Pos),
      (∀ m n r s, 0 ≤ r ∧ r ≤ 1 → 0 ≤ s ∧ s ≤ 1 →
        cColumn f.levels f.axis.tdim f.method c time t0 t1 n m r s = f.levels.levels i w m n s r) →
      cSearchAll sqrt maxIter f x y z xi yi zi c time t0 t1 = .ok p →
      ∃ k m n : Nat, Located f x y z (fun m n s r => f.levels.levels i w m n s r) p k m n := by
    intro time t0 t1 p hc hp
    exact cSearchAll_ok (col := fun m n s r => f.levels.levels i w m n s r) hs
      (fun m n r s hr hs' => ⟨hc m n r s hr hs', levels_mono hf i hw m n hs' hr, by rw [levels_length]; exact hf.nz,
        by rw [levels_length]; exact hzi⟩) hp
  rcases hcase with ⟨hn1, h1, hv⟩ | ⟨hc, hv⟩
  · have two : (decide (c < T.length - 1) && decide (T.getD c 0 < t)) = true := by
      rw [Bool.and_eq_true]; exact ⟨decide_eq_true (by omega), decide_eq_true h1⟩
    rw [two] at h
    simp only [cond_true] at h
    cases hp : cSearchAll sqrt maxIter f x y z xi yi zi c t (T.getD c 0) (T.getD (c + 1) 0) with
    | error e => rw [hp] at h; simp at h
    | ok p =>
      rw [hp] at h
      obtain ⟨k, m, n, hl⟩ := one _ _ _ _ (by
        intro m n r s hr hs'
        rw [ed, hm, cColumn_two' hn1 hr hs']
        unfold SGrid.levels
        apply List.map_congr_left
        intro k _
        exact (hv fun j => bilinearAt (f.levels.depths j) k m n s r).symm) hp
      simp only [Option.some.injEq, Except.ok.injEq, c_value hf hm hix hl] at h
      refine ⟨k, m, n, p.zeta, p.eta, p.xsi, ⟨hl.place, hl.layer⟩, ?_⟩
      have hv' := hv fun j => trilinearAt (f.data j) k m n p.zeta p.eta p.xsi
      unfold valueAt
      rw [hv', ← h]
      unfold lerp
      ring
  · have two : (decide (c < T.length - 1) && decide (T.getD c 0 < t)) = false := by
      rw [Bool.and_eq_false_iff]
      by_cases h' : c < T.length - 1
      · right; exact decide_eq_false fun h'' => hc ⟨by omega, h''⟩
      · left; exact decide_eq_false h'
    rw [two] at h
    simp only [cond_false] at h
    cases hp : cSearchAll sqrt maxIter f x y z xi yi zi c (T.getD c 0) (T.getD c 0) (T.getD c 0 + 1) with
    | error e => rw [hp] at h; simp at h
    | ok p =>
      rw [hp] at h
      obtain ⟨k, m, n, hl⟩ := one _ _ _ _ (by
        intro m n r s hr hs'
        rw [ed, hm, cColumn_one' hr hs']
        unfold SGrid.levels
        apply List.map_congr_left
        intro k _
        exact (hv fun j => bilinearAt (f.levels.depths j) k m n s r).symm) hp
      simp only [Option.some.injEq, Except.ok.injEq, c_value hf hm hix hl] at h
      refine ⟨k, m, n, p.zeta, p.eta, p.xsi, ⟨hl.place, hl.layer⟩, ?_⟩
      have hv' := hv fun j => trilinearAt (f.data j) k m n p.zeta p.eta p.xsi
      unfold valueAt
      rw [hv', ← h]
      ring

/-- C74 on flat curvilinear meshes: the reference value of a function that is linear in position, depth and time is the function at the
position, depth and time. -/
theorem C74_curvilinear_linear_exact (f : CSField) (hflat : f.grid.spherical = false) (T : List ℚ) (a b c d e : ℚ)
    (hd : ∀ j k v u tj, T[j]? = some tj →
      (f.data j).v k v u = a + b * f.grid.lon v u + c * f.grid.lat v u + d * (f.levels.depths j).v k v u + e * tj)
    (t x y z : ℚ) (i n m k : Nat) (w r s q : ℚ) (ht : Locates T t i w)
    (hat : Curvilinear.At (CurviField.cellNear f.grid m n x) x y r s) (hz : Locates (f.levels.levels i w m n s r) z k q) :
    valueAt f.data i w m n s r k q = a + b * x + c * y + d * z + e * t := by
  obtain ⟨i', t0, t1, hi, ht0, ht1, _, _, et⟩ := ht
  obtain ⟨k', z0, z1, hk, hz0, hz1, _, _, ez⟩ := hz
  obtain rfl : i = i' := by exact_mod_cast hi
  obtain rfl : k = k' := by exact_mod_cast hk
  obtain ⟨ex, ey⟩ := hat
  unfold CurviField.cellNear Curvilinear.shift at ex ey
  rw [hflat] at ex ey
  simp only [cond_false, Curvilinear.bilinX, Curvilinear.bilinY, Curvilinear.corners, Int.toNat_natCast] at ex ey
  have lev : ∀ k z, (f.levels.levels i w m n s r)[k]? = some z →
      z = lerp w (bilinearAt (f.levels.depths i) k m n s r) (bilinearAt (f.levels.depths (i + 1)) k m n s r) := by
    intro k z h
    unfold SGrid.levels at h
    rw [List.getElem?_map] at h
    obtain ⟨k', hk', rfl⟩ := Option.map_eq_some_iff.mp h
    rw [List.getElem?_range] at hk'
    · injection hk' with hk'; rw [hk']
    · by_contra hcon
      rw [List.getElem?_eq_none (by simpa using hcon)] at hk'
      cases hk'
  rw [lev _ _ hz0, lev _ _ hz1] at ez
  unfold valueAt trilinearAt bilinearAt lerp
  unfold bilinearAt lerp at ez
  simp only [hd _ _ _ _ _ ht0, hd _ _ _ _ _ ht1]
  rw [ez, et, ← ex, ← ey]
  ring

/-! ### Uniform fields (C76) -/

theorem interp3D_const {m : Method} {ix : Indexing} (hix : ix = .nemo ∨ ix = .mitgcm) {zi : ℤ} {zdim : Nat} {xsi eta zeta k v : ℚ}
    (hm : m = .invdist → ConstField.NotTiny k) (h : interp3D m ix zi zdim xsi eta zeta (fun _ _ _ => k) = some v) : v = k := by
  have hp : ix ≠ .pop ∧ ix ≠ .mom5 := by rcases hix with h' | h' <;> rw [h'] <;> decide
  have lin : ∀ m, linear3D m ix zi zdim xsi eta zeta (fun _ _ _ => k) = k := by
    intro m
    unfold linear3D
    dsimp only
    rw [if_neg (by intro hc; exact hp.1 hc.1), if_neg (by intro hc; exact hp.2 hc.2.1)]
    simp only [ConstField.bilin_const]
    ring
  revert h hm
  cases m <;> intro hm h <;> simp only [interp3D, lin] at h <;> try (simp only [Option.some.injEq] at h; exact h.symm)
  · rw [ConstField.pyInv3_const (hm rfl)] at h
    simp only [Option.some.injEq] at h
    exact h.symm
  · rcases hix with h' | h'
    · rw [h'] at h; simp only [Option.some.injEq] at h; rw [← h]; ring
    · rw [h'] at h; simp only [Option.some.injEq] at h; rw [← h]; ring

theorem cInterp3D_const {m : Method} {ix : Indexing} {xsi eta zeta k : ℚ} : cInterp3D m ix false false xsi eta zeta (fun _ _ _ => k) = k := by
  cases m <;> simp only [cInterp3D, cLinear3D, ConstField.trilin_const, ConstField.cInv3_const, ite_self, Bool.false_eq_true, if_false]

/-- C76 (Scipy, curvilinear grids with s-levels). -/
theorem C76_curvilinear_s_scipy_partial (f : CSField) (k : ℚ) (hu : Uniform f k) (hm : f.method = .invdist → ConstField.NotTiny k)
    (hix : f.indexing = .nemo ∨ f.indexing = .mitgcm) (t x y z v : ℚ) (start : Nat → ℤ × ℤ)
    (h : eval sqrt maxIter f t x y z start = .ok v) : v = k := by
  have one : ∀ (j : Nat) (ti : ℤ) (time u : ℚ) (a b : ℤ), sample sqrt maxIter f j x y z ti time a b = .ok u → u = k := by
    intro j ti time u a b h
    unfold sample at h
    cases hs : searchAll sqrt maxIter f x y z ti time a b with
    | error e => rw [hs] at h; cases h
    | ok p =>
      rw [hs] at h
      have c3 : pyCell3 (f.data j) p = fun _ _ _ => k := by funext a b c; exact hu j _ _ _
      dsimp only at h
      rw [c3] at h
      cases hi : interp3D f.method f.indexing p.zi f.levels.zdim p.xsi p.eta p.zeta (fun _ _ _ => k) with
      | none => rw [hi] at h; cases h
      | some v =>
        rw [hi] at h
        injection h with h
        rw [← h]
        exact interp3D_const hix hm hi
  unfold eval at h
  cases ht : timeIndex f.axis t with
  | error e => rw [ht] at h; cases h
  | ok q =>
    rw [ht] at h
    dsimp only at h
    split at h
    · split at h
      · cases h
      · next f0 h0 =>
        split at h
        · cases h
        · next f1 h1 =>
          injection h with h
          rw [← h, one _ _ _ _ _ _ h0, one _ _ _ _ _ _ h1]
          ring
    · exact one _ _ _ _ _ _ h

/-- C76 (JIT, curvilinear grids with s-levels). -/
theorem C76_curvilinear_s_jit_partial (f : CSField) (k : ℚ) (hu : Uniform f k) (hix : f.indexing = .nemo ∨ f.indexing = .mitgcm)
    (fuel : Nat) (t x y z v : ℚ) (xi yi : ℤ) (zi : Nat) (ti : ℤ)
    (h : cEval sqrt maxIter f fuel t x y z xi yi zi ti = some (.ok v)) : v = k := by
  have hp : f.indexing ≠ .pop ∧ f.indexing ≠ .mom5 := by rcases hix with h' | h' <;> rw [h'] <;> decide
  have one : ∀ p j, cValue f p j = k := by
    intro p j
    have c3 : ∀ a b c, cCell3 (f.data j) a b c = fun _ _ _ => k := by intro a b c; funext _ _ _; exact hu j _ _ _
    unfold cValue
    simp only [c3, hp.1, hp.2, decide_false, Bool.false_and]
    exact cInterp3D_const
  unfold cEval at h
  split_ifs at h
  · simp at h
  split at h
  · cases h
  · next t' i _ _ =>
    dsimp only at h
    cases h2 : (decide (i < f.axis.tdim - 1) && decide (f.axis.time.getD i 0 < t')) with
    | true =>
      rw [h2] at h
      split at h
      · simp at h
      · simp only [cond_true, one, Option.some.injEq, Except.ok.injEq, sub_self, zero_mul, add_zero] at h
        exact h.symm
    | false =>
      rw [h2] at h
      split at h
      · simp at h
      · simp only [cond_false, one, Option.some.injEq, Except.ok.injEq, sub_self, zero_div, mul_zero, add_zero] at h
        exact h.symm

/-- C76 (Scipy, rectilinear grids with s-levels): all grids, flat or spherical, whatever the order of the levels. -/
theorem C76_s_levels_scipy_partial (g : SGrid) (a : TAxis) (ix : Indexing) (hix : ix = .nemo ∨ ix = .mitgcm) (m : Method) (data : Nat → Arr)
    (k : ℚ) (hu : ∀ i a b c, (data i).v a b c = k) (hm : m = .invdist → ConstField.NotTiny k) (t x y z v : ℚ)
    (h : evalS g a ix m data t x y z = .ok v) : v = k := by
  have one : ∀ (j : Nat) (ti : ℤ) (time u : ℚ), sampleS g a.time ix m (data j) x y z ti time = .ok u → u = k := by
    intro j ti time u h
    unfold sampleS at h
    cases hs : searchRectS g a.time m x y z ti time with
    | error e => rw [hs] at h; cases h
    | ok p =>
      rw [hs] at h
      have c3 : pyCell3 (data j) p = fun _ _ _ => k := by funext a b c; exact hu j _ _ _
      dsimp only at h
      rw [c3] at h
      cases hi : interp3D m ix p.zi g.zdim p.xsi p.eta p.zeta (fun _ _ _ => k) with
      | none => rw [hi] at h; cases h
      | some v =>
        rw [hi] at h
        injection h with h
        rw [← h]
        exact interp3D_const hix hm hi
  unfold evalS at h
  cases ht : timeIndex a t with
  | error e => rw [ht] at h; cases h
  | ok q =>
    rw [ht] at h
    dsimp only at h
    split at h
    · split at h
      · cases h
      · next f0 h0 =>
        split at h
        · cases h
        · next f1 h1 =>
          injection h with h
          rw [← h, one _ _ _ _ h0, one _ _ _ _ h1]
          ring
    · exact one _ _ _ _ h

/-- C76 (JIT, rectilinear grids with s-levels). -/
theorem C76_s_levels_jit_partial (g : SGrid) (a : TAxis) (ix : Indexing) (hix : ix = .nemo ∨ ix = .mitgcm) (m : Method) (data : Nat → Arr)
    (k : ℚ) (hu : ∀ i a b c, (data i).v a b c = k) (fuel : Nat) (t x y z v : ℚ) (xi yi zi : Nat) (ti : ℤ)
    (h : cEvalS g a ix m data fuel t x y z xi yi zi ti = some (.ok v)) : v = k := by
  have hp : ix ≠ .pop ∧ ix ≠ .mom5 := by rcases hix with h' | h' <;> rw [h'] <;> decide
  have c3 : ∀ j a b c, cCell3 (data j) a b c = fun _ _ _ => k := by intro j a b c; funext _ _ _; exact hu j _ _ _
  unfold cEvalS at h
  simp only [c3, hp.1, hp.2, decide_false, Bool.false_and, cInterp3D_const] at h
  split_ifs at h
  · simp at h
  split at h
  · cases h
  · next t' i _ _ =>
    cases h2 : (decide (i < a.tdim - 1) && decide (a.time.getD i 0 < t')) with
    | true =>
      rw [h2] at h
      split at h
      · simp at h
      · simp only [cond_true, Option.some.injEq, Except.ok.injEq, sub_self, zero_mul, add_zero] at h
        exact h.symm
    | false =>
      rw [h2] at h
      split at h
      · simp at h
      · simp only [cond_false, Option.some.injEq, Except.ok.injEq, sub_self, zero_div, mul_zero, add_zero] at h
        exact h.symm

/-- A sheared grid with levels that are curved and move; `v` are the data. -/
def exCS (m : Method) (v : Nat → Nat → Nat → Nat → ℚ) : CSField where
  grid := { xdim := 3, ydim := 3, lon := fun j i => i + 3 * j, lat := fun j _ => j, spherical := false, zonalPeriodic := false }
  levels := { hor := { lon := [], lat := [], depth := [], spherical := false, zonalPeriodic := false, mom5 := false }
              zdim := 3, z4d := true, ndep := 2, dep := fun u => { nz := 3, ny := 3, nx := 3, v := fun k j i => u + k * (10 + i + 2 * j + u) } }
  axis := TAxis.full [0, 10] false false
  method := m
  indexing := .nemo
  data := fun i => { nz := 3, ny := 3, nx := 3, v := v i }

/-- Its data: 2 lon + 3 lat + depth + 4 time. -/
def exPlane (u k j i : Nat) : ℚ := 2 * (i + 3 * j) + 3 * j + (u + k * (10 + i + 2 * j + u)) + 4 * (10 * u)

example (m : Method) (v : Nat → Nat → Nat → Nat → ℚ) : WellFormed (exCS m v) := by
  refine ⟨by simp [exCS], by simp [exCS], by simp [exCS], Or.inl fun u j i k k' hk => ?_, fun _ => ⟨rfl, rfl, rfl⟩, fun _ => rfl⟩
  simp only [exCS, SGrid.depths]
  have h : (k : ℚ) < k' := by exact_mod_cast hk
  have : (0 : ℚ) < 10 + i + 2 * j + (u : ℚ) := by positivity
  simpa using mul_lt_mul_of_pos_right h this

example : eval Rat.sqrt 100 (exCS .linear exPlane) 5 (8 / 5) (9 / 20) 8 (fun _ => (1, 1)) = .ok (2 * (8 / 5) + 3 * (9 / 20) + 8 + 4 * 5) ∧
    cEval Rat.sqrt 100 (exCS .linear exPlane) 3 5 (8 / 5) (9 / 20) 8 0 0 1 0 = some (.ok (2 * (8 / 5) + 3 * (9 / 20) + 8 + 4 * 5)) := by
  decide +kernel

example : ∀ m ∈ [Method.linear, .nearest, .invdist, .bgridVelocity, .bgridW, .bgridTracer, .cgridTracer, .cgridVelocity],
    eval Rat.sqrt 100 (exCS m fun _ _ _ _ => 7) 5 (8 / 5) (9 / 20) 8 (fun _ => (0, 0)) = .ok 7 ∧
    cEval Rat.sqrt 100 (exCS m fun _ _ _ _ => 7) 3 5 (8 / 5) (9 / 20) 8 0 0 0 0 = some (.ok 7) := by
  decide +kernel

/-- The hypotheses of `C74_curvilinear_linear_exact` for these data. -/
example : (∀ j k v u tj, [(0 : ℚ), 10][j]? = some tj →
      ((exCS .linear exPlane).data j).v k v u = 0 + 2 * (exCS .linear exPlane).grid.lon v u + 3 * (exCS .linear exPlane).grid.lat v u +
        1 * ((exCS .linear exPlane).levels.depths j).v k v u + 4 * tj) ∧
    Curvilinear.At (CurviField.cellNear (exCS .linear exPlane).grid 0 0 (8 / 5)) (8 / 5) (9 / 20) (1 / 4) (9 / 20) := by
  constructor
  · intro j k v u tj h
    have hj : tj = 10 * (j : ℚ) := by
      match j, h with
      | 0, h => simp at h; rw [← h]; norm_num
      | 1, h => simp at h; rw [← h]; norm_num
      | _ + 2, h => simp at h
    simp only [exCS, exPlane, hj, SGrid.depths, if_true]
    ring
  · simp only [CurviField.cellNear, Curvilinear.shift, exCS, Curvilinear.corners, Curvilinear.At, Curvilinear.bilinX, Curvilinear.bilinY]
    norm_num

end Parcels.CurviS
