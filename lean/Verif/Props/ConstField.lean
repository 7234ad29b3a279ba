import Verif.Model.ConstField
import Mathlib.Tactic.Ring
import Mathlib.Tactic.Linarith

/-!
C76: a field that is uniform in space and time has its value everywhere.
-/

namespace Parcels.ConstField
open Parcels.Search Parcels.Interp Parcels.TimeInterp

theorem bilin_const (xsi eta k : ℚ) : bilin xsi eta (fun _ _ => k) = k := by unfold bilin; ring

theorem trilin_const (xsi eta zeta k : ℚ) : trilin xsi eta zeta (fun _ _ _ => k) = k := by
  unfold trilin; rw [bilin_const]; ring

/-- The value can be told from zero (`np.isclose`), or is zero. -/
def NotTiny (k : ℚ) : Prop := k = 0 ∨ 1 / 100000000 < |k|

theorem closeZero_const {k : ℚ} (h : NotTiny k) : closeZero k = decide (k = 0) := by
  unfold closeZero isclose
  rw [decide_eq_decide]
  rcases h with rfl | h
  · simp
  · have hk : k ≠ 0 := by rintro rfl; norm_num at h
    simp only [hk, iff_false, not_le, abs_zero, mul_zero, add_zero, sub_zero]
    exact h

theorem filter_const {N : Type} (l : List N) (b : Bool) : (l.filter fun _ => b).length = if b then l.length else 0 := by
  cases b <;> simp

theorem pyInv2_const {k : ℚ} (h : NotTiny k) (xsi eta : ℚ) : pyInv2 xsi eta (fun _ _ => k) = k := by
  unfold pyInv2
  simp only [closeZero_const h, filter_const]
  by_cases hk : k = 0
  · simp [hk, nodes2]
  · simp only [hk, decide_false, Bool.false_eq_true, if_false]
    simpa using bilin_const xsi eta k

theorem pyInv3_const {k : ℚ} (h : NotTiny k) (xsi eta zeta : ℚ) : pyInv3 xsi eta zeta (fun _ _ _ => k) = k := by
  unfold pyInv3
  simp only [closeZero_const h, filter_const]
  by_cases hk : k = 0
  · simp [hk, nodes3]
  · simp only [hk, decide_false, Bool.false_eq_true, if_false]
    simpa using trilin_const xsi eta zeta k

theorem cInv2_const (k xsi eta : ℚ) : cInv2 xsi eta (fun _ _ => k) = k := by
  unfold cInv2 cZero
  simp only [filter_const]
  by_cases hk : k = 0
  · simp [hk, nodes2]
  · simp only [hk, decide_false, Bool.false_eq_true, if_false, if_true]
    exact bilin_const xsi eta k

theorem cInv3_const (k xsi eta zeta : ℚ) : cInv3 xsi eta zeta (fun _ _ _ => k) = k := by
  unfold cInv3 cZero
  simp only [filter_const]
  by_cases hk : k = 0
  · simp [hk, nodes3]
  · simp only [hk, decide_false, Bool.false_eq_true, if_false, if_true]
    exact trilin_const xsi eta zeta k

/-- A field with the same value at all nodes of all snapshots. -/
def Uniform (f : FieldData) (k : ℚ) : Prop := ∀ i a b c, (f.data i).v a b c = k

theorem spatial_const {f : FieldData} {k : ℚ} (hu : Uniform f k) (hm : f.method = .invdist → NotTiny k)
    (hix : f.grid.depth.length ≤ 1 ∨ f.indexing = .nemo ∨ f.indexing = .mitgcm) {x y z w : ℚ} {i : Nat}
    (h : spatial f x y z i = .ok w) : w = k := by
  unfold spatial sample at h
  cases hs : searchRect f.grid x y z with
  | error e => rw [hs] at h; simp at h
  | ok p =>
    rw [hs] at h
    have c2 : pyCell2 (f.data i) p = fun _ _ => k := by funext a b; exact hu i _ _ _
    have c3 : pyCell3 (f.data i) p = fun _ _ _ => k := by funext a b c; exact hu i _ _ _
    simp only [c2, c3] at h
    by_cases hz : f.grid.depth.length ≤ 1
    · rw [if_pos hz] at h
      revert h hm
      cases f.method <;> intro hm h <;> simp only [interp2D, Except.ok.injEq, bilin_const, reduceCtorEq] at h <;> try exact h.symm
      rw [pyInv2_const (hm rfl)] at h
      exact h.symm
    · rw [if_neg hz] at h
      have lin : ∀ m, linear3D m f.indexing p.zi f.grid.depth.length p.xsi p.eta p.zeta (fun _ _ _ => k) = k := by
        intro m
        have hp : f.indexing ≠ .pop ∧ f.indexing ≠ .mom5 := by
          rcases hix with h' | h' | h'
          · exact absurd h' hz
          · rw [h']; decide
          · rw [h']; decide
        unfold linear3D
        dsimp only
        rw [if_neg (by intro hc; exact hp.1 hc.1), if_neg (by intro hc; exact hp.2 hc.2.1)]
        simp only [bilin_const]
        ring
      revert h hm
      cases f.method <;> intro hm h <;> simp only [interp3D, lin] at h <;> try (simp only [Except.ok.injEq] at h; exact h.symm)
      · rw [pyInv3_const (hm rfl)] at h
        simp only [Except.ok.injEq] at h
        exact h.symm
      · rcases hix with h' | h' | h'
        · exact absurd h' hz
        · rw [h'] at h; simp only [Except.ok.injEq] at h; rw [← h]; ring
        · rw [h'] at h; simp only [Except.ok.injEq] at h; rw [← h]; ring

theorem cSample_const {f : FieldData} {k : ℚ} (hu : Uniform f k)
    (hix : f.grid.depth.length ≤ 1 ∨ f.indexing = .nemo ∨ f.indexing = .mitgcm) {x y z w : ℚ} {i xi yi zi : Nat}
    (h : cSample f.grid f.indexing f.method (f.data i) x y z xi yi zi = .ok w) : w = k := by
  unfold cSample at h
  cases hs : cSearchRect f.grid x y z xi yi zi with
  | error e => rw [hs] at h; simp at h
  | ok p =>
    rw [hs] at h
    have c2 : ∀ a b, cCell2 (f.data i) a b = fun _ _ => k := by intro a b; funext _ _; exact hu i _ _ _
    have c3 : ∀ a b c, cCell3 (f.data i) a b c = fun _ _ _ => k := by intro a b c; funext _ _ _; exact hu i _ _ _
    simp only [c2, c3] at h
    by_cases hz : f.grid.depth.length ≤ 1
    · rw [if_pos hz] at h
      simp only [Except.ok.injEq] at h
      rw [← h]
      cases f.method <;> simp only [cInterp2D, bilin_const, cInv2_const, ite_self]
    · rw [if_neg hz] at h
      simp only [Except.ok.injEq] at h
      have hp : f.indexing ≠ .pop ∧ f.indexing ≠ .mom5 := by
        rcases hix with h' | h' | h'
        · exact absurd h' hz
        · rw [h']; decide
        · rw [h']; decide
      simp only [hp.1, hp.2, decide_false, Bool.false_and] at h
      rw [← h]
      cases f.method <;> simp only [cInterp3D, cLinear3D, trilin_const, cInv3_const, ite_self, Bool.false_eq_true, if_false]

/-- C76 (Scipy): a field with the same value at all nodes and snapshots has this value wherever it can be sampled: on every rectilinear
grid, flat or spherical, at every position and time, with every method and time axis (extrapolated and periodic ones too).
Missing: POP and MOM5 indexing on grids with levels (false, `C76_pop_mom5_fails`); near land, values below 1e-8 (false, `C76_tiny_fails`). -/
theorem C76_uniform_scipy_partial (f : FieldData) (k : ℚ) (hu : Uniform f k) (hm : f.method = .invdist → NotTiny k)
    (hix : f.grid.depth.length ≤ 1 ∨ f.indexing = .nemo ∨ f.indexing = .mitgcm) (t z y x w : ℚ) (h : eval f t z y x = .ok w) :
    w = k := by
  unfold eval evalTime at h
  cases ht : timeIndex f.axis t with
  | error e => rw [ht] at h; simp at h
  | ok r =>
    rw [ht] at h
    dsimp only at h
    split_ifs at h
    · cases h0 : spatial f x y z (wrapIdx f.axis.time.length r.1) with
      | error e => rw [h0] at h; simp at h
      | ok a =>
        rw [h0] at h
        cases h1 : spatial f x y z (wrapIdx f.axis.time.length (r.1 + 1)) with
        | error e => rw [h1] at h; simp at h
        | ok b =>
          rw [h1] at h
          simp only [Except.ok.injEq] at h
          rw [← h, spatial_const hu hm hix h0, spatial_const hu hm hix h1]
          ring
    · cases h0 : spatial f x y z (wrapIdx f.axis.time.length r.1) with
      | error e => rw [h0] at h; simp at h
      | ok a =>
        rw [h0] at h
        simp only [Except.ok.injEq] at h
        rw [← h, spatial_const hu hm hix h0]

/-- C76 (JIT): the same, wherever the particle was before. Missing: POP and MOM5 indexing on grids with levels. -/
theorem C76_uniform_jit_partial (f : FieldData) (k : ℚ) (hu : Uniform f k)
    (hix : f.grid.depth.length ≤ 1 ∨ f.indexing = .nemo ∨ f.indexing = .mitgcm) (fuel : Nat) (t z y x w : ℚ) (xi yi zi : Nat) (ti : ℤ)
    (h : cEval f fuel t z y x xi yi zi ti = some (.ok w)) : w = k := by
  unfold cEval cEvalTime at h
  split_ifs at h
  · simp at h
  cases ht : cSearchTime (f.axis.time.take f.axis.tdim) f.axis.periodic f.axis.fullMin f.axis.fullMax fuel t ti 0 with
  | none => rw [ht] at h; simp at h
  | some r =>
    rw [ht] at h
    dsimp only at h
    cases h0 : cSample f.grid f.indexing f.method (f.data r.2.1) x y z xi yi zi with
    | error e => rw [h0] at h; simp at h
    | ok a =>
      rw [h0] at h
      dsimp only at h
      cases hb : (decide (r.2.1 < f.axis.tdim - 1) && decide (f.axis.time.getD r.2.1 0 < r.1)) with
      | true =>
        rw [hb] at h
        cases h1 : cSample f.grid f.indexing f.method (f.data (r.2.1 + 1)) x y z xi yi zi with
        | error e => rw [h1] at h; simp at h
        | ok b =>
          rw [h1] at h
          simp only [cond_true, Option.some.injEq, Except.ok.injEq] at h
          rw [← h, cSample_const hu hix h0, cSample_const hu hix h1]
          ring
      | false =>
        rw [hb] at h
        simp only [cond_false, Option.some.injEq, Except.ok.injEq] at h
        rw [← h, cSample_const hu hix h0]
        simp

/-- C76: a field made by `add_constant_field` can be sampled at every position and time, and has its value there; in both modes, on both
meshes, whatever cell and time index the particle has stored. -/
theorem C76_constant_field (k : ℚ) (spherical : Bool) (t z y x : ℚ) (fuel xi yi zi : Nat) (ti : ℤ) :
    eval (constantField k spherical) t z y x = .ok k ∧
    cEval (constantField k spherical) (fuel + 1) t z y x xi yi zi ti = some (.ok k) := by
  have hu : Uniform (constantField k spherical) k := fun _ _ _ _ => rfl
  have hd : (constantField k spherical).grid.depth.length ≤ 1 := le_refl _
  have hs : ∀ i, spatial (constantField k spherical) x y z i = .ok k := by
    intro i
    have hsr : searchRect (constantField k spherical).grid x y z =
        .ok { xsi := 0, eta := 0, zeta := 0, xi := -1, yi := -1, zi := -1 } := by
      simp [searchRect, constantField, searchX, searchY, searchDepth, inUnit]
    have : ∃ w, spatial (constantField k spherical) x y z i = .ok w := by
      unfold spatial sample
      rw [hsr]
      simp only [if_pos hd]
      exact ⟨_, rfl⟩
    obtain ⟨w, hw⟩ := this
    rw [hw, spatial_const hu (fun h => by cases h) (Or.inl hd) hw]
  have hc : ∀ i, cSample (constantField k spherical).grid .nemo .linear ((constantField k spherical).data i) x y z xi yi zi = .ok k := by
    intro i
    have hsr : ∃ p, cSearchRect (constantField k spherical).grid x y z xi yi zi = .ok p := by
      simp [cSearchRect, constantField, cSearchX, cAxis, inUnit]
    obtain ⟨p, hp⟩ := hsr
    have : ∃ w, cSample (constantField k spherical).grid .nemo .linear ((constantField k spherical).data i) x y z xi yi zi = .ok w := by
      unfold cSample
      rw [hp]
      simp only [if_pos hd]
      exact ⟨_, rfl⟩
    obtain ⟨w, hw⟩ := this
    rw [hw, cSample_const hu (Or.inl hd) (i := i) (x := x) (y := y) (z := z) (xi := xi) (yi := yi) (zi := zi) hw]
  constructor
  · have ht : timeIndex (constantField k spherical).axis t = .ok (0, 0) := by
      unfold timeIndex constantField TAxis.full
      by_cases h : (0 : ℚ) ≤ t <;> simp [h]
    unfold eval evalTime
    rw [ht]
    simp only [hs]
    rw [if_neg]
    intro h
    have := h.1
    simp [constantField, TAxis.full] at this
  · have ht : cSearchTime ((constantField k spherical).axis.time.take (constantField k spherical).axis.tdim)
        (constantField k spherical).axis.periodic (constantField k spherical).axis.fullMin (constantField k spherical).axis.fullMax
        (fuel + 1) t ti 0 = some (t, cWalk ltB [0] t (if ti < 0 then 0 else ti.toNat), 0) := by
      simp [cSearchTime, constantField, TAxis.full]
    unfold cEval cEvalTime
    rw [ht, if_neg (by simp [constantField, TAxis.full])]
    have hc' := hc (cWalk ltB [0] t (if ti < 0 then 0 else ti.toNat))
    have hax : (constantField k spherical).axis.tdim - 1 = 0 := rfl
    simp only [hax, Nat.not_lt_zero, decide_false, Bool.false_and, cond_false]
    have e1 : (constantField k spherical).indexing = .nemo := rfl
    have e2 : (constantField k spherical).method = .linear := rfl
    rw [e1, e2, hc']
    simp

/-! ### Examples and failures -/

/-- A field of 7 on a grid with levels, with two snapshots. -/
def exField (m : Method) (ix : Indexing) (k : ℚ) : FieldData where
  grid := { lon := [0, 1, 2], lat := [0, 1], depth := [5, 15, 25], spherical := false, zonalPeriodic := false, mom5 := decide (ix = .mom5) }
  axis := TAxis.full [0, 10] false false
  method := m
  indexing := ix
  data := fun _ => { nz := 3, ny := 2, nx := 3, v := fun _ _ _ => k }

example : ∀ m ∈ [Method.linear, .nearest, .invdist, .bgridVelocity, .bgridW, .bgridTracer, .cgridTracer, .cgridVelocity],
    eval (exField m .nemo 7) 5 8 (1 / 2) (3 / 2) = .ok 7 ∧ cEval (exField m .nemo 7) 3 5 8 (1 / 2) (3 / 2) 0 0 0 0 = some (.ok 7) := by
  decide +kernel

/-- C76 fails for POP indexing in the lowest layer, and for MOM5 indexing above the first level: a uniform field of 7 is 7/2 there
(linear interpolation; in both modes). -/
theorem C76_pop_mom5_fails :
    eval (exField .linear .pop 7) 0 20 0 0 = .ok (7 / 2) ∧ cEval (exField .linear .pop 7) 3 0 20 0 0 0 0 0 0 = some (.ok (7 / 2)) ∧
    cEval (exField .linear .mom5 7) 3 0 (5 / 2) 0 0 0 0 0 0 = some (.ok (7 / 2)) ∧
    eval (exField .bgridW .mom5 7) 0 (5 / 2) 0 0 = .ok (7 / 2) := by decide +kernel

/-- C76 fails in Scipy mode for small values of a field that is interpolated with inverse distances near land: 1e-9 counts as land and
becomes 0. In JIT mode it does not. -/
theorem C76_tiny_fails :
    eval (exField .invdist .nemo (1 / 1000000000)) 0 8 0 0 = .ok 0 ∧
    cEval (exField .invdist .nemo (1 / 1000000000)) 3 0 8 0 0 0 0 0 0 = some (.ok (1 / 1000000000)) := by decide +kernel

end Parcels.ConstField
