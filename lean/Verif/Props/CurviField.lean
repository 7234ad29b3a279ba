import Verif.Proofs.CurviField
import Mathlib.Data.Rat.Sqrt

/-!
C29, C30 and C76 on curvilinear grids with z levels.
-/

namespace Parcels.CurviField
open Parcels.Search Parcels.Interp Parcels.TimeInterp

variable (sqrt : ℚ → ℚ) (maxIter : Nat)

/-- C29 (Scipy, curvilinear grid without levels): a sample is the bilinear interpolation in the cell in which the position is. -/
theorem C29_curvilinear_scipy_2D (hs : Curvilinear.IsSqrt sqrt) (f : CField) (hf : WellFormed f) (hm5 : f.mom5 = false)
    (hm : f.method = .linear) (h2d : f.depth.length ≤ 1) (i : Nat) (x y z w : ℚ) (xi yi : ℤ)
    (h : sample sqrt maxIter f i x y z xi yi = .ok w) :
    ∃ m n r s, Places f.grid x y m n r s ∧ w = bilinearAt (f.data i) 0 m n s r := by
  unfold sample at h
  cases hh : searchAll sqrt maxIter f x y z xi yi with
  | error e => rw [hh] at h; cases h
  | ok p =>
    rw [hh] at h
    obtain ⟨m, n, hl⟩ := searchAll_ok hs hf hm5 hh
    refine ⟨m, n, p.xsi, p.eta, hl.place, ?_⟩
    simp only [if_pos h2d, hm, interp2D, pyCell2_eq hl] at h
    injection h with h
    rw [← h, bilin_eq]

/-- C29 (Scipy, curvilinear grid with levels): a sample is the trilinear interpolation in the cell and layer in which the position is.
Missing: POP and MOM5 indexing (false near the bottom and the surface, `C29_pop_lowest_layer`). -/
theorem C29_curvilinear_scipy_3D_partial (hs : Curvilinear.IsSqrt sqrt) (f : CField) (hf : WellFormed f) (hm5 : f.mom5 = false)
    (hm : f.method = .linear) (hix : f.indexing = .nemo ∨ f.indexing = .mitgcm) (h3d : 2 ≤ f.depth.length) (i : Nat)
    (x y z w : ℚ) (xi yi : ℤ) (h : sample sqrt maxIter f i x y z xi yi = .ok w) :
    ∃ k m n : Nat, ∃ t r s : ℚ, Places f.grid x y m n r s ∧ Locates f.depth z (k : ℤ) t ∧ w = trilinearAt (f.data i) k m n t s r := by
  unfold sample at h
  cases hh : searchAll sqrt maxIter f x y z xi yi with
  | error e => rw [hh] at h; cases h
  | ok p =>
    rw [hh] at h
    obtain ⟨m, n, hl⟩ := searchAll_ok hs hf hm5 hh
    have hz := hl.layer h3d
    obtain ⟨k, e3, _⟩ := locates_nat hz
    refine ⟨k, m, n, p.zeta, p.xsi, p.eta, hl.place, e3 ▸ hz, ?_⟩
    have n1 : ¬ (f.indexing = Indexing.pop ∧ (f.depth.length : ℤ) - 2 ≤ p.zi) := by
      rintro ⟨h, _⟩; rcases hix with h' | h' <;> rw [h'] at h <;> exact absurd h (by decide)
    simp only [if_neg (show ¬ f.depth.length ≤ 1 by omega), hm, interp3D, linear3D, if_neg n1, reduceCtorEq, if_false,
      false_and, pyCell3_eq hl e3, bilin_eq] at h
    injection h with h
    rw [← h]
    unfold trilinearAt lerp
    simp only [Nat.add_zero]
    ring

/-- C29 (JIT, curvilinear grid without levels). -/
theorem C29_curvilinear_jit_2D (hs : Curvilinear.IsSqrt sqrt) (f : CField) (hf : WellFormed f) (hm5 : f.mom5 = false)
    (hm : f.method = .linear) (h2d : f.depth.length ≤ 1) (i : Nat) (x y z w : ℚ) (xi yi : ℤ) (zi : Nat) (hz : zi ≤ f.depth.length - 1)
    (h : cSample sqrt maxIter f i x y z xi yi zi = .ok w) :
    ∃ m n r s, Places f.grid x y m n r s ∧ w = bilinearAt (f.data i) 0 m n s r := by
  unfold cSample at h
  cases hh : cSearchAll sqrt maxIter f x y z xi yi zi with
  | error e => rw [hh] at h; cases h
  | ok p =>
    rw [hh] at h
    obtain ⟨m, n, hl⟩ := cSearchAll_ok hs hf hm5 hz hh
    refine ⟨m, n, p.xsi, p.eta, hl.place, ?_⟩
    simp only [if_pos h2d, hm, cInterp2D, cCell2_eq hf hl] at h
    injection h with h
    rw [← h, bilin_eq]

/-- C29 (JIT, curvilinear grid with levels), whatever cell and level the particle was in before. Missing: POP and MOM5 indexing. -/
theorem C29_curvilinear_jit_3D_partial (hs : Curvilinear.IsSqrt sqrt) (f : CField) (hf : WellFormed f) (hm5 : f.mom5 = false)
    (hm : f.method = .linear) (hix : f.indexing = .nemo ∨ f.indexing = .mitgcm) (h3d : 2 ≤ f.depth.length) (i : Nat)
    (x y z w : ℚ) (xi yi : ℤ) (zi : Nat) (hz : zi ≤ f.depth.length - 1)
    (h : cSample sqrt maxIter f i x y z xi yi zi = .ok w) :
    ∃ k m n : Nat, ∃ t r s : ℚ, Places f.grid x y m n r s ∧ Locates f.depth z (k : ℤ) t ∧ w = trilinearAt (f.data i) k m n t s r := by
  unfold cSample at h
  cases hh : cSearchAll sqrt maxIter f x y z xi yi zi with
  | error e => rw [hh] at h; cases h
  | ok p =>
    rw [hh] at h
    obtain ⟨m, n, hl⟩ := cSearchAll_ok hs hf hm5 hz hh
    have hz := hl.layer h3d
    obtain ⟨k, e3, _⟩ := locates_nat hz
    refine ⟨k, m, n, p.zeta, p.xsi, p.eta, hl.place, e3 ▸ hz, ?_⟩
    have i1 : decide (f.indexing = Indexing.mom5) = false := by rcases hix with h | h <;> rw [h] <;> decide
    have i2 : decide (f.indexing = Indexing.pop) = false := by rcases hix with h | h <;> rw [h] <;> decide
    simp only [if_neg (show ¬ f.depth.length ≤ 1 by omega), hm, i1, i2, Bool.false_and, cInterp3D, cLinear3D, reduceCtorEq, or_self,
      if_false, Bool.false_eq_true, trilin, e3, cCell3_eq hf h3d hl, bilin_eq] at h
    injection h with h
    rw [← h]
    unfold trilinearAt lerp
    simp only [Nat.add_zero]
    ring

/-- C29: on a curvilinear flat mesh a function that is linear in position is reproduced exactly in a cell, and so is its product with
a function that is linear in depth. (Between these: `C29_between_2D` and `C29_between_3D` hold for all cells.) -/
theorem C29_curvilinear_exact (g : Curvilinear.CGrid ℚ) (hflat : g.spherical = false) (depth : List ℚ) (d : Arr) (p q c a b : ℚ)
    (x y z : ℚ) (m n k : Nat) (r s t : ℚ) (hat : Curvilinear.At (cellNear g m n x) x y r s) :
    ((∀ j i, d.v 0 j i = p * g.lon j i + q * g.lat j i + c) → bilinearAt d 0 m n s r = p * x + q * y + c) ∧
    ((∀ l e, depth[l]? = some e → ∀ j i, d.v l j i = (p * g.lon j i + q * g.lat j i + c) * (a + b * e)) →
      Locates depth z (k : ℤ) t → trilinearAt d k m n t s r = (p * x + q * y + c) * (a + b * z)) := by
  obtain ⟨ex, ey⟩ := hat
  unfold cellNear Curvilinear.shift at ex ey
  rw [hflat] at ex ey
  simp only [cond_false, Curvilinear.bilinX, Curvilinear.bilinY, Curvilinear.corners, Int.toNat_natCast] at ex ey
  constructor
  · intro hd
    unfold bilinearAt lerp
    simp only [hd]
    rw [← ex, ← ey]
    ring
  · rintro hd ⟨k', e0, e1, hk, h0, h1, -, -, ez⟩
    obtain rfl : k = k' := by exact_mod_cast hk
    unfold trilinearAt bilinearAt lerp
    simp only [hd _ _ h0, hd _ _ h1]
    rw [← ex, ← ey, ez]
    ring

/-- Data that are linear in position and the same in all snapshots; with levels, times a function linear in depth. -/
def Steady (f : CField) (p q c a b : ℚ) : Prop :=
  (f.depth.length ≤ 1 → ∀ t j i, (f.data t).v 0 j i = p * f.grid.lon j i + q * f.grid.lat j i + c) ∧
  (2 ≤ f.depth.length → ∀ t l e, f.depth[l]? = some e → ∀ j i,
    (f.data t).v l j i = (p * f.grid.lon j i + q * f.grid.lat j i + c) * (a + b * e))

/-- The value of the function of `Steady` at a position. -/
def steadyValue (f : CField) (p q c a b x y z : ℚ) : ℚ :=
  if f.depth.length ≤ 1 then p * x + q * y + c else (p * x + q * y + c) * (a + b * z)

/-- C29 (Scipy): sampling such a field on a flat curvilinear mesh gives the value of the function at the position, at every time at which
the field can be sampled, wherever the searches begin. -/
theorem C29_curvilinear_linear_scipy_partial (hs : Curvilinear.IsSqrt sqrt) (f : CField) (hf : WellFormed f) (hm5 : f.mom5 = false)
    (hm : f.method = .linear) (hix : f.indexing = .nemo ∨ f.indexing = .mitgcm) (hflat : f.grid.spherical = false) (p q c a b : ℚ)
    (hd : Steady f p q c a b) (t z y x w : ℚ) (haway : AwayFromEdges f.grid x y) (start : Nat → ℤ × ℤ)
    (h : eval sqrt maxIter f t z y x start = .ok w) : w = steadyValue f p q c a b x y z := by
  refine evalTime_const (fun i v hv => ?_) h
  unfold steadyValue
  by_cases h2 : f.depth.length ≤ 1
  · rw [if_pos h2]
    obtain ⟨m, n, r, s, hp, rfl⟩ := C29_curvilinear_scipy_2D sqrt maxIter hs f hf hm5 hm h2 i x y z v _ _ hv
    exact (C29_curvilinear_exact f.grid hflat f.depth (f.data i) p q c a b x y z m n 0 r s 0 (at_of_places haway hp)).1 (hd.1 h2 i)
  · rw [if_neg h2]
    obtain ⟨k, m, n, u, r, s, hp, hl, rfl⟩ := C29_curvilinear_scipy_3D_partial sqrt maxIter hs f hf hm5 hm hix (by omega) i x y z v _ _ hv
    exact (C29_curvilinear_exact f.grid hflat f.depth (f.data i) p q c a b x y z m n k r s u (at_of_places haway hp)).2
      (hd.2 (by omega) i) hl

/-- C29 (JIT): the same, wherever the particle was before. -/
theorem C29_curvilinear_linear_jit_partial (hs : Curvilinear.IsSqrt sqrt) (f : CField) (hf : WellFormed f) (hm5 : f.mom5 = false)
    (hm : f.method = .linear) (hix : f.indexing = .nemo ∨ f.indexing = .mitgcm) (hflat : f.grid.spherical = false) (p q c a b : ℚ)
    (hd : Steady f p q c a b) (fuel : Nat) (t z y x w : ℚ) (haway : AwayFromEdges f.grid x y) (xi yi : ℤ) (zi : Nat)
    (hz : zi ≤ f.depth.length - 1) (ti : ℤ) (h : cEval sqrt maxIter f fuel t z y x xi yi zi ti = some (.ok w)) :
    w = steadyValue f p q c a b x y z := by
  refine cEvalTime_const (fun i v hv => ?_) h
  unfold steadyValue
  by_cases h2 : f.depth.length ≤ 1
  · rw [if_pos h2]
    obtain ⟨m, n, r, s, hp, rfl⟩ := C29_curvilinear_jit_2D sqrt maxIter hs f hf hm5 hm h2 i x y z v _ _ zi hz hv
    exact (C29_curvilinear_exact f.grid hflat f.depth (f.data i) p q c a b x y z m n 0 r s 0 (at_of_places haway hp)).1 (hd.1 h2 i)
  · rw [if_neg h2]
    obtain ⟨k, m, n, u, r, s, hp, hl, rfl⟩ := C29_curvilinear_jit_3D_partial sqrt maxIter hs f hf hm5 hm hix (by omega) i x y z v _ _ zi hz hv
    exact (C29_curvilinear_exact f.grid hflat f.depth (f.data i) p q c a b x y z m n k r s u (at_of_places haway hp)).2
      (hd.2 (by omega) i) hl

/-- C30 (Scipy, curvilinear grid): sampling at the nearest point returns the value of the node of the cell that is nearest in relative
coordinates, and of the nearer level of the layer. -/
theorem C30_curvilinear_scipy_partial (hs : Curvilinear.IsSqrt sqrt) (f : CField) (hf : WellFormed f) (hm5 : f.mom5 = false)
    (hm : f.method = .nearest) (i : Nat) (x y z w : ℚ) (xi yi : ℤ)
    (h : sample sqrt maxIter f i x y z xi yi = .ok w) :
    ∃ m n b c : Nat, ∃ r s : ℚ, Places f.grid x y m n r s ∧ NearSide r b ∧ NearSide s c ∧
      (f.depth.length ≤ 1 → w = (f.data i).v 0 (m + c) (n + b)) ∧
      (2 ≤ f.depth.length → ∃ k a : Nat, ∃ t : ℚ, Locates f.depth z (k : ℤ) t ∧ NearSide t a ∧ w = (f.data i).v (k + a) (m + c) (n + b)) := by
  unfold sample at h
  cases hh : searchAll sqrt maxIter f x y z xi yi with
  | error e => rw [hh] at h; cases h
  | ok p =>
    rw [hh] at h
    obtain ⟨m, n, hl⟩ := searchAll_ok hs hf hm5 hh
    have side : ∀ t : ℚ, NearSide t (if t ≤ 1 / 2 then 0 else 1) := by
      intro t
      split_ifs with ht
      · exact Or.inl ⟨rfl, ht⟩
      · exact Or.inr ⟨rfl, (not_le.mp ht).le⟩
    refine ⟨m, n, _, _, p.xsi, p.eta, hl.place, side p.xsi, side p.eta, ?_, ?_⟩
    · intro h2d
      simp only [if_pos h2d, hm, interp2D, pyCell2_eq hl] at h
      injection h with h
      exact h.symm
    · intro h3d
      have hz := hl.layer h3d
      obtain ⟨k, e3, _⟩ := locates_nat hz
      refine ⟨k, _, p.zeta, e3 ▸ hz, side p.zeta, ?_⟩
      simp only [if_neg (show ¬ f.depth.length ≤ 1 by omega), hm, interp3D, pyCell3_eq hl e3] at h
      injection h with h
      exact h.symm

/-- C30 (JIT, curvilinear grid), whatever cell and level the particle was in before. Missing: POP indexing on grids with levels
(false, `C30_pop_lowest_layer`). -/
theorem C30_curvilinear_jit_partial (hs : Curvilinear.IsSqrt sqrt) (f : CField) (hf : WellFormed f) (hm5 : f.mom5 = false)
    (hm : f.method = .nearest) (hix : f.indexing ≠ .pop) (i : Nat) (x y z w : ℚ) (xi yi : ℤ) (zi : Nat) (hz : zi ≤ f.depth.length - 1)
    (h : cSample sqrt maxIter f i x y z xi yi zi = .ok w) :
    ∃ m n b c : Nat, ∃ r s : ℚ, Places f.grid x y m n r s ∧ NearSide r b ∧ NearSide s c ∧
      (f.depth.length ≤ 1 → w = (f.data i).v 0 (m + c) (n + b)) ∧
      (2 ≤ f.depth.length → ∃ k a : Nat, ∃ t : ℚ, Locates f.depth z (k : ℤ) t ∧ NearSide t a ∧ w = (f.data i).v (k + a) (m + c) (n + b)) := by
  unfold cSample at h
  cases hh : cSearchAll sqrt maxIter f x y z xi yi zi with
  | error e => rw [hh] at h; cases h
  | ok p =>
    rw [hh] at h
    obtain ⟨m, n, hl⟩ := cSearchAll_ok hs hf hm5 hz hh
    have side : ∀ t : ℚ, NearSide t (if t < 1 / 2 then 0 else 1) := by
      intro t
      split_ifs with ht
      · exact Or.inl ⟨rfl, ht.le⟩
      · exact Or.inr ⟨rfl, not_lt.mp ht⟩
    refine ⟨m, n, _, _, p.xsi, p.eta, hl.place, side p.xsi, side p.eta, ?_, ?_⟩
    · intro h2d
      simp only [if_pos h2d, hm, cInterp2D, cCell2_eq hf hl] at h
      injection h with h
      exact h.symm
    · intro h3d
      have hz := hl.layer h3d
      obtain ⟨k, e3, _⟩ := locates_nat hz
      refine ⟨k, _, p.zeta, e3 ▸ hz, side p.zeta, ?_⟩
      have htop : decide ((k : ℤ) = -1) = false := decide_eq_false (by omega)
      simp only [if_neg (show ¬ f.depth.length ≤ 1 by omega), hm, e3, htop, Bool.and_false, hix, decide_false, Bool.false_and,
        Bool.false_eq_true, if_false, cInterp3D, cCell3_eq hf h3d hl] at h
      injection h with h
      exact h.symm

/-- C76 (Scipy, curvilinear grid): a field with the same value at all nodes and snapshots has this value wherever it can be sampled, with
every method and time axis, wherever the search begins. Missing, as on rectilinear grids: POP and MOM5 indexing with levels, and values
below 1e-8 near land. -/
theorem C76_curvilinear_scipy_partial (f : CField) (k : ℚ) (hu : Uniform f k) (hm : f.method = .invdist → ConstField.NotTiny k)
    (hix : f.depth.length ≤ 1 ∨ f.indexing = .nemo ∨ f.indexing = .mitgcm) (t z y x w : ℚ) (start : Nat → ℤ × ℤ)
    (h : eval sqrt maxIter f t z y x start = .ok w) : w = k :=
  evalTime_const (fun _ _ hv => sample_const hu hm hix hv) h

/-- C76 (JIT, curvilinear grid): the same, wherever the particle was before. -/
theorem C76_curvilinear_jit_partial (f : CField) (k : ℚ) (hu : Uniform f k)
    (hix : f.depth.length ≤ 1 ∨ f.indexing = .nemo ∨ f.indexing = .mitgcm) (fuel : Nat) (t z y x w : ℚ) (xi yi : ℤ) (zi : Nat) (ti : ℤ)
    (h : cEval sqrt maxIter f fuel t z y x xi yi zi ti = some (.ok w)) : w = k :=
  cEvalTime_const (fun _ _ hv => cSample_const hu hix hv) h

/-! ### Examples -/

/-- A sheared grid of 2 x 2 cells with three levels, two snapshots. -/
def exSheared (m : Method) (v : Nat → Nat → Nat → Nat → ℚ) : CField where
  grid := { xdim := 3, ydim := 3, lon := fun j i => i + 3 * j, lat := fun j _ => j, spherical := false, zonalPeriodic := false }
  depth := [5, 15, 25]
  mom5 := false
  axis := TAxis.full [0, 10] false false
  method := m
  indexing := .nemo
  data := fun i => { nz := 3, ny := 3, nx := 3, v := v i }

/-- Its data: (2 lon + 3 lat + 1)(1 + depth) in both snapshots. -/
def exLinear (_ k j i : Nat) : ℚ := (2 * (i + 3 * j) + 3 * j + 1) * (1 + (5 + 10 * k))

example (m : Method) (v : Nat → Nat → Nat → Nat → ℚ) : WellFormed (exSheared m v) :=
  ⟨by simp [exSheared], by simp [exSheared], Or.inl (by norm_num [exSheared, Increasing]), fun _ => ⟨rfl, rfl, rfl⟩⟩

example : sample Rat.sqrt 100 (exSheared .linear exLinear) 0 (8 / 5) (9 / 20) 8 0 0 = .ok ((2 * (8 / 5) + 3 * (9 / 20) + 1) * 9) ∧
    cSample Rat.sqrt 100 (exSheared .linear exLinear) 0 (8 / 5) (9 / 20) 8 0 0 2 = .ok ((2 * (8 / 5) + 3 * (9 / 20) + 1) * 9) := by
  decide +kernel

example : ∀ m ∈ [Method.linear, .nearest, .invdist, .bgridVelocity, .bgridW, .bgridTracer, .cgridTracer, .cgridVelocity],
    eval Rat.sqrt 100 (exSheared m fun _ _ _ _ => 7) 5 8 (9 / 20) (8 / 5) (fun _ => (0, 0)) = .ok 7 ∧
    cEval Rat.sqrt 100 (exSheared m fun _ _ _ _ => 7) 3 5 8 (9 / 20) (8 / 5) 0 0 0 0 = some (.ok 7) := by
  decide +kernel

theorem exCell (m n : Nat) (x : ℚ) : cellNear (exSheared .linear exLinear).grid m n x =
    { x0 := n + 3 * m, x1 := n + 1 + 3 * m, x2 := n + 1 + 3 * (m + 1), x3 := n + 3 * (m + 1), y0 := m, y1 := m, y2 := m + 1, y3 := m + 1 } := by
  simp [cellNear, Curvilinear.shift, exSheared, Curvilinear.corners]

/-- The provisos hold in every cell of this grid, and the position of the examples is away from the edges. -/
example : AwayFromEdges (exSheared .linear exLinear).grid (8 / 5) (9 / 20) := by
  have iff : ∀ (m n : Nat) (a b : ℚ), Curvilinear.At (cellNear (exSheared .linear exLinear).grid m n (8 / 5)) (8 / 5) (9 / 20) a b ↔
      a = 1 / 4 - n ∧ b = 9 / 20 - m := by
    intro m n a b
    rw [exCell]
    have ex : Curvilinear.bilinX ({ x0 := n + 3 * m, x1 := n + 1 + 3 * m, x2 := n + 1 + 3 * (m + 1), x3 := n + 3 * (m + 1), y0 := m, y1 := m, y2 := m + 1, y3 := m + 1 } : Curvilinear.Cell ℚ) a b = n + 3 * m + a + 3 * b := by
      unfold Curvilinear.bilinX; ring
    have ey : Curvilinear.bilinY ({ x0 := n + 3 * m, x1 := n + 1 + 3 * m, x2 := n + 1 + 3 * (m + 1), x3 := n + 3 * (m + 1), y0 := m, y1 := m, y2 := m + 1, y3 := m + 1 } : Curvilinear.Cell ℚ) a b = m + b := by
      unfold Curvilinear.bilinY; ring
    unfold Curvilinear.At
    rw [ex, ey]
    constructor
    · rintro ⟨h1, h2⟩; constructor <;> linarith
    · rintro ⟨rfl, rfl⟩; constructor <;> ring
  intro m n _ _
  refine ⟨⟨?_, ⟨_, _, (iff m n _ _).mpr ⟨rfl, rfl⟩, ?_⟩, ?_⟩, ?_⟩
  · rw [exCell]; left; unfold Curvilinear.sideCross; ring
  · rw [exCell]
    unfold Curvilinear.jacobian
    ring_nf
    norm_num
  · intro eta _ _
    rw [exCell]
    have : Curvilinear.chord ({ x0 := n + 3 * m, x1 := n + 1 + 3 * m, x2 := n + 1 + 3 * (m + 1), x3 := n + 3 * (m + 1), y0 := m, y1 := m, y2 := m + 1, y3 := m + 1 } : Curvilinear.Cell ℚ) eta = 1 := by
      unfold Curvilinear.chord; ring
    rw [this]
    norm_num [Curvilinear.tiny]
  · rintro a b ⟨hat, h1, -, h3, -⟩
    obtain ⟨rfl, rfl⟩ := (iff m n a b).mp hat
    have ht : (Curvilinear.tol : ℚ) < 1 / 2 := by norm_num [Curvilinear.tol]
    have hn : n = 0 := by
      by_contra hne
      have : (1 : ℚ) ≤ n := by exact_mod_cast Nat.one_le_iff_ne_zero.mpr hne
      linarith
    have hm : m = 0 := by
      by_contra hne
      have : (1 : ℚ) ≤ m := by exact_mod_cast Nat.one_le_iff_ne_zero.mpr hne
      linarith
    subst hn hm
    norm_num

example : Steady (exSheared .linear exLinear) 2 3 1 1 1 := by
  refine ⟨fun h => absurd h (by simp [exSheared]), fun _ t l e he j i => ?_⟩
  have hl : e = 5 + 10 * (l : ℚ) := by
    match l, he with
    | 0, he => simp [exSheared] at he; rw [← he]; norm_num
    | 1, he => simp [exSheared] at he; rw [← he]; norm_num
    | 2, he => simp [exSheared] at he; rw [← he]; norm_num
    | _ + 3, he => simp [exSheared] at he
  simp only [exSheared, exLinear, hl, one_mul]

example : eval Rat.sqrt 100 (exSheared .linear exLinear) 5 8 (9 / 20) (8 / 5) (fun _ => (1, 1)) =
    .ok (steadyValue (exSheared .linear exLinear) 2 3 1 1 1 (8 / 5) (9 / 20) 8) := by decide +kernel

/-- C30 fails for the nearest point in space: on a sheared grid the value of the node (0, 0) is returned at (8/5, 9/20), although the
node (1, 0) is nearer. -/
theorem C30_curvilinear_distance_fails :
    let f := exSheared .nearest fun _ _ j i => 10 * j + i
    sample Rat.sqrt 100 f 0 (8 / 5) (9 / 20) 8 0 0 = .ok 0 ∧ cSample Rat.sqrt 100 f 0 (8 / 5) (9 / 20) 8 0 0 0 = .ok 0 ∧
    (8 / 5 - f.grid.lon 0 1) ^ 2 + (9 / 20 - f.grid.lat 0 1) ^ 2 < (8 / 5 - f.grid.lon 0 0) ^ 2 + (9 / 20 - f.grid.lat 0 0) ^ 2 := by
  decide +kernel

end Parcels.CurviField
