import Verif.Spec.CurviS
import Verif.Proofs.CurviField
import Verif.Props.SLevels

/-!
Lemmas for sampling on curvilinear grids with s-levels.
-/

namespace Parcels.CurviS
open Parcels.Search Parcels.Interp Parcels.TimeInterp Parcels.SLevels

/-! ### The columns do not depend on the horizontal axes -/

/-- An axis of whole numbers, to use the lemmas about rectilinear grids. -/
def stair (n : Nat) : List ℚ := (List.range (n + 2)).map fun i : Nat => (i : ℚ)

theorem stair_inc (n : Nat) : Increasing (stair n) := by
  unfold Increasing stair
  rw [List.pairwise_map]
  exact List.Pairwise.imp (fun h => by exact_mod_cast h) List.pairwise_lt_range

theorem stair_locates (n : Nat) {r : ℚ} (h0 : 0 ≤ r) (h1 : r ≤ 1) : Locates (stair n) (n + r) (n : ℤ) r := by
  refine ⟨n, n, n + 1, rfl, ?_, ?_, h0, h1, by ring⟩
  · simp [stair]
  · simp [stair]

/-- The grid with stairs as axes. -/
def stairGrid (g : SGrid) (m n : Nat) : SGrid :=
  { g with hor := { lon := stair n, lat := stair m, depth := [], spherical := false, zonalPeriodic := false, mom5 := false } }

theorem stair_flat (g : SGrid) (m n : Nat) : FlatGrid (stairGrid g m n).hor :=
  { flat := rfl, noHalo := rfl, lonInc := stair_inc n, latInc := stair_inc m, lonLen := by simp [stairGrid, stair], latLen := by simp [stairGrid, stair] }

theorem pyColumn_two' {g : SGrid} {T : List ℚ} (hnd : g.z4d = true → g.ndep = T.length) {t : ℚ} {n0 : Nat}
    (hn1 : n0 + 1 < T.length) (h1 : T.getD n0 0 < t) (h2 : t < T.getD (n0 + 1) 0) (ti : ℤ) (hti : ti = n0 ∨ ti = n0 + 1)
    {n m : Nat} {r s : ℚ} (hr : 0 ≤ r ∧ r ≤ 1) (hs : 0 ≤ s ∧ s ≤ 1) :
    pyColumn g T .linear ti t n m r s =
      .ok (g.levels n0 ((t - T.getD n0 0) / (T.getD (n0 + 1) 0 - T.getD n0 0)) m n s r) :=
  pyColumn_two (g := stairGrid g m n) (stair_flat g m n) hnd hn1 h1 h2 ti hti (stair_locates n hr.1 hr.2) (stair_locates n hr.1 hr.2)
    (stair_locates m hs.1 hs.2) (stair_locates m hs.1 hs.2)

theorem pyColumn_one' {g : SGrid} {T : List ℚ} (hT : Increasing T) (hnd : g.z4d = true → g.ndep = T.length) {n0 : Nat}
    (hn : n0 < T.length) {n m : Nat} {r s : ℚ} (hr : 0 ≤ r ∧ r ≤ 1) (hs : 0 ≤ s ∧ s ≤ 1) :
    pyColumn g T .linear n0 (T.getD n0 0) n m r s = .ok ((List.range g.zdim).map fun k => bilinearAt (g.depths n0) k m n s r) :=
  pyColumn_one (g := stairGrid g m n) (stair_flat g m n) hT hnd hn (stair_locates n hr.1 hr.2) (stair_locates n hr.1 hr.2)
    (stair_locates m hs.1 hs.2) (stair_locates m hs.1 hs.2)

theorem cColumn_two' {g : SGrid} {T : List ℚ} {t : ℚ} {n0 : Nat} (hn1 : n0 + 1 < T.length)
    {n m : Nat} {r s : ℚ} (hr : 0 ≤ r ∧ r ≤ 1) (hs : 0 ≤ s ∧ s ≤ 1) (t0 t1 : ℚ) :
    cColumn g T.length .linear n0 t t0 t1 n m r s = g.levels n0 ((t - t0) / (t1 - t0)) m n s r :=
  cColumn_two (g := stairGrid g m n) (stair_flat g m n) hn1 (stair_locates n hr.1 hr.2) (stair_locates n hr.1 hr.2)
    (stair_locates m hs.1 hs.2) (stair_locates m hs.1 hs.2) t0 t1

theorem cColumn_one' {g : SGrid} {T : List ℚ} {n0 : Nat} {n m : Nat} {r s : ℚ} (hr : 0 ≤ r ∧ r ≤ 1) (hs : 0 ≤ s ∧ s ≤ 1) (t0 t1 : ℚ) :
    cColumn g T.length .linear n0 t0 t0 t1 n m r s = (List.range g.zdim).map fun k => bilinearAt (g.depths n0) k m n s r :=
  cColumn_one (g := stairGrid g m n) (stair_flat g m n) (stair_locates n hr.1 hr.2) (stair_locates n hr.1 hr.2)
    (stair_locates m hs.1 hs.2) (stair_locates m hs.1 hs.2) t0 t1

/-! ### The weights of the snapshots -/

theorem lerp_determined {i n0 : Nat} {w w0 : ℚ} (h0 : 0 < w0) (h1 : w0 < 1)
    (h : ∀ v : Nat → ℚ, lerp w (v i) (v (i + 1)) = lerp w0 (v n0) (v (n0 + 1))) : i = n0 ∧ w = w0 := by
  have a := h fun j => if j = n0 then 1 else 0
  have b := h fun j => if j = n0 + 1 then 1 else 0
  simp only [lerp, if_true, if_neg (show ¬ n0 + 1 = n0 by omega), if_neg (show ¬ n0 = n0 + 1 by omega), Nat.add_right_cancel_iff] at a b
  by_cases hi : i = n0
  · subst hi
    simp only [if_true, if_neg (show ¬ i = i + 1 by omega)] at b
    exact ⟨rfl, by linarith⟩
  · exfalso
    simp only [if_neg hi] at a b
    by_cases hj : i + 1 = n0
    · rw [if_neg (show ¬ i = n0 + 1 by omega)] at b
      linarith
    · rw [if_neg hj] at a
      linarith

theorem levels_mono {f : CSField} (hf : WellFormed f) (i : Nat) {w : ℚ} (hw : 0 ≤ w ∧ w ≤ 1) (m n : Nat) {s r : ℚ} (hs : 0 ≤ s ∧ s ≤ 1)
    (hr : 0 ≤ r ∧ r ≤ 1) : Increasing (f.levels.levels i w m n s r) ∨ Decreasing (f.levels.levels i w m n s r) := by
  obtain ⟨h1, h2⟩ := C74_levels_ordered f.levels i w m n s r hw hs hr
  rcases hf.order with h | h
  · exact Or.inl (h1 fun u j c k k' hk => h _ _ _ _ _ hk)
  · exact Or.inr (h2 fun u j c k k' hk => h _ _ _ _ _ hk)

/-! ### The searches with the column at hand -/

/-- What both searches give. -/
structure Located (f : CSField) (x y z : ℚ) (col : Nat → Nat → ℚ → ℚ → List ℚ) (p : Pos) (k m n : Nat) : Prop where
  xi : p.xi = (n : ℤ)
  yi : p.yi = (m : ℤ)
  zi : p.zi = (k : ℤ)
  place : CurviField.Places f.grid x y m n p.xsi p.eta
  layer : Locates (col m n p.eta p.xsi) z (k : ℤ) p.zeta

theorem searchAll_ok {sqrt : ℚ → ℚ} (hs : Curvilinear.IsSqrt sqrt) {N : Nat} {f : CSField} {x y z : ℚ} {ti : ℤ} {time : ℚ}
    {xi yi : ℤ} {col : Nat → Nat → ℚ → ℚ → List ℚ}
    (hcol : ∀ m n r s, 0 ≤ r ∧ r ≤ 1 → 0 ≤ s ∧ s ≤ 1 →
      pyColumn f.levels f.axis.time f.method ti time (n : Nat) (m : Nat) r s = .ok (col m n s r) ∧
      (Increasing (col m n s r) ∨ Decreasing (col m n s r)) ∧ 2 ≤ (col m n s r).length)
    {p : Pos} (h : searchAll sqrt N f x y z ti time xi yi = .ok p) : ∃ k m n, Located f x y z col p k m n := by
  unfold searchAll at h
  cases hh : Curvilinear.search sqrt false N f.grid x y xi yi with
  | error e => rw [hh] at h; cases h
  | ok r =>
    rw [hh] at h
    dsimp only at h
    obtain ⟨m, n, e1, e2, hp⟩ := CurviField.horizontal hs hh
    obtain ⟨⟨i1, i2, i3, i4, i5, i6⟩, _⟩ := id hp
    obtain ⟨c1, c2, c3⟩ := hcol m n r.xsi r.eta ⟨i3, i4⟩ ⟨i5, i6⟩
    rw [e1, e2, c1] at h
    dsimp only at h
    obtain ⟨z1, z2, z3⟩ := C25_s_levels_scipy (col m n r.eta r.xsi) c2 c3 z
    by_cases b1 : BeforeFirst (col m n r.eta r.xsi) z
    · rw [z1 b1] at h; cases h
    by_cases b2 : BeyondLast (col m n r.eta r.xsi) z
    · rw [z2 b2] at h; cases h
    obtain ⟨i, t, e3, e4⟩ := z3 b1 b2
    rw [e3] at h
    dsimp only at h
    split at h
    · injection h with h
      subst h
      obtain ⟨k, hk, _⟩ := locates_nat e4
      exact ⟨k, m, n, rfl, rfl, hk, hp, hk ▸ e4⟩
    · cases h

theorem cSearchAll_ok {sqrt : ℚ → ℚ} (hs : Curvilinear.IsSqrt sqrt) {N : Nat} {f : CSField} {x y z : ℚ} {ti : Nat} {time t0 t1 : ℚ}
    {xi yi : ℤ} {zi : Nat} {col : Nat → Nat → ℚ → ℚ → List ℚ}
    (hcol : ∀ m n r s, 0 ≤ r ∧ r ≤ 1 → 0 ≤ s ∧ s ≤ 1 →
      cColumn f.levels f.axis.tdim f.method ti time t0 t1 n m r s = col m n s r ∧
      (Increasing (col m n s r) ∨ Decreasing (col m n s r)) ∧ 2 ≤ (col m n s r).length ∧ zi < (col m n s r).length)
    {p : Pos} (h : cSearchAll sqrt N f x y z xi yi zi ti time t0 t1 = .ok p) : ∃ k m n, Located f x y z col p k m n := by
  unfold cSearchAll at h
  cases hh : Curvilinear.search sqrt true N f.grid x y xi yi with
  | error e => rw [hh] at h; cases h
  | ok r =>
    rw [hh] at h
    dsimp only at h
    obtain ⟨m, n, e1, e2, hp⟩ := CurviField.horizontal hs hh
    obtain ⟨⟨i1, i2, i3, i4, i5, i6⟩, _⟩ := id hp
    obtain ⟨c1, c2, c3, c4⟩ := hcol m n r.xsi r.eta ⟨i3, i4⟩ ⟨i5, i6⟩
    rw [e1, e2, Int.toNat_natCast, Int.toNat_natCast, c1] at h
    obtain ⟨z1, z2, z3⟩ := C25_s_levels_jit (col m n r.eta r.xsi) c2 c3 z zi (by omega)
    by_cases b1 : BeforeFirst (col m n r.eta r.xsi) z
    · rw [z1 b1] at h; cases h
    by_cases b2 : BeyondLast (col m n r.eta r.xsi) z
    · rw [z2 b2] at h; cases h
    obtain ⟨i, t, e3, e4⟩ := z3 b1 b2
    rw [e3] at h
    dsimp only at h
    split at h
    · injection h with h
      subst h
      obtain ⟨k, hk, _⟩ := locates_nat e4
      exact ⟨k, m, n, rfl, rfl, hk, hp, hk ▸ e4⟩
    · cases h

/-! ### The values -/

theorem py_value {f : CSField} (hix : f.indexing = .nemo ∨ f.indexing = .mitgcm) {x y z : ℚ} {col : Nat → Nat → ℚ → ℚ → List ℚ}
    {p : Pos} {k m n : Nat} (h : Located f x y z col p k m n) (d : Arr) :
    interp3D .linear f.indexing p.zi f.levels.zdim p.xsi p.eta p.zeta (pyCell3 d p) = some (trilinearAt d k m n p.zeta p.eta p.xsi) := by
  have hc : pyCell3 d p = fun q j i => d.v (k + q) (m + j) (n + i) := by
    funext q j i
    unfold pyCell3 Arr.py
    rw [h.xi, h.yi, h.zi, wrap_nat_add, wrap_nat_add, wrap_nat_add]
  have n1 : ¬ (f.indexing = Indexing.pop ∧ (f.levels.zdim : ℤ) - 2 ≤ p.zi) := by
    rintro ⟨h, _⟩; rcases hix with h' | h' <;> rw [h'] at h <;> exact absurd h (by decide)
  simp only [interp3D, linear3D, if_neg n1, reduceCtorEq, if_false, false_and, hc, bilin_eq]
  unfold trilinearAt lerp
  simp only [Nat.add_zero]
  congr 1
  ring

theorem c_value {f : CSField} (hf : WellFormed f) (hm : f.method = .linear) (hix : f.indexing = .nemo ∨ f.indexing = .mitgcm)
    {x y z : ℚ} {col : Nat → Nat → ℚ → ℚ → List ℚ} {p : Pos} {k m n : Nat} (h : Located f x y z col p k m n) (i : Nat) :
    cValue f p i = trilinearAt (f.data i) k m n p.zeta p.eta p.xsi := by
  obtain ⟨s1, s2, s3⟩ := hf.shape i
  have nx : (f.data i).nx ≠ 1 := by have := hf.nx; omega
  have ny : (f.data i).ny ≠ 1 := by have := hf.ny; omega
  have nz : (f.data i).nz ≠ 1 := by have := hf.nz; omega
  have hc : cCell3 (f.data i) n m (k : ℤ) = fun q j l => (f.data i).v (k + q) (m + j) (n + l) := by
    funext q j l
    unfold cCell3
    rw [if_neg nx, if_neg ny, if_neg nz, Int.toNat_natCast]
  have i1 : decide (f.indexing = Indexing.mom5) = false := by rcases hix with h | h <;> rw [h] <;> decide
  have i2 : decide (f.indexing = Indexing.pop) = false := by rcases hix with h | h <;> rw [h] <;> decide
  unfold cValue
  simp only [hm, i1, i2, Bool.false_and, cInterp3D, cLinear3D, reduceCtorEq, or_self, if_false, Bool.false_eq_true, trilin, h.xi, h.yi,
    h.zi, Int.toNat_natCast, hc, bilin_eq]
  unfold trilinearAt lerp
  simp only [Nat.add_zero]
  ring

end Parcels.CurviS
