import Verif.Spec.CurviField
import Verif.Proofs.Curvilinear
import Verif.Props.Curvilinear
import Verif.Props.Search
import Verif.Props.Interp
import Verif.Props.ConstField

/-!
Lemmas for sampling on curvilinear grids.
-/

namespace Parcels.CurviField
open Parcels.Search Parcels.Interp Parcels.TimeInterp

/-- What both searches give: a cell, relative coordinates, and the layer. -/
structure Located (f : CField) (x y z : ℚ) (p : Pos) (m n : Nat) : Prop where
  xi : p.xi = (n : ℤ)
  yi : p.yi = (m : ℤ)
  place : Places f.grid x y m n p.xsi p.eta
  layer : 2 ≤ f.depth.length → Locates f.depth z p.zi p.zeta

theorem horizontal {sqrt : ℚ → ℚ} (hs : Curvilinear.IsSqrt sqrt) {jit : Bool} {k : Nat} {g : Curvilinear.CGrid ℚ} {x y : ℚ}
    {xi yi : ℤ} {r : Curvilinear.Found ℚ} (h : Curvilinear.search sqrt jit k g x y xi yi = .ok r) :
    ∃ m n : Nat, r.xi = (n : ℤ) ∧ r.yi = (m : ℤ) ∧ Places g x y m n r.xsi r.eta := by
  obtain ⟨s, c, old, -, hc, -, -, h1, h2⟩ := Curvilinear.search_ok h
  obtain ⟨v1, v2, v3, v4⟩ := Curvilinear.cellAt_valid hc
  obtain ⟨n, hn⟩ := Int.eq_ofNat_of_zero_le v1
  obtain ⟨m, hm⟩ := Int.eq_ofNat_of_zero_le v3
  refine ⟨m, n, hn, hm, ⟨by omega, by omega, (Curvilinear.clamp_range h1).1, (Curvilinear.clamp_range h1).2,
    (Curvilinear.clamp_range h2).1, (Curvilinear.clamp_range h2).2⟩, ?_⟩
  intro hb
  have q := Curvilinear.C27_position_partial sqrt hs jit k g x y xi yi r h
  simp only [hn, hm] at q
  obtain ⟨a, b, q1, q2, q3, q4, q5, q6, q7⟩ := q hb.1 hb.2.1 hb.2.2
  exact ⟨a, b, ⟨q1, q2, q3, q4, q5⟩, q6, q7⟩

theorem clamp_unit {a : ℚ} (h0 : 0 ≤ a) (h1 : a ≤ 1) : min 1 (max 0 a) = a := by
  rw [max_eq_right h0, min_eq_right h1]

theorem at_of_places {g : Curvilinear.CGrid ℚ} {x y : ℚ} (ha : AwayFromEdges g x y) {m n : Nat} {r s : ℚ} (h : Places g x y m n r s) :
    Curvilinear.At (cellNear g m n x) x y r s := by
  obtain ⟨⟨h1, h2, -⟩, h3⟩ := h
  obtain ⟨hb, he⟩ := ha m n h1 h2
  obtain ⟨a, b, hab, rfl, rfl⟩ := h3 hb
  obtain ⟨a0, a1, b0, b1⟩ := he a b hab
  rw [clamp_unit a0 a1, clamp_unit b0 b1]
  exact hab.1

theorem not_lt_two {l : List ℚ} (h : ¬ 1 < l.length) (h' : 2 ≤ l.length) : False := by omega

theorem searchAll_ok {sqrt : ℚ → ℚ} (hs : Curvilinear.IsSqrt sqrt) {k : Nat} {f : CField} (hf : WellFormed f) (hm5 : f.mom5 = false)
    {x y z : ℚ} {xi yi : ℤ} {p : Pos} (h : searchAll sqrt k f x y z xi yi = .ok p) : ∃ m n, Located f x y z p m n := by
  unfold searchAll at h
  cases hh : Curvilinear.search sqrt false k f.grid x y xi yi with
  | error e => rw [hh] at h; cases h
  | ok r =>
    rw [hh] at h
    dsimp only at h
    obtain ⟨m, n, e1, e2, hp⟩ := horizontal hs hh
    refine ⟨m, n, ?_⟩
    by_cases hd : 1 < f.depth.length
    · rw [if_pos hd, hm5] at h
      obtain ⟨z1, z2, z3⟩ := C25_z_levels_scipy f.depth hf.depth hd z
      by_cases b1 : BeforeFirst f.depth z
      · rw [z1 b1] at h; cases h
      by_cases b2 : BeyondLast f.depth z
      · rw [z2 b2] at h; cases h
      obtain ⟨i, t, e3, e4⟩ := z3 b1 b2
      rw [e3] at h
      dsimp only at h
      split at h
      · injection h with h
        subst h
        exact ⟨e1, e2, hp, fun _ => e4⟩
      · cases h
    · rw [if_neg hd] at h
      dsimp only at h
      split at h
      · injection h with h
        subst h
        exact ⟨e1, e2, hp, fun h' => (not_lt_two hd h').elim⟩
      · cases h

theorem cSearchAll_ok {sqrt : ℚ → ℚ} (hs : Curvilinear.IsSqrt sqrt) {k : Nat} {f : CField} (hf : WellFormed f) (hm5 : f.mom5 = false)
    {x y z : ℚ} {xi yi : ℤ} {zi : Nat} (hz : zi ≤ f.depth.length - 1) {p : Pos}
    (h : cSearchAll sqrt k f x y z xi yi zi = .ok p) : ∃ m n, Located f x y z p m n := by
  unfold cSearchAll at h
  cases hh : Curvilinear.search sqrt true k f.grid x y xi yi with
  | error e => rw [hh] at h; cases h
  | ok r =>
    rw [hh] at h
    dsimp only at h
    obtain ⟨m, n, e1, e2, hp⟩ := horizontal hs hh
    refine ⟨m, n, ?_⟩
    by_cases hd : 1 < f.depth.length
    · rw [if_pos hd, hm5] at h
      obtain ⟨z1, z2, z3⟩ := C25_z_levels_jit f.depth hf.depth hd z zi hz
      by_cases b1 : BeforeFirst f.depth z
      · rw [z1 b1] at h; cases h
      by_cases b2 : BeyondLast f.depth z
      · rw [z2 b2] at h; cases h
      obtain ⟨i, t, e3, e4⟩ := z3 b1 b2
      rw [e3] at h
      dsimp only at h
      split at h
      · injection h with h
        subst h
        exact ⟨e1, e2, hp, fun _ => e4⟩
      · cases h
    · rw [if_neg hd] at h
      dsimp only at h
      split at h
      · injection h with h
        subst h
        exact ⟨e1, e2, hp, fun h' => (not_lt_two hd h').elim⟩
      · cases h

/-! ### The cells that are read -/

theorem pyCell2_eq {f : CField} {x y z : ℚ} {p : Pos} {m n : Nat} (h : Located f x y z p m n) (d : Arr) :
    pyCell2 d p = fun j i => d.v 0 (m + j) (n + i) := by
  funext j i
  unfold pyCell2 Arr.py
  rw [h.xi, h.yi, wrap_nat_add, wrap_nat_add, wrap_zero]

theorem pyCell3_eq {f : CField} {x y z : ℚ} {p : Pos} {m n k : Nat} (h : Located f x y z p m n) (hk : p.zi = (k : ℤ)) (d : Arr) :
    pyCell3 d p = fun q j i => d.v (k + q) (m + j) (n + i) := by
  funext q j i
  unfold pyCell3 Arr.py
  rw [h.xi, h.yi, hk, wrap_nat_add, wrap_nat_add, wrap_nat_add]

theorem cCell2_eq {f : CField} (hf : WellFormed f) {x y z : ℚ} {p : Pos} {m n : Nat} (h : Located f x y z p m n) (i : Nat) :
    cCell2 (f.data i) p.xi.toNat p.yi.toNat = fun j q => (f.data i).v 0 (m + j) (n + q) := by
  obtain ⟨s1, s2, -⟩ := hf.shape i
  have nx : (f.data i).nx ≠ 1 := by have := hf.nx; omega
  have ny : (f.data i).ny ≠ 1 := by have := hf.ny; omega
  funext j q
  unfold cCell2
  rw [h.xi, h.yi, if_neg nx, if_neg ny, Int.toNat_natCast, Int.toNat_natCast]

theorem cCell3_eq {f : CField} (hf : WellFormed f) (h3 : 2 ≤ f.depth.length) {x y z : ℚ} {p : Pos} {m n k : Nat}
    (h : Located f x y z p m n) (i : Nat) :
    cCell3 (f.data i) p.xi.toNat p.yi.toNat (k : ℤ) = fun q j l => (f.data i).v (k + q) (m + j) (n + l) := by
  obtain ⟨s1, s2, s3⟩ := hf.shape i
  have nx : (f.data i).nx ≠ 1 := by have := hf.nx; omega
  have ny : (f.data i).ny ≠ 1 := by have := hf.ny; omega
  have nz : (f.data i).nz ≠ 1 := by omega
  funext q j l
  unfold cCell3
  rw [h.xi, h.yi, if_neg nx, if_neg ny, if_neg nz, Int.toNat_natCast, Int.toNat_natCast, Int.toNat_natCast]

/-! ### The time axis -/

/-- Whatever the values of the snapshots have in common that interpolation between two of them keeps, the result has. -/
theorem evalTime_const {a : TAxis} {snap : Nat → Except Err ℚ} {t w k : ℚ} (hk : ∀ i v, snap i = .ok v → v = k)
    (h : evalTime a snap t = .ok w) : w = k := by
  unfold evalTime at h
  cases ht : timeIndex a t with
  | error e => rw [ht] at h; simp at h
  | ok r =>
    rw [ht] at h
    dsimp only at h
    split_ifs at h
    · cases h0 : snap (wrapIdx a.time.length r.1) with
      | error e => rw [h0] at h; simp at h
      | ok v =>
        rw [h0] at h
        cases h1 : snap (wrapIdx a.time.length (r.1 + 1)) with
        | error e => rw [h1] at h; simp at h
        | ok b =>
          rw [h1] at h
          simp only [Except.ok.injEq] at h
          rw [← h, hk _ _ h0, hk _ _ h1]
          ring
    · cases h0 : snap (wrapIdx a.time.length r.1) with
      | error e => rw [h0] at h; simp at h
      | ok v =>
        rw [h0] at h
        simp only [Except.ok.injEq] at h
        rw [← h, hk _ _ h0]

theorem cEvalTime_const {a : TAxis} {snap : Nat → Except Err ℚ} {fuel : Nat} {t w k : ℚ} {ti : ℤ}
    (hk : ∀ i v, snap i = .ok v → v = k) (h : cEvalTime a snap fuel t ti = some (.ok w)) : w = k := by
  unfold cEvalTime at h
  split_ifs at h
  · simp at h
  cases ht : cSearchTime (a.time.take a.tdim) a.periodic a.fullMin a.fullMax fuel t ti 0 with
  | none => rw [ht] at h; simp at h
  | some r =>
    rw [ht] at h
    dsimp only at h
    cases h0 : snap r.2.1 with
    | error e => rw [h0] at h; simp at h
    | ok v =>
      rw [h0] at h
      dsimp only at h
      cases hb : (decide (r.2.1 < a.tdim - 1) && decide (a.time.getD r.2.1 0 < r.1)) with
      | true =>
        rw [hb] at h
        cases h1 : snap (r.2.1 + 1) with
        | error e => rw [h1] at h; simp at h
        | ok b =>
          rw [h1] at h
          simp only [cond_true, Option.some.injEq, Except.ok.injEq] at h
          rw [← h, hk _ _ h0, hk _ _ h1]
          ring
      | false =>
        rw [hb] at h
        simp only [cond_false, Option.some.injEq, Except.ok.injEq] at h
        rw [← h, hk _ _ h0]
        simp

/-! ### Uniform fields -/

theorem sample_const {sqrt : ℚ → ℚ} {maxIter : Nat} {f : CField} {k : ℚ} (hu : Uniform f k)
    (hm : f.method = .invdist → ConstField.NotTiny k)
    (hix : f.depth.length ≤ 1 ∨ f.indexing = .nemo ∨ f.indexing = .mitgcm) {x y z w : ℚ} {i : Nat} {xi yi : ℤ}
    (h : sample sqrt maxIter f i x y z xi yi = .ok w) : w = k := by
  unfold sample at h
  cases hs : searchAll sqrt maxIter f x y z xi yi with
  | error e => rw [hs] at h; simp at h
  | ok p =>
    rw [hs] at h
    have c2 : pyCell2 (f.data i) p = fun _ _ => k := by funext a b; exact hu i _ _ _
    have c3 : pyCell3 (f.data i) p = fun _ _ _ => k := by funext a b c; exact hu i _ _ _
    simp only [c2, c3] at h
    by_cases hz : f.depth.length ≤ 1
    · rw [if_pos hz] at h
      revert h hm
      cases f.method <;> intro hm h <;> simp only [interp2D, Except.ok.injEq, ConstField.bilin_const, reduceCtorEq] at h <;> try exact h.symm
      rw [ConstField.pyInv2_const (hm rfl)] at h
      exact h.symm
    · rw [if_neg hz] at h
      have lin : ∀ m, linear3D m f.indexing p.zi f.depth.length p.xsi p.eta p.zeta (fun _ _ _ => k) = k := by
        intro m
        have hp : f.indexing ≠ .pop ∧ f.indexing ≠ .mom5 := by
          rcases hix with h' | h' | h'
          · exact absurd h' hz
          · rw [h']; decide
          · rw [h']; decide
        unfold linear3D
        dsimp only
        rw [if_neg (by intro hc; exact hp.1 hc.1), if_neg (by intro hc; exact hp.2 hc.2.1)]
        simp only [ConstField.bilin_const]
        ring
      revert h hm
      cases f.method <;> intro hm h <;> simp only [interp3D, lin] at h <;> try (simp only [Except.ok.injEq] at h; exact h.symm)
      · rw [ConstField.pyInv3_const (hm rfl)] at h
        simp only [Except.ok.injEq] at h
        exact h.symm
      · rcases hix with h' | h' | h'
        · exact absurd h' hz
        · rw [h'] at h; simp only [Except.ok.injEq] at h; rw [← h]; ring
        · rw [h'] at h; simp only [Except.ok.injEq] at h; rw [← h]; ring

theorem cSample_const {sqrt : ℚ → ℚ} {maxIter : Nat} {f : CField} {k : ℚ} (hu : Uniform f k)
    (hix : f.depth.length ≤ 1 ∨ f.indexing = .nemo ∨ f.indexing = .mitgcm) {x y z w : ℚ} {i zi : Nat} {xi yi : ℤ}
    (h : cSample sqrt maxIter f i x y z xi yi zi = .ok w) : w = k := by
  unfold cSample at h
  cases hs : cSearchAll sqrt maxIter f x y z xi yi zi with
  | error e => rw [hs] at h; simp at h
  | ok p =>
    rw [hs] at h
    have c2 : ∀ a b, cCell2 (f.data i) a b = fun _ _ => k := by intro a b; funext _ _; exact hu i _ _ _
    have c3 : ∀ a b c, cCell3 (f.data i) a b c = fun _ _ _ => k := by intro a b c; funext _ _ _; exact hu i _ _ _
    simp only [c2, c3] at h
    by_cases hz : f.depth.length ≤ 1
    · rw [if_pos hz] at h
      simp only [Except.ok.injEq] at h
      rw [← h]
      cases f.method <;> simp only [cInterp2D, ConstField.bilin_const, ConstField.cInv2_const, ite_self]
    · rw [if_neg hz] at h
      simp only [Except.ok.injEq] at h
      have hp : f.indexing ≠ .pop ∧ f.indexing ≠ .mom5 := by
        rcases hix with h' | h' | h'
        · exact absurd h' hz
        · rw [h']; decide
        · rw [h']; decide
      simp only [hp.1, hp.2, decide_false, Bool.false_and] at h
      rw [← h]
      cases f.method <;> simp only [cInterp3D, cLinear3D, ConstField.trilin_const, ConstField.cInv3_const, ite_self, Bool.false_eq_true, if_false]

end Parcels.CurviField
