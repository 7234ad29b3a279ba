import Verif.Props.Interp

/-!
C64: on a 3D B-grid, velocity and tracer are taken from the layer that contains the position.
-/

namespace Parcels.Interp
open Parcels.Search

/-- The layer of the position. POP (and the default): `depth[k]` is the top of layer `k`; MOM5: its bottom.
Documented at fieldset.py:625-641 (`from_pop`) and 705-718 (`from_mom5`). -/
def InLayer (ix : Indexing) (dep : List ℚ) (z : ℚ) (k : Nat) : Prop :=
  if ix = .mom5 then
    ∃ b, dep[k]? = some b ∧ z ≤ b ∧ (k = 0 ∨ ∃ a, dep[k - 1]? = some a ∧ a ≤ z)
  else ∃ a b, dep[k]? = some a ∧ dep[k + 1]? = some b ∧ a ≤ z ∧ z ≤ b

theorem inLayer_of_locates {ix : Indexing} (hix : ix ≠ .mom5) {dep : List ℚ} (hdep : Increasing dep) {z : ℚ} {k : Nat}
    {t : ℚ} (h : Locates dep z k t) : InLayer ix dep z k := by
  unfold InLayer
  rw [if_neg hix]
  obtain ⟨k', a, b, hk, ha, hb, h0, h1, hz⟩ := h
  obtain rfl : k = k' := by exact_mod_cast hk
  have hab : a < b := by
    obtain ⟨k1, rfl⟩ := List.getElem?_eq_some_iff.mp ha
    obtain ⟨k2, rfl⟩ := List.getElem?_eq_some_iff.mp hb
    exact List.pairwise_iff_getElem.mp hdep k (k + 1) k1 k2 (by omega)
  exact ⟨a, b, ha, hb, by nlinarith, by nlinarith⟩

theorem inLayer_mom5 {dep : List ℚ} (hdep : Increasing dep) {z : ℚ} {k : Nat}
    {t : ℚ} (h : Locates dep z k t) : InLayer .mom5 dep z (k + 1) := by
  unfold InLayer
  rw [if_pos rfl]
  obtain ⟨k', a, b, hk, ha, hb, h0, h1, hz⟩ := h
  obtain rfl : k = k' := by exact_mod_cast hk
  have hab : a < b := by
    obtain ⟨k1, rfl⟩ := List.getElem?_eq_some_iff.mp ha
    obtain ⟨k2, rfl⟩ := List.getElem?_eq_some_iff.mp hb
    exact List.pairwise_iff_getElem.mp hdep k (k + 1) k1 k2 (by omega)
  exact ⟨b, hb, by nlinarith, Or.inr ⟨a, ha, by nlinarith⟩⟩

/-- C64 (Scipy, default and POP indexing): velocity is bilinear within, and the tracer constant on, one and the same cell
of the layer that contains the position. -/
theorem C64_scipy_pop (g : RGrid) (hg : FlatGrid g) (hdep : Increasing g.depth) (h3d : 2 ≤ g.depth.length)
    (hm5 : g.mom5 = false) (ix : Indexing) (hix : ix ≠ .mom5) (d e : Arr) (x y z : ℚ)
    (hx : InRange g.lon x) (hy : InRange g.lat y) (hz : InRange g.depth z) :
    ∃ (n m k : Nat) (r s : ℚ), Locates g.lon x n r ∧ Locates g.lat y m s ∧ InLayer ix g.depth z k ∧
      sample g ix .bgridVelocity d x y z = .ok (some (bilinearAt d k m n s r)) ∧
      sample g ix .bgridTracer e x y z = .ok (some (e.v k (m + 1) (n + 1))) := by
  have hz' := (inRange_inc hdep h3d z).mp hz
  have c1 : ¬ BeforeFirst g.depth z := by
    rintro (⟨_, hh⟩ | ⟨hh, _⟩)
    · rw [headD_getD] at hh; linarith
    · exact absurd (last_lt_first hh h3d) (not_lt.mpr (first_lt_last hdep h3d).le)
  have c2 : ¬ BeyondLast g.depth z := by
    rintro (⟨_, hh⟩ | ⟨hh, _⟩)
    · rw [getLastD_getD] at hh; linarith
    · exact absurd (last_lt_first hh h3d) (not_lt.mpr (first_lt_last hdep h3d).le)
  obtain ⟨p, hp, h1, h2, h3⟩ := (C24_scipy_3D g hg (Or.inl hdep) h3d hm5 x y z hx hy).2.2 c1 c2
  obtain ⟨n, e1, _⟩ := locates_nat h1
  obtain ⟨m, e2, _⟩ := locates_nat h2
  obtain ⟨k, e3, _⟩ := locates_nat h3
  rw [e1] at h1
  rw [e2] at h2
  rw [e3] at h3
  have hc : ∀ (d : Arr) (q : Nat), pyCell3 d p q = fun j i => d.v (k + q) (m + j) (n + i) := by
    intro d q
    funext j i
    unfold pyCell3 Arr.py
    rw [e1, e2, e3, wrap_nat_add, wrap_nat_add, wrap_nat_add]
  refine ⟨n, m, k, p.xsi, p.eta, h1, h2, inLayer_of_locates hix hdep h3, ?_, ?_⟩
  · unfold sample
    rw [hp]
    simp only [if_neg (show ¬ g.depth.length ≤ 1 by omega), interp3D, linear3D, if_neg hix, reduceCtorEq, if_false,
      if_true, false_and]
    rw [hc d 0, hc d 1, bilin_eq, bilin_eq]
    simp only [Nat.add_zero, sub_zero, one_mul, zero_mul, add_zero, ite_self]
  · unfold sample
    rw [hp]
    simp only [if_neg (show ¬ g.depth.length ≤ 1 by omega), interp3D]
    rw [hc e 0]
    rfl

/-- C64 (JIT, default and POP indexing). A POP grid has at least three levels here: with two levels the C code reads
before the start of the data. -/
theorem C64_jit_pop_partial (g : RGrid) (hg : FlatGrid g) (hdep : Increasing g.depth) (h3d : 3 ≤ g.depth.length)
    (hm5 : g.mom5 = false) (ix : Indexing) (hix : ix ≠ .mom5) (d e : Arr) (hfit : Fits d g) (hfit' : Fits e g) (x y z : ℚ)
    (xi yi zi : Nat) (hxi : xi + 1 < g.lon.length) (hyi : yi + 1 < g.lat.length)
    (hzi : zi ≤ g.depth.length - 1) (hx : InRange g.lon x) (hy : InRange g.lat y) (hz : InRange g.depth z) :
    ∃ (n m k : Nat) (r s : ℚ), Locates g.lon x n r ∧ Locates g.lat y m s ∧ InLayer ix g.depth z k ∧
      cSample g ix .bgridVelocity d x y z xi yi zi = .ok (bilinearAt d k m n s r) ∧
      cSample g ix .bgridTracer e x y z xi yi zi = .ok (e.v k (m + 1) (n + 1)) := by
  have h2 : 2 ≤ g.depth.length := by omega
  have hz' := (inRange_inc hdep h2 z).mp hz
  have c1 : ¬ BeforeFirst g.depth z := by
    rintro (⟨_, hh⟩ | ⟨hh, _⟩)
    · rw [headD_getD] at hh; linarith
    · exact absurd (last_lt_first hh h2) (not_lt.mpr (first_lt_last hdep h2).le)
  have c2 : ¬ BeyondLast g.depth z := by
    rintro (⟨_, hh⟩ | ⟨hh, _⟩)
    · rw [getLastD_getD] at hh; linarith
    · exact absurd (last_lt_first hh h2) (not_lt.mpr (first_lt_last hdep h2).le)
  obtain ⟨p, hp, h1, h2, h3⟩ := (C24_jit_3D g hg (Or.inl hdep) h2 hm5 x y z xi yi zi hxi hyi hzi hx hy).2.2 c1 c2
  obtain ⟨n, e1, _⟩ := locates_nat h1
  obtain ⟨m, e2, _⟩ := locates_nat h2
  obtain ⟨k, e3, hk⟩ := locates_nat h3
  rw [e1] at h1
  rw [e2] at h2
  rw [e3] at h3
  have hc : ∀ (d : Arr), Fits d g → ∀ (kk q : Nat), cCell3 d n m kk q = fun j i => d.v (kk + q) (m + j) (n + i) := by
    intro d hf kk q
    have nx : d.nx ≠ 1 := by have := hg.lonLen; have := hf.1; omega
    have ny : d.ny ≠ 1 := by have := hg.latLen; have := hf.2.1; omega
    have nz : d.nz ≠ 1 := by have := hf.2.2; omega
    funext j i
    unfold cCell3
    rw [if_neg nx, if_neg ny, if_neg nz, Int.toNat_natCast]
  refine ⟨n, m, k, p.xsi, p.eta, h1, h2, inLayer_of_locates hix hdep h3, ?_, ?_⟩ <;>
  · unfold cSample
    rw [hp]
    simp only [if_neg (show ¬ g.depth.length ≤ 1 by omega), e1, e2, e3, hix, decide_false, Bool.false_and,
      Bool.false_eq_true, if_false, Int.toNat_natCast, cInterp3D]
    by_cases hb : ix = .pop ∧ (k : ℤ) = (g.depth.length : ℤ) - 2
    · have b1 : (decide (ix = Indexing.pop) && decide ((k : ℤ) = (g.depth.length : ℤ) - 2)) = true := by
        simp [hb.1, hb.2]
      obtain ⟨k', rfl⟩ : ∃ k', k = k' + 1 := ⟨k - 1, by omega⟩
      simp only [b1, if_true, cLinear3D, if_neg hix, reduceCtorEq, or_self, if_false, Bool.false_eq_true]
      rw [show (((k' + 1 : Nat) : ℤ) - 1) = (k' : ℤ) by omega]
      first
        | rw [hc d hfit k' 1, bilin_eq, sub_zero, one_mul]
        | rw [hc e hfit' k' 1]
    · have b1 : (decide (ix = Indexing.pop) && decide ((k : ℤ) = (g.depth.length : ℤ) - 2)) = false := by
        rw [Bool.and_eq_false_iff, decide_eq_false_iff_not, decide_eq_false_iff_not]
        by_contra hh; push Not at hh; exact hb hh
      simp only [b1, Bool.false_eq_true, if_false, cLinear3D, trilin, if_neg hix, reduceCtorEq, or_self, if_true]
      first
        | rw [hc d hfit k 0, hc d hfit k 1, bilin_eq, bilin_eq, sub_zero, one_mul, zero_mul, add_zero]; rfl
        | rw [hc e hfit' k 0]; rfl

/-- Below the first level, MOM5 grids are searched like the others. -/
theorem searchRect_mom5 (g : RGrid) (x y z : ℚ) (hz : g.depth.headD 0 ≤ z) :
    searchRect g x y z = searchRect { g with mom5 := false } x y z := by
  have e : searchDepth g z = searchDepth { g with mom5 := false } z := by
    unfold searchDepth searchZ
    simp only [if_neg (not_lt.mpr hz)]
  unfold searchRect
  rw [e]
  rfl

/-- C64 (Scipy, MOM5), for the velocity only and below the first level. -/
theorem C64_scipy_mom5_velocity_partial (g : RGrid) (hg : FlatGrid g) (hdep : Increasing g.depth)
    (h3d : 2 ≤ g.depth.length) (d : Arr) (x y z : ℚ)
    (hx : InRange g.lon x) (hy : InRange g.lat y) (hz : InRange g.depth z) :
    ∃ (n m k : Nat) (r s : ℚ), Locates g.lon x n r ∧ Locates g.lat y m s ∧ InLayer .mom5 g.depth z k ∧
      sample g .mom5 .bgridVelocity d x y z = .ok (some (bilinearAt d k m n s r)) := by
  have hz' := (inRange_inc hdep h3d z).mp hz
  have c1 : ¬ BeforeFirst g.depth z := by
    rintro (⟨_, hh⟩ | ⟨hh, _⟩)
    · rw [headD_getD] at hh; linarith
    · exact absurd (last_lt_first hh h3d) (not_lt.mpr (first_lt_last hdep h3d).le)
  have c2 : ¬ BeyondLast g.depth z := by
    rintro (⟨_, hh⟩ | ⟨hh, _⟩)
    · rw [getLastD_getD] at hh; linarith
    · exact absurd (last_lt_first hh h3d) (not_lt.mpr (first_lt_last hdep h3d).le)
  have hg' : FlatGrid { g with mom5 := false } := ⟨hg.flat, hg.noHalo, hg.lonInc, hg.lonLen, hg.latInc, hg.latLen⟩
  obtain ⟨p, hp, h1, h2, h3⟩ := (C24_scipy_3D { g with mom5 := false } hg' (Or.inl hdep) h3d rfl x y z hx hy).2.2 c1 c2
  rw [← searchRect_mom5 g x y z (by rw [headD_getD]; exact hz'.1)] at hp
  obtain ⟨n, e1, _⟩ := locates_nat h1
  obtain ⟨m, e2, _⟩ := locates_nat h2
  obtain ⟨k, e3, _⟩ := locates_nat h3
  rw [e1] at h1
  rw [e2] at h2
  rw [e3] at h3
  have hc : ∀ (d : Arr) (q : Nat), pyCell3 d p q = fun j i => d.v (k + q) (m + j) (n + i) := by
    intro d q
    funext j i
    unfold pyCell3 Arr.py
    rw [e1, e2, e3, wrap_nat_add, wrap_nat_add, wrap_nat_add]
  refine ⟨n, m, k + 1, p.xsi, p.eta, h1, h2, inLayer_mom5 hdep h3, ?_⟩
  unfold sample
  rw [hp]
  simp only [if_neg (show ¬ g.depth.length ≤ 1 by omega), interp3D, linear3D, reduceCtorEq, if_false,
    if_true, false_and]
  rw [hc d 0, hc d 1, bilin_eq, bilin_eq]
  simp only [sub_self, zero_mul, zero_add, one_mul]

/-- C64 is false for MOM5 tracers: at depth 15, in layer 1 (10 to 20), the tracer is taken from layer 0 in both modes, and
the velocity from layer 1; above the first level (depth 5, layer 0), Scipy takes the bottom layer 2. -/
theorem C64_mom5_tracer_layer :
    InLayer .mom5 mom5Grid.depth 15 1 ∧ InLayer .mom5 mom5Grid.depth 5 0 ∧
    sample mom5Grid .mom5 .bgridVelocity { exArr with v := fun k _ _ => k } 2 0 15 = .ok (some 1) ∧
    sample mom5Grid .mom5 .bgridTracer { exArr with v := fun k _ _ => k } 2 0 15 = .ok (some 0) ∧
    cSample mom5Grid .mom5 .bgridTracer { exArr with v := fun k _ _ => k } 2 0 15 0 0 0 = .ok 0 ∧
    sample mom5Grid .mom5 .bgridTracer { exArr with v := fun k _ _ => k } 2 0 5 = .ok (some 2) := by
  refine ⟨?_, ?_, by decide +kernel, by decide +kernel, by decide +kernel, by decide +kernel⟩
  · unfold InLayer
    rw [if_pos rfl]
    exact ⟨20, by decide +kernel, by norm_num, Or.inr ⟨10, by decide +kernel, by norm_num⟩⟩
  · unfold InLayer
    rw [if_pos rfl]
    exact ⟨10, by decide +kernel, by norm_num, Or.inl rfl⟩

example : sample exGrid3 .pop .bgridVelocity exArr 2 0 20 = .ok (some (213 / 2)) ∧
    sample exGrid3 .pop .bgridTracer exArr 2 0 20 = .ok (some 112) ∧
    cSample exGrid3 .pop .bgridVelocity exArr 2 0 20 0 0 0 = .ok (213 / 2) ∧
    cSample exGrid3 .pop .bgridTracer exArr 2 0 20 0 0 0 = .ok 112 := by decide +kernel

end Parcels.Interp
