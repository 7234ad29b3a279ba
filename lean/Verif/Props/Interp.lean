import Verif.Proofs.Interp
import Verif.Spec.Interp
import Verif.Props.Search

/-!
C29, C30: linear and nearest-neighbour sampling; C64: B-grid layers.
-/

namespace Parcels.Interp
open Parcels.Search

theorem bilin_eq (d : Arr) (k m n : Nat) (s r : ℚ) :
    bilin r s (fun j i => d.v k (m + j) (n + i)) = bilinearAt d k m n s r := by
  unfold bilin bilinearAt lerp
  simp only [Nat.add_zero]
  ring

/-- The formula does not depend on the choice between two cells that share the position. -/
theorem bilinearAt_unique (d : Arr) (k : Nat) {lon lat : List ℚ} (hlon : Increasing lon) (hlat : Increasing lat)
    {x y : ℚ} {n n' m m' : Nat} {r r' s s' : ℚ} (h1 : Locates lon x n r) (h2 : Locates lon x n' r')
    (h3 : Locates lat y m s) (h4 : Locates lat y m' s') :
    bilinearAt d k m n s r = bilinearAt d k m' n' s' r' := by
  have e1 := lin_unique hlon h1 h2 (fun i => d.v k m i)
  have e2 := lin_unique hlon h1 h2 (fun i => d.v k (m + 1) i)
  have e3 := lin_unique hlat h3 h4 (fun j => (1 - r') * d.v k j n' + r' * d.v k j (n' + 1))
  unfold bilinearAt lerp
  linear_combination (1 - s) * e1 + s * e2 + e3

theorem trilinearAt_unique (d : Arr) {lon lat dep : List ℚ} (hlon : Increasing lon) (hlat : Increasing lat)
    (hdep : Increasing dep) {x y z : ℚ} {n n' m m' k k' : Nat} {r r' s s' t t' : ℚ} (h1 : Locates lon x n r)
    (h2 : Locates lon x n' r') (h3 : Locates lat y m s) (h4 : Locates lat y m' s') (h5 : Locates dep z k t)
    (h6 : Locates dep z k' t') :
    trilinearAt d k m n t s r = trilinearAt d k' m' n' t' s' r' := by
  have e1 := bilinearAt_unique d k hlon hlat h1 h2 h3 h4
  have e2 := bilinearAt_unique d (k + 1) hlon hlat h1 h2 h3 h4
  have e3 := lin_unique hdep h5 h6 (fun q => bilinearAt d q m' n' s' r')
  unfold trilinearAt lerp
  linear_combination (1 - t) * e1 + t * e2 + e3

theorem wrap_nat (n i : Nat) : wrap n (i : ℤ) = i := by
  unfold wrap; rw [if_neg (by omega)]; simp

theorem wrap_nat_add (n i j : Nat) : wrap n ((i : ℤ) + (j : ℤ)) = i + j := by
  rw [show ((i : ℤ) + (j : ℤ)) = ((i + j : Nat) : ℤ) by push_cast; rfl, wrap_nat]

theorem wrap_zero (n : Nat) : wrap n 0 = 0 := by
  have := wrap_nat n 0
  simpa using this

theorem locates_nat {l : List ℚ} {x : ℚ} {i : ℤ} {r : ℚ} (h : Locates l x i r) :
    ∃ n : Nat, i = n ∧ n + 1 < l.length := by
  obtain ⟨n, _, _, rfl, _, hb, _⟩ := h
  exact ⟨n, rfl, (List.getElem?_eq_some_iff.mp hb).1⟩

theorem locates_inRange {l : List ℚ} {x : ℚ} {i : ℤ} {r : ℚ} (hl : Increasing l) (h : Locates l x i r) :
    InRange l x := by
  obtain ⟨n, a, b, rfl, ha, hb, h0, h1, hx⟩ := h
  have hab : a < b := by
    obtain ⟨k1, rfl⟩ := List.getElem?_eq_some_iff.mp ha
    obtain ⟨k2, rfl⟩ := List.getElem?_eq_some_iff.mp hb
    exact List.pairwise_iff_getElem.mp hl n (n + 1) k1 k2 (by omega)
  exact ⟨a, b, List.mem_of_getElem? ha, List.mem_of_getElem? hb, by nlinarith, by nlinarith⟩

/-- C29 (Scipy, 2D): for every flat grid, data and position, and for every cell that contains the position, sampling
gives the bilinear interpolation of that cell. (On an edge this holds for the cells on both sides, so the value is
continuous there.) -/
theorem C29_scipy_2D (g : RGrid) (hg : FlatGrid g) (h2d : g.depth.length ≤ 1) (ix : Indexing) (d : Arr)
    (x y z : ℚ) (n m : Nat) (r s : ℚ) (hx : Locates g.lon x n r) (hy : Locates g.lat y m s) :
    sample g ix .linear d x y z = .ok (some (bilinearAt d 0 m n s r)) := by
  obtain ⟨p, hp, h1, h2⟩ := (C24_scipy g hg h2d x y z).1
    ⟨locates_inRange hg.lonInc hx, locates_inRange hg.latInc hy⟩
  obtain ⟨n', e1, _⟩ := locates_nat h1
  obtain ⟨m', e2, _⟩ := locates_nat h2
  unfold sample
  rw [hp]
  simp only [if_pos h2d, interp2D]
  rw [e1] at h1
  rw [e2] at h2
  have hc : pyCell2 d p = fun j i => d.v 0 (m' + j) (n' + i) := by
    funext j i
    unfold pyCell2 Arr.py
    rw [e1, e2, wrap_nat_add, wrap_nat_add, wrap_zero]
  rw [hc, bilin_eq, bilinearAt_unique d 0 hg.lonInc hg.latInc h1 hx h2 hy]

/-- C29 (JIT, 2D): the same, from every previous cell of the particle. -/
theorem C29_jit_2D (g : RGrid) (hg : FlatGrid g) (h2d : g.depth.length ≤ 1) (ix : Indexing) (d : Arr) (hfit : Fits d g)
    (x y z : ℚ) (xi yi zi : Nat) (hxi : xi + 1 < g.lon.length) (hyi : yi + 1 < g.lat.length)
    (n m : Nat) (r s : ℚ) (hx : Locates g.lon x n r) (hy : Locates g.lat y m s) :
    cSample g ix .linear d x y z xi yi zi = .ok (bilinearAt d 0 m n s r) := by
  obtain ⟨p, hp, h1, h2⟩ := (C24_jit g hg h2d x y z xi yi zi hxi hyi).1
    ⟨locates_inRange hg.lonInc hx, locates_inRange hg.latInc hy⟩
  obtain ⟨n', e1, _⟩ := locates_nat h1
  obtain ⟨m', e2, _⟩ := locates_nat h2
  unfold cSample
  rw [hp]
  simp only [if_pos h2d, cInterp2D]
  rw [e1] at h1
  rw [e2] at h2
  have nx : d.nx ≠ 1 := by have := hg.lonLen; have := hfit.1; omega
  have ny : d.ny ≠ 1 := by have := hg.latLen; have := hfit.2.1; omega
  have hc : cCell2 d p.xi.toNat p.yi.toNat = fun j i => d.v 0 (m' + j) (n' + i) := by
    funext j i
    unfold cCell2
    rw [e1, e2, if_neg nx, if_neg ny, Int.toNat_natCast, Int.toNat_natCast]
  rw [hc, bilin_eq, bilinearAt_unique d 0 hg.lonInc hg.latInc h1 hx h2 hy]

theorem dep_cases {dep : List ℚ} (hdep : Increasing dep) {z : ℚ} {k : Nat} {t : ℚ} (h : Locates dep z k t) :
    ¬ BeforeFirst dep z ∧ ¬ BeyondLast dep z := by
  obtain ⟨_, _, hl⟩ := locates_nat h
  have hlen : 2 ≤ dep.length := by omega
  have hr := (inRange_inc hdep hlen z).mp (locates_inRange hdep h)
  have hnd : ¬ Decreasing dep := by
    intro hh; exact absurd (last_lt_first hh hlen) (not_lt.mpr (first_lt_last hdep hlen).le)
  constructor
  · rintro (⟨_, hh⟩ | ⟨hh, _⟩)
    · rw [headD_getD] at hh; linarith
    · exact hnd hh
  · rintro (⟨_, hh⟩ | ⟨hh, _⟩)
    · rw [getLastD_getD] at hh; linarith
    · exact hnd hh

/-- C29 (Scipy, 3D), for NEMO and MITgcm indexing (the default is NEMO). -/
theorem C29_scipy_3D_partial (g : RGrid) (hg : FlatGrid g) (hdep : Increasing g.depth) (h3d : 2 ≤ g.depth.length)
    (hm5 : g.mom5 = false) (ix : Indexing) (hix : ix = .nemo ∨ ix = .mitgcm) (d : Arr) (x y z : ℚ) (n m k : Nat)
    (r s t : ℚ) (hx : Locates g.lon x n r) (hy : Locates g.lat y m s) (hz : Locates g.depth z k t) :
    sample g ix .linear d x y z = .ok (some (trilinearAt d k m n t s r)) := by
  obtain ⟨c1, c2⟩ := dep_cases hdep hz
  obtain ⟨p, hp, h1, h2, h3⟩ := (C24_scipy_3D g hg (Or.inl hdep) h3d hm5 x y z
    (locates_inRange hg.lonInc hx) (locates_inRange hg.latInc hy)).2.2 c1 c2
  obtain ⟨n', e1, _⟩ := locates_nat h1
  obtain ⟨m', e2, _⟩ := locates_nat h2
  obtain ⟨k', e3, _⟩ := locates_nat h3
  unfold sample
  rw [hp]
  rw [e1] at h1
  rw [e2] at h2
  rw [e3] at h3
  have hc : ∀ q : Nat, pyCell3 d p q = fun j i => d.v (k' + q) (m' + j) (n' + i) := by
    intro q
    funext j i
    unfold pyCell3 Arr.py
    rw [e1, e2, e3, wrap_nat_add, wrap_nat_add, wrap_nat_add]
  have n1 : ¬ (ix = Indexing.pop ∧ (g.depth.length : ℤ) - 2 ≤ p.zi) := by
    rintro ⟨h, _⟩; rcases hix with h' | h' <;> rw [h'] at h <;> exact absurd h (by decide)
  simp only [if_neg (show ¬ g.depth.length ≤ 1 by omega), interp3D, linear3D, if_neg n1, reduceCtorEq, if_false,
    false_and]
  rw [hc 0, hc 1, bilin_eq, bilin_eq, ← trilinearAt_unique d hg.lonInc hg.latInc hdep h1 hx h2 hy h3 hz]
  unfold trilinearAt lerp
  simp only [Nat.add_zero]
  congr 2
  ring

/-- C29 (JIT, 3D), for NEMO and MITgcm indexing. -/
theorem C29_jit_3D_partial (g : RGrid) (hg : FlatGrid g) (hdep : Increasing g.depth) (h3d : 2 ≤ g.depth.length)
    (hm5 : g.mom5 = false) (ix : Indexing) (hix : ix = .nemo ∨ ix = .mitgcm) (d : Arr) (hfit : Fits d g)
    (x y z : ℚ) (xi yi zi : Nat) (hxi : xi + 1 < g.lon.length) (hyi : yi + 1 < g.lat.length)
    (hzi : zi ≤ g.depth.length - 1) (n m k : Nat)
    (r s t : ℚ) (hx : Locates g.lon x n r) (hy : Locates g.lat y m s) (hz : Locates g.depth z k t) :
    cSample g ix .linear d x y z xi yi zi = .ok (trilinearAt d k m n t s r) := by
  obtain ⟨c1, c2⟩ := dep_cases hdep hz
  obtain ⟨p, hp, h1, h2, h3⟩ := (C24_jit_3D g hg (Or.inl hdep) h3d hm5 x y z xi yi zi hxi hyi hzi
    (locates_inRange hg.lonInc hx) (locates_inRange hg.latInc hy)).2.2 c1 c2
  obtain ⟨n', e1, _⟩ := locates_nat h1
  obtain ⟨m', e2, _⟩ := locates_nat h2
  obtain ⟨k', e3, _⟩ := locates_nat h3
  unfold cSample
  rw [hp]
  rw [e1] at h1
  rw [e2] at h2
  rw [e3] at h3
  have nx : d.nx ≠ 1 := by have := hg.lonLen; have := hfit.1; omega
  have ny : d.ny ≠ 1 := by have := hg.latLen; have := hfit.2.1; omega
  have nz : d.nz ≠ 1 := by have := hfit.2.2; omega
  have hc : ∀ q : Nat, cCell3 d p.xi.toNat p.yi.toNat p.zi q = fun j i => d.v (k' + q) (m' + j) (n' + i) := by
    intro q
    funext j i
    unfold cCell3
    rw [e1, e2, e3, if_neg nx, if_neg ny, if_neg nz, Int.toNat_natCast, Int.toNat_natCast, Int.toNat_natCast]
  have i1 : decide (ix = Indexing.mom5) = false := by rcases hix with h | h <;> rw [h] <;> decide
  have i2 : decide (ix = Indexing.pop) = false := by rcases hix with h | h <;> rw [h] <;> decide
  simp only [if_neg (show ¬ g.depth.length ≤ 1 by omega), i1, i2, Bool.false_and, cInterp3D, cLinear3D,
    reduceCtorEq, or_self, if_false, Bool.false_eq_true, trilin]
  rw [hc 0, hc 1, bilin_eq, bilin_eq, ← trilinearAt_unique d hg.lonInc hg.latInc hdep h1 hx h2 hy h3 hz]
  unfold trilinearAt lerp
  simp only [Nat.add_zero]
  congr 1
  ring

/-- C29: the interpolated value is between the values at the nodes of the cell (2D). -/
theorem C29_between_2D (d : Arr) (k m n : Nat) (s r lo hi : ℚ) (hs : 0 ≤ s ∧ s ≤ 1) (hr : 0 ≤ r ∧ r ≤ 1)
    (h : ∀ j i, j ≤ 1 → i ≤ 1 → lo ≤ d.v k (m + j) (n + i) ∧ d.v k (m + j) (n + i) ≤ hi) :
    lo ≤ bilinearAt d k m n s r ∧ bilinearAt d k m n s r ≤ hi := by
  rw [← bilin_eq]
  exact ⟨bilin_ge hr.1 hr.2 hs.1 hs.2 (fun j i hj hi => (h j i hj hi).1),
    bilin_le hr.1 hr.2 hs.1 hs.2 (fun j i hj hi => (h j i hj hi).2)⟩

/-- C29: the same in 3D. -/
theorem C29_between_3D (d : Arr) (k m n : Nat) (t s r lo hi : ℚ) (ht : 0 ≤ t ∧ t ≤ 1) (hs : 0 ≤ s ∧ s ≤ 1)
    (hr : 0 ≤ r ∧ r ≤ 1) (h : ∀ q j i, q ≤ 1 → j ≤ 1 → i ≤ 1 →
      lo ≤ d.v (k + q) (m + j) (n + i) ∧ d.v (k + q) (m + j) (n + i) ≤ hi) :
    lo ≤ trilinearAt d k m n t s r ∧ trilinearAt d k m n t s r ≤ hi := by
  obtain ⟨a1, a2⟩ := C29_between_2D d k m n s r lo hi hs hr (fun j i hj hi => h 0 j i (by omega) hj hi)
  obtain ⟨b1, b2⟩ := C29_between_2D d (k + 1) m n s r lo hi hs hr (fun j i hj hi => h 1 j i (by omega) hj hi)
  unfold trilinearAt lerp
  constructor <;> nlinarith

/-- C29: a function that is linear in each coordinate is reproduced exactly (2D). -/
theorem C29_exact_2D (g : RGrid) (d : Arr) (a b c e : ℚ)
    (hd : ∀ i j u v, g.lon[i]? = some u → g.lat[j]? = some v → d.v 0 j i = a + b * u + c * v + e * u * v)
    (x y : ℚ) (n m : Nat) (r s : ℚ) (hx : Locates g.lon x n r) (hy : Locates g.lat y m s) :
    bilinearAt d 0 m n s r = a + b * x + c * y + e * x * y := by
  obtain ⟨n', u0, u1, hn, hu0, hu1, _, _, ex⟩ := hx
  obtain ⟨m', v0, v1, hm, hv0, hv1, _, _, ey⟩ := hy
  obtain rfl : n = n' := by exact_mod_cast hn
  obtain rfl : m = m' := by exact_mod_cast hm
  unfold bilinearAt lerp
  rw [hd _ _ _ _ hu0 hv0, hd _ _ _ _ hu1 hv0, hd _ _ _ _ hu0 hv1, hd _ _ _ _ hu1 hv1, ex, ey]
  ring

/-- C29: exactness in 3D, for functions linear in each of the three coordinates. -/
theorem C29_exact_3D (g : RGrid) (d : Arr) (a b c f ab ac bc abc : ℚ)
    (hd : ∀ i j k u v w, g.lon[i]? = some u → g.lat[j]? = some v → g.depth[k]? = some w →
      d.v k j i = a + b * u + c * v + f * w + ab * u * v + ac * u * w + bc * v * w + abc * u * v * w)
    (x y z : ℚ) (n m k : Nat) (r s t : ℚ) (hx : Locates g.lon x n r) (hy : Locates g.lat y m s)
    (hz : Locates g.depth z k t) :
    trilinearAt d k m n t s r =
      a + b * x + c * y + f * z + ab * x * y + ac * x * z + bc * y * z + abc * x * y * z := by
  obtain ⟨n', u0, u1, hn, hu0, hu1, _, _, ex⟩ := hx
  obtain ⟨m', v0, v1, hm, hv0, hv1, _, _, ey⟩ := hy
  obtain ⟨k', w0, w1, hk, hw0, hw1, _, _, ez⟩ := hz
  obtain rfl : n = n' := by exact_mod_cast hn
  obtain rfl : m = m' := by exact_mod_cast hm
  obtain rfl : k = k' := by exact_mod_cast hk
  unfold trilinearAt bilinearAt lerp
  rw [hd _ _ _ _ _ _ hu0 hv0 hw0, hd _ _ _ _ _ _ hu1 hv0 hw0, hd _ _ _ _ _ _ hu0 hv1 hw0,
    hd _ _ _ _ _ _ hu1 hv1 hw0, hd _ _ _ _ _ _ hu0 hv0 hw1, hd _ _ _ _ _ _ hu1 hv0 hw1,
    hd _ _ _ _ _ _ hu0 hv1 hw1, hd _ _ _ _ _ _ hu1 hv1 hw1, ex, ey, ez]
  ring

/-- C29: at a node, the node value. -/
theorem C29_at_node (d : Arr) (k m n : Nat) :
    bilinearAt d k m n 0 0 = d.v k m n ∧ bilinearAt d k m n 0 1 = d.v k m (n + 1) ∧
    bilinearAt d k m n 1 0 = d.v k (m + 1) n ∧ bilinearAt d k m n 1 1 = d.v k (m + 1) (n + 1) ∧
    (∀ s r, trilinearAt d k m n 0 s r = bilinearAt d k m n s r) ∧
    (∀ s r, trilinearAt d k m n 1 s r = bilinearAt d (k + 1) m n s r) := by
  unfold trilinearAt bilinearAt lerp
  refine ⟨by ring, by ring, by ring, by ring, ?_, ?_⟩ <;> intro s r <;> ring

/-- Data of a small 3D grid: 3 levels. -/
def exArr : Arr := { nz := 3, ny := 3, nx := 4, v := fun k j i => 100 * k + 10 * j + i }
def exGrid3 : RGrid := { exGrid with depth := [0, 10, 30] }

example : sample exGrid .nemo .linear { exArr with nz := 1 } 2 0 0 = .ok (some (13 / 2)) ∧
    cSample exGrid .nemo .linear { exArr with nz := 1 } 2 0 0 2 1 0 = .ok (13 / 2) ∧
    sample exGrid3 .nemo .linear exArr 2 0 20 = .ok (some (313 / 2)) ∧
    cSample exGrid3 .nemo .linear exArr 2 0 20 2 1 0 = .ok (313 / 2) := by decide +kernel

example : Locates exGrid.lon 2 (1 : Nat) (1 / 2) ∧ Locates exGrid.lat 0 (0 : Nat) (1 / 2) ∧
    Locates exGrid3.depth 20 (1 : Nat) (1 / 2) :=
  ⟨⟨1, 1, 3, rfl, by decide +kernel, by decide +kernel, by norm_num, by norm_num, by norm_num⟩,
   ⟨0, -5, 5, rfl, by decide +kernel, by decide +kernel, by norm_num, by norm_num, by norm_num⟩,
   ⟨1, 10, 30, rfl, by decide +kernel, by decide +kernel, by norm_num, by norm_num, by norm_num⟩⟩

/-- C29 is false with POP indexing: in the lowest layer every field with `interp_method='linear'`, not only the
vertical velocity, is interpolated to zero. Here all nodes hold 5 and the sampled value is 5/2 (both modes). -/
theorem C29_pop_lowest_layer :
    sample exGrid3 .pop .linear { exArr with v := fun _ _ _ => 5 } 2 0 20 = .ok (some (5 / 2)) ∧
    cSample exGrid3 .pop .linear { exArr with v := fun _ _ _ => 5 } 2 0 20 0 0 0 = .ok (5 / 2) := by decide +kernel

/-- A MOM5 grid: depth levels at the bottom of the layers. -/
def mom5Grid : RGrid := { exGrid with depth := [10, 20, 30], mom5 := true }

/-- C29 is false with MOM5 indexing above the first level: Scipy interpolates between the first level and the
bottom level (the levels hold 1, 2, 3; halfway up the result is the mean of 3 and 1), JIT to zero. -/
theorem C29_mom5_top_layer :
    sample mom5Grid .mom5 .linear { exArr with v := fun k _ _ => k + 1 } 2 0 5 = .ok (some 2) ∧
    cSample mom5Grid .mom5 .linear { exArr with v := fun k _ _ => k + 1 } 2 0 5 0 0 0 = .ok (1 / 2) := by
  decide +kernel

/-! ### Nearest neighbour (C30) -/

theorem nearer_left {l : List ℚ} (hl : Increasing l) {x : ℚ} {n : Nat} {r : ℚ} (h : Locates l x n r)
    (hr : r ≤ 1 / 2) : Nearer l x n (n + 1) := by
  obtain ⟨n', a, b, hn, ha, hb, h0, h1, hx⟩ := h
  obtain rfl : n = n' := by exact_mod_cast hn
  have hab : a < b := by
    obtain ⟨k1, rfl⟩ := List.getElem?_eq_some_iff.mp ha
    obtain ⟨k2, rfl⟩ := List.getElem?_eq_some_iff.mp hb
    exact List.pairwise_iff_getElem.mp hl n (n + 1) k1 k2 (by omega)
  refine ⟨a, b, ha, hb, ?_⟩
  rw [abs_of_nonneg (by nlinarith), abs_of_nonpos (by nlinarith)]
  nlinarith

theorem nearer_right {l : List ℚ} (hl : Increasing l) {x : ℚ} {n : Nat} {r : ℚ} (h : Locates l x n r)
    (hr : 1 / 2 ≤ r) : Nearer l x (n + 1) n := by
  obtain ⟨n', a, b, hn, ha, hb, h0, h1, hx⟩ := h
  obtain rfl : n = n' := by exact_mod_cast hn
  have hab : a < b := by
    obtain ⟨k1, rfl⟩ := List.getElem?_eq_some_iff.mp ha
    obtain ⟨k2, rfl⟩ := List.getElem?_eq_some_iff.mp hb
    exact List.pairwise_iff_getElem.mp hl n (n + 1) k1 k2 (by omega)
  refine ⟨b, a, hb, ha, ?_⟩
  rw [abs_of_nonpos (by nlinarith), abs_of_nonneg (by nlinarith)]
  nlinarith

/-- Nearest of all nodes, not only of the cell. -/
def NearestNode (l : List ℚ) (x : ℚ) (i : Nat) : Prop := ∀ j, j < l.length → Nearer l x i j

theorem nearestNode_of {l : List ℚ} (hl : Increasing l) {x : ℚ} {n : Nat} {r : ℚ} (h : Locates l x n r)
    (i : Nat) (hi : (i = n ∧ r ≤ 1 / 2) ∨ (i = n + 1 ∧ 1 / 2 ≤ r)) : NearestNode l x i := by
  have h' := h
  obtain ⟨n', a, b, hn, ha, hb, h0, h1, hx⟩ := h'
  obtain rfl : n = n' := by exact_mod_cast hn
  have hlen := (List.getElem?_eq_some_iff.mp hb).1
  have hab : a < b := by
    obtain ⟨k1, rfl⟩ := List.getElem?_eq_some_iff.mp ha
    obtain ⟨k2, rfl⟩ := List.getElem?_eq_some_iff.mp hb
    exact List.pairwise_iff_getElem.mp hl n (n + 1) k1 k2 (by omega)
  intro j hj
  have hv : l[j]? = some l[j] := List.getElem?_eq_getElem hj
  have left : ∀ j (hj : j < l.length), j ≤ n → l[j] ≤ a := by
    intro j hj hjn
    rcases Nat.lt_or_ge j n with h | h
    · obtain ⟨k1, rfl⟩ := List.getElem?_eq_some_iff.mp ha
      exact (List.pairwise_iff_getElem.mp hl j n hj k1 h).le
    · have e : j = n := by omega
      obtain ⟨k1, rfl⟩ := List.getElem?_eq_some_iff.mp ha
      simp [e]
  have right : ∀ j (hj : j < l.length), n + 1 ≤ j → b ≤ l[j] := by
    intro j hj hjn
    rcases Nat.lt_or_ge (n + 1) j with h | h
    · obtain ⟨k1, rfl⟩ := List.getElem?_eq_some_iff.mp hb
      exact (List.pairwise_iff_getElem.mp hl (n + 1) j k1 hj h).le
    · have e : j = n + 1 := by omega
      obtain ⟨k1, rfl⟩ := List.getElem?_eq_some_iff.mp hb
      simp [e]
  rcases hi with ⟨rfl, hr⟩ | ⟨rfl, hr⟩
  · refine ⟨a, l[j], ha, hv, ?_⟩
    rw [abs_of_nonneg (by nlinarith)]
    rcases Nat.lt_or_ge i j with hij | hij
    · have := right j hj hij
      rw [abs_of_nonpos (by nlinarith)]; nlinarith
    · have := left j hj hij
      rw [abs_of_nonneg (by nlinarith)]; linarith
  · refine ⟨b, l[j], hb, hv, ?_⟩
    rw [abs_of_nonpos (by nlinarith)]
    rcases Nat.lt_or_ge n j with hij | hij
    · have := right j hj hij
      rw [abs_of_nonpos (by nlinarith)]; linarith
    · have := left j hj hij
      rw [abs_of_nonneg (by nlinarith)]; nlinarith

/-- C30 (Scipy, 2D): the sampled value is the value at a node that is nearest to the position along each axis. -/
theorem C30_scipy_2D (g : RGrid) (hg : FlatGrid g) (h2d : g.depth.length ≤ 1) (ix : Indexing) (d : Arr)
    (x y z : ℚ) (hx : InRange g.lon x) (hy : InRange g.lat y) :
    ∃ i j, NearestNode g.lon x i ∧ NearestNode g.lat y j ∧ sample g ix .nearest d x y z = .ok (some (d.v 0 j i)) := by
  obtain ⟨p, hp, h1, h2⟩ := (C24_scipy g hg h2d x y z).1 ⟨hx, hy⟩
  obtain ⟨n, e1, _⟩ := locates_nat h1
  obtain ⟨m, e2, _⟩ := locates_nat h2
  rw [e1] at h1
  rw [e2] at h2
  refine ⟨n + (if p.xsi ≤ 1 / 2 then 0 else 1), m + (if p.eta ≤ 1 / 2 then 0 else 1), ?_, ?_, ?_⟩
  · apply nearestNode_of hg.lonInc h1
    split_ifs with h
    · left; exact ⟨rfl, h⟩
    · right; exact ⟨rfl, by linarith⟩
  · apply nearestNode_of hg.latInc h2
    split_ifs with h
    · left; exact ⟨rfl, h⟩
    · right; exact ⟨rfl, by linarith⟩
  · unfold sample
    rw [hp]
    simp only [if_pos h2d, interp2D, pyCell2, Arr.py, e1, e2]
    rw [wrap_nat_add, wrap_nat_add, wrap_zero]

/-- C30 (JIT, 2D). -/
theorem C30_jit_2D (g : RGrid) (hg : FlatGrid g) (h2d : g.depth.length ≤ 1) (ix : Indexing) (d : Arr) (hfit : Fits d g)
    (x y z : ℚ) (xi yi zi : Nat) (hxi : xi + 1 < g.lon.length) (hyi : yi + 1 < g.lat.length)
    (hx : InRange g.lon x) (hy : InRange g.lat y) :
    ∃ i j, NearestNode g.lon x i ∧ NearestNode g.lat y j ∧
      cSample g ix .nearest d x y z xi yi zi = .ok (d.v 0 j i) := by
  obtain ⟨p, hp, h1, h2⟩ := (C24_jit g hg h2d x y z xi yi zi hxi hyi).1 ⟨hx, hy⟩
  obtain ⟨n, e1, _⟩ := locates_nat h1
  obtain ⟨m, e2, _⟩ := locates_nat h2
  rw [e1] at h1
  rw [e2] at h2
  have nx : d.nx ≠ 1 := by have := hg.lonLen; have := hfit.1; omega
  have ny : d.ny ≠ 1 := by have := hg.latLen; have := hfit.2.1; omega
  refine ⟨n + (if p.xsi < 1 / 2 then 0 else 1), m + (if p.eta < 1 / 2 then 0 else 1), ?_, ?_, ?_⟩
  · apply nearestNode_of hg.lonInc h1
    split_ifs with h
    · left; exact ⟨rfl, h.le⟩
    · right; exact ⟨rfl, by linarith⟩
  · apply nearestNode_of hg.latInc h2
    split_ifs with h
    · left; exact ⟨rfl, h.le⟩
    · right; exact ⟨rfl, by linarith⟩
  · unfold cSample
    rw [hp]
    simp only [if_pos h2d, cInterp2D, cCell2, e1, e2, if_neg nx, if_neg ny, Int.toNat_natCast]

/-- C30 (Scipy, 3D). -/
theorem C30_scipy_3D (g : RGrid) (hg : FlatGrid g) (hdep : Increasing g.depth) (h3d : 2 ≤ g.depth.length)
    (hm5 : g.mom5 = false) (ix : Indexing) (d : Arr) (x y z : ℚ) (hx : InRange g.lon x) (hy : InRange g.lat y)
    (hz1 : ¬ BeforeFirst g.depth z) (hz2 : ¬ BeyondLast g.depth z) :
    ∃ i j k, NearestNode g.lon x i ∧ NearestNode g.lat y j ∧ NearestNode g.depth z k ∧
      sample g ix .nearest d x y z = .ok (some (d.v k j i)) := by
  obtain ⟨p, hp, h1, h2, h3⟩ := (C24_scipy_3D g hg (Or.inl hdep) h3d hm5 x y z hx hy).2.2 hz1 hz2
  obtain ⟨n, e1, _⟩ := locates_nat h1
  obtain ⟨m, e2, _⟩ := locates_nat h2
  obtain ⟨q, e3, _⟩ := locates_nat h3
  rw [e1] at h1
  rw [e2] at h2
  rw [e3] at h3
  refine ⟨n + (if p.xsi ≤ 1 / 2 then 0 else 1), m + (if p.eta ≤ 1 / 2 then 0 else 1),
    q + (if p.zeta ≤ 1 / 2 then 0 else 1), ?_, ?_, ?_, ?_⟩
  · apply nearestNode_of hg.lonInc h1
    split_ifs with h
    · left; exact ⟨rfl, h⟩
    · right; exact ⟨rfl, by linarith⟩
  · apply nearestNode_of hg.latInc h2
    split_ifs with h
    · left; exact ⟨rfl, h⟩
    · right; exact ⟨rfl, by linarith⟩
  · apply nearestNode_of hdep h3
    split_ifs with h
    · left; exact ⟨rfl, h⟩
    · right; exact ⟨rfl, by linarith⟩
  · unfold sample
    rw [hp]
    simp only [if_neg (show ¬ g.depth.length ≤ 1 by omega), interp3D, pyCell3, Arr.py, e1, e2, e3]
    rw [wrap_nat_add, wrap_nat_add, wrap_nat_add]

/-- C30 (JIT, 3D), except for POP indexing. -/
theorem C30_jit_3D_partial (g : RGrid) (hg : FlatGrid g) (hdep : Increasing g.depth) (h3d : 2 ≤ g.depth.length)
    (hm5 : g.mom5 = false) (ix : Indexing) (hix : ix ≠ .pop) (d : Arr) (hfit : Fits d g) (x y z : ℚ)
    (xi yi zi : Nat) (hxi : xi + 1 < g.lon.length) (hyi : yi + 1 < g.lat.length)
    (hzi : zi ≤ g.depth.length - 1) (hx : InRange g.lon x) (hy : InRange g.lat y)
    (hz1 : ¬ BeforeFirst g.depth z) (hz2 : ¬ BeyondLast g.depth z) :
    ∃ i j k, NearestNode g.lon x i ∧ NearestNode g.lat y j ∧ NearestNode g.depth z k ∧
      cSample g ix .nearest d x y z xi yi zi = .ok (d.v k j i) := by
  obtain ⟨p, hp, h1, h2, h3⟩ := (C24_jit_3D g hg (Or.inl hdep) h3d hm5 x y z xi yi zi hxi hyi hzi hx hy).2.2 hz1 hz2
  obtain ⟨n, e1, _⟩ := locates_nat h1
  obtain ⟨m, e2, _⟩ := locates_nat h2
  obtain ⟨q, e3, _⟩ := locates_nat h3
  rw [e1] at h1
  rw [e2] at h2
  rw [e3] at h3
  have nx : d.nx ≠ 1 := by have := hg.lonLen; have := hfit.1; omega
  have ny : d.ny ≠ 1 := by have := hg.latLen; have := hfit.2.1; omega
  have nz : d.nz ≠ 1 := by have := hfit.2.2; omega
  have htop : decide ((q : ℤ) = -1) = false := decide_eq_false (by omega)
  refine ⟨n + (if p.xsi < 1 / 2 then 0 else 1), m + (if p.eta < 1 / 2 then 0 else 1),
    q + (if p.zeta < 1 / 2 then 0 else 1), ?_, ?_, ?_, ?_⟩
  · apply nearestNode_of hg.lonInc h1
    split_ifs with h
    · left; exact ⟨rfl, h.le⟩
    · right; exact ⟨rfl, by linarith⟩
  · apply nearestNode_of hg.latInc h2
    split_ifs with h
    · left; exact ⟨rfl, h.le⟩
    · right; exact ⟨rfl, by linarith⟩
  · apply nearestNode_of hdep h3
    split_ifs with h
    · left; exact ⟨rfl, h.le⟩
    · right; exact ⟨rfl, by linarith⟩
  · unfold cSample
    rw [hp]
    simp only [if_neg (show ¬ g.depth.length ≤ 1 by omega), e1, e2, e3, htop, Bool.and_false, hix, decide_false,
      Bool.false_and, Bool.false_eq_true, if_false, cInterp3D, cCell3, if_neg nx, if_neg ny, if_neg nz,
      Int.toNat_natCast]

/-- C30: if no coordinate is exactly midway between two nodes, the nearest node is unique, so Scipy and JIT agree. -/
theorem C30_unique (l : List ℚ) (hl : Increasing l) (x : ℚ) (i j : Nat) (hi' : i < l.length)
    (hj' : j < l.length) (hi : NearestNode l x i)
    (hj : NearestNode l x j) (hmid : ∀ (a b : Nat) (u v : ℚ), a ≠ b → l[a]? = some u → l[b]? = some v → x ≠ (u + v) / 2) :
    i = j := by
  by_contra hne
  have hjl : j < l.length ∧ i < l.length := ⟨hj', hi'⟩
  obtain ⟨a, b, ha, hb, hab⟩ := hi j hjl.1
  obtain ⟨b', a', hb', ha', hba⟩ := hj i hjl.2
  rw [ha] at ha'; rw [hb] at hb'
  injection ha' with ea; injection hb' with eb
  subst ea; subst eb
  have heq := le_antisymm hab hba
  have hne' : a ≠ b := by
    intro h; subst h
    obtain ⟨k1, e1⟩ := List.getElem?_eq_some_iff.mp ha
    obtain ⟨k2, e2⟩ := List.getElem?_eq_some_iff.mp hb
    rcases Nat.lt_or_gt_of_ne hne with h | h
    · have := List.pairwise_iff_getElem.mp hl i j k1 k2 h; linarith
    · have := List.pairwise_iff_getElem.mp hl j i k2 k1 h; linarith
  rcases abs_eq_abs.mp heq with h | h
  · exact hne' (by linarith)
  · exact hmid i j a b hne ha hb (by linarith)

example : sample exGrid .nemo .nearest { exArr with nz := 1 } (5 / 2) 2 0 = .ok (some 12) ∧
    cSample exGrid .nemo .nearest { exArr with nz := 1 } (5 / 2) 2 0 0 0 0 = .ok 12 := by decide +kernel

/-- Exactly midway, the two modes differ: Scipy takes the western, JIT the eastern node. -/
theorem C30_midway_differs :
    sample exGrid .nemo .nearest { exArr with nz := 1 } 2 (-5) 0 = .ok (some 1) ∧
    cSample exGrid .nemo .nearest { exArr with nz := 1 } 2 (-5) 0 0 0 0 = .ok 2 := by decide +kernel

/-- C30 is false in JIT mode with POP indexing in the lowest layer: the value comes from one level too high
(nearest level 2; data equal the level number). -/
theorem C30_pop_lowest_layer :
    NearestNode exGrid3.depth 28 2 ∧
    sample exGrid3 .pop .nearest { exArr with v := fun k _ _ => k } 2 0 28 = .ok (some 2) ∧
    cSample exGrid3 .pop .nearest { exArr with v := fun k _ _ => k } 2 0 28 0 0 0 = .ok 1 := by
  refine ⟨?_, by decide +kernel, by decide +kernel⟩
  apply nearestNode_of (n := 1) (r := 9 / 10) (by unfold Increasing; decide +kernel)
  · exact ⟨1, 10, 30, rfl, by decide +kernel, by decide +kernel, by norm_num, by norm_num, by norm_num⟩
  · right; exact ⟨rfl, by norm_num⟩

end Parcels.Interp
