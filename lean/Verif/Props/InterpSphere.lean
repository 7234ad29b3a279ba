import Verif.Props.SearchSphere

/-!
C29 and C30 on spherical rectilinear grids.
-/

namespace Parcels.Interp
open Parcels.Search

theorem locatesMod_nat {l : List ℚ} {x : ℚ} {i : ℤ} {r : ℚ} (h : LocatesMod360 l x i r) : ∃ n : Nat, i = n := by
  obtain ⟨n, _, _, _, _, _, rfl, _⟩ := h
  exact ⟨n, rfl⟩

/-- The bilinear formula does not depend on the choice of the cell that contains the position. -/
theorem bilinearAt_unique_mod (d : Arr) (k : Nat) {g : RGrid} {U : List ℚ} (hg : SphereGrid g U)
    (hs : Seamless g U d) {x y : ℚ} {n n' m m' : Nat} {r r' s s' : ℚ} (h1 : LocatesMod360 g.lon x n r)
    (h2 : LocatesMod360 g.lon x n' r') (h3 : Locates g.lat y m s) (h4 : Locates g.lat y m' s') :
    bilinearAt d k m n s r = bilinearAt d k m' n' s' r' := by
  have hsp : ∀ j, U.getLastD 0 - U.headD 0 < 360 ∨
      (U.getLastD 0 - U.headD 0 = 360 ∧ d.v k j 0 = d.v k j (g.lon.length - 1)) := by
    intro j
    rcases hs with h | h
    · exact Or.inl h
    · exact Or.inr ⟨h.1, h.2 k j⟩
  have e1 := lin_unique_mod hg.lon (fun i => d.v k m i) (hsp m) h1 h2
  have e2 := lin_unique_mod hg.lon (fun i => d.v k (m + 1) i) (hsp (m + 1)) h1 h2
  have e3 := lin_unique hg.latInc h3 h4 (fun j => (1 - r') * d.v k j n' + r' * d.v k j (n' + 1))
  unfold bilinearAt lerp
  linear_combination (1 - s) * e1 + s * e2 + e3

theorem trilinearAt_unique_mod (d : Arr) {g : RGrid} {U : List ℚ} (hg : SphereGrid g U) (hs : Seamless g U d)
    (hdep : Increasing g.depth) {x y z : ℚ} {n n' m m' k k' : Nat} {r r' s s' t t' : ℚ}
    (h1 : LocatesMod360 g.lon x n r) (h2 : LocatesMod360 g.lon x n' r') (h3 : Locates g.lat y m s)
    (h4 : Locates g.lat y m' s') (h5 : Locates g.depth z k t) (h6 : Locates g.depth z k' t') :
    trilinearAt d k m n t s r = trilinearAt d k' m' n' t' s' r' := by
  have e1 := bilinearAt_unique_mod d k hg hs h1 h2 h3 h4
  have e2 := bilinearAt_unique_mod d (k + 1) hg hs h1 h2 h3 h4
  have e3 := lin_unique hdep h5 h6 (fun q => bilinearAt d q m' n' s' r')
  unfold trilinearAt lerp
  linear_combination (1 - t) * e1 + t * e2 + e3

/-- C29 (Scipy, 2D, spherical): for every longitude that passes the range check and is on the axis as it is or with
360 added, and for every cell that contains the position modulo 360, sampling gives the bilinear interpolation of that
cell. -/
theorem C29_scipy_spherical_2D_partial (g : RGrid) (U : List ℚ) (hg : SphereGrid g U) (h2d : g.depth.length ≤ 1)
    (ix : Indexing) (d : Arr) (hd : Seamless g U d) (x y z : ℚ) (hacc : Accepted g x)
    (hon : OnAxis U x 0 ∨ (x < U.headD 0 ∧ OnAxis U x 1)) (n m : Nat) (r s : ℚ)
    (hx : LocatesMod360 g.lon x n r) (hy : Locates g.lat y m s) :
    sample g ix .linear d x y z = .ok (some (bilinearAt d 0 m n s r)) := by
  obtain ⟨p, hp, h1, h2⟩ := C26_scipy_found_partial g hg.sph U hg.lon hg.latInc hg.latLen h2d x y z hacc
    (locates_inRange hg.latInc hy) (by
      rcases hon with ⟨a, b⟩ | ⟨a, b, c⟩
      · left; simpa using And.intro a b
      · right; simpa using And.intro a (And.intro b c))
  obtain ⟨n', e1⟩ := locatesMod_nat h1
  obtain ⟨m', e2, _⟩ := locates_nat h2
  unfold sample
  rw [hp]
  simp only [if_pos h2d, interp2D]
  rw [e1] at h1
  rw [e2] at h2
  have hc : pyCell2 d p = fun j i => d.v 0 (m' + j) (n' + i) := by
    funext j i
    unfold pyCell2 Arr.py
    rw [e1, e2, wrap_nat_add, wrap_nat_add, wrap_zero]
  rw [hc, bilin_eq, bilinearAt_unique_mod d 0 hg hd h1 hx h2 hy]

/-- C29 (JIT, 2D, spherical): the same from every previous cell of the particle. -/
theorem C29_jit_spherical_2D_partial (g : RGrid) (U : List ℚ) (hg : SphereGrid g U) (hm : ModestAxis U)
    (hn : g.lon.length ≤ 5000) (h2d : g.depth.length ≤ 1) (ix : Indexing) (d : Arr) (hfit : Fits d g)
    (hd : Seamless g U d) (x y z : ℚ) (xi yi zi : Nat) (hxi : xi + 1 < g.lon.length) (hyi : yi + 1 < g.lat.length)
    (hacc : Accepted g x) (w : ℤ) (hw : w = 0 ∨ w = 1 ∨ (w = -1 ∧ U = g.lon)) (hon : OnAxis U x w)
    (n m : Nat) (r s : ℚ) (hx : LocatesMod360 g.lon x n r) (hy : Locates g.lat y m s) :
    cSample g ix .linear d x y z xi yi zi = .ok (bilinearAt d 0 m n s r) := by
  obtain ⟨p, hp, h1, h2⟩ := C26_jit_found_partial g U hg hm hn h2d x y z xi yi zi hxi hyi hacc
    (locates_inRange hg.latInc hy) w hw hon
  obtain ⟨n', e1⟩ := locatesMod_nat h1
  obtain ⟨m', e2, _⟩ := locates_nat h2
  unfold cSample
  rw [hp]
  simp only [if_pos h2d, cInterp2D]
  rw [e1] at h1
  rw [e2] at h2
  have nx : d.nx ≠ 1 := by have := eastward_len hg.lon; have := hfit.1; omega
  have ny : d.ny ≠ 1 := by have := hg.latLen; have := hfit.2.1; omega
  have hc : cCell2 d p.xi.toNat p.yi.toNat = fun j i => d.v 0 (m' + j) (n' + i) := by
    funext j i
    unfold cCell2
    rw [e1, e2, if_neg nx, if_neg ny, Int.toNat_natCast, Int.toNat_natCast]
  rw [hc, bilin_eq, bilinearAt_unique_mod d 0 hg hd h1 hx h2 hy]

/-- C29 (Scipy, 3D, spherical), for NEMO and MITgcm indexing. -/
theorem C29_scipy_spherical_3D_partial (g : RGrid) (U : List ℚ) (hg : SphereGrid g U) (hdep : Increasing g.depth)
    (h3d : 2 ≤ g.depth.length) (hm5 : g.mom5 = false) (ix : Indexing) (hix : ix = .nemo ∨ ix = .mitgcm) (d : Arr)
    (hd : Seamless g U d) (x y z : ℚ) (hacc : Accepted g x) (hon : OnAxis U x 0 ∨ (x < U.headD 0 ∧ OnAxis U x 1))
    (n m k : Nat) (r s t : ℚ) (hx : LocatesMod360 g.lon x n r) (hy : Locates g.lat y m s)
    (hz : Locates g.depth z k t) :
    sample g ix .linear d x y z = .ok (some (trilinearAt d k m n t s r)) := by
  obtain ⟨c1, c2⟩ := dep_cases hdep hz
  obtain ⟨p, hp, h1, h2, h3⟩ := (C26_scipy_found_3D_partial g U hg (Or.inl hdep) h3d hm5 x y z hacc
    (locates_inRange hg.latInc hy) hon).2.2 c1 c2
  obtain ⟨n', e1⟩ := locatesMod_nat h1
  obtain ⟨m', e2, _⟩ := locates_nat h2
  obtain ⟨k', e3, _⟩ := locates_nat h3
  unfold sample
  rw [hp]
  rw [e1] at h1
  rw [e2] at h2
  rw [e3] at h3
  have hc : ∀ q : Nat, pyCell3 d p q = fun j i => d.v (k' + q) (m' + j) (n' + i) := by
    intro q
    funext j i
    unfold pyCell3 Arr.py
    rw [e1, e2, e3, wrap_nat_add, wrap_nat_add, wrap_nat_add]
  have n1 : ¬ (ix = Indexing.pop ∧ (g.depth.length : ℤ) - 2 ≤ p.zi) := by
    rintro ⟨h, _⟩; rcases hix with h' | h' <;> rw [h'] at h <;> exact absurd h (by decide)
  simp only [if_neg (show ¬ g.depth.length ≤ 1 by omega), interp3D, linear3D, if_neg n1, reduceCtorEq, if_false,
    false_and]
  rw [hc 0, hc 1, bilin_eq, bilin_eq, ← trilinearAt_unique_mod d hg hd hdep h1 hx h2 hy h3 hz]
  unfold trilinearAt lerp
  simp only [Nat.add_zero]
  congr 2
  ring

/-- C29 (JIT, 3D, spherical), for NEMO and MITgcm indexing. -/
theorem C29_jit_spherical_3D_partial (g : RGrid) (U : List ℚ) (hg : SphereGrid g U) (hm : ModestAxis U)
    (hn : g.lon.length ≤ 5000) (hdep : Increasing g.depth) (h3d : 2 ≤ g.depth.length)
    (hm5 : g.mom5 = false) (ix : Indexing) (hix : ix = .nemo ∨ ix = .mitgcm) (d : Arr) (hfit : Fits d g)
    (hd : Seamless g U d) (x y z : ℚ) (xi yi zi : Nat) (hxi : xi + 1 < g.lon.length) (hyi : yi + 1 < g.lat.length)
    (hzi : zi ≤ g.depth.length - 1) (hacc : Accepted g x) (w : ℤ) (hw : w = 0 ∨ w = 1 ∨ (w = -1 ∧ U = g.lon))
    (hon : OnAxis U x w) (n m k : Nat) (r s t : ℚ) (hx : LocatesMod360 g.lon x n r) (hy : Locates g.lat y m s)
    (hz : Locates g.depth z k t) :
    cSample g ix .linear d x y z xi yi zi = .ok (trilinearAt d k m n t s r) := by
  obtain ⟨c1, c2⟩ := dep_cases hdep hz
  obtain ⟨p, hp, h1, h2, h3⟩ := (C26_jit_found_3D_partial g U hg hm hn (Or.inl hdep) h3d hm5 x y z xi yi zi hxi hyi
    hzi hacc (locates_inRange hg.latInc hy) w hw hon).2.2 c1 c2
  obtain ⟨n', e1⟩ := locatesMod_nat h1
  obtain ⟨m', e2, _⟩ := locates_nat h2
  obtain ⟨k', e3, _⟩ := locates_nat h3
  unfold cSample
  rw [hp]
  rw [e1] at h1
  rw [e2] at h2
  rw [e3] at h3
  have nx : d.nx ≠ 1 := by have := eastward_len hg.lon; have := hfit.1; omega
  have ny : d.ny ≠ 1 := by have := hg.latLen; have := hfit.2.1; omega
  have nz : d.nz ≠ 1 := by have := hfit.2.2; omega
  have hc : ∀ q : Nat, cCell3 d p.xi.toNat p.yi.toNat p.zi q = fun j i => d.v (k' + q) (m' + j) (n' + i) := by
    intro q
    funext j i
    unfold cCell3
    rw [e1, e2, e3, if_neg nx, if_neg ny, if_neg nz, Int.toNat_natCast, Int.toNat_natCast, Int.toNat_natCast]
  have i1 : decide (ix = Indexing.mom5) = false := by rcases hix with h | h <;> rw [h] <;> decide
  have i2 : decide (ix = Indexing.pop) = false := by rcases hix with h | h <;> rw [h] <;> decide
  simp only [if_neg (show ¬ g.depth.length ≤ 1 by omega), i1, i2, Bool.false_and, cInterp3D, cLinear3D,
    reduceCtorEq, or_self, if_false, Bool.false_eq_true, trilin]
  rw [hc 0, hc 1, bilin_eq, bilin_eq, ← trilinearAt_unique_mod d hg hd hdep h1 hx h2 hy h3 hz]
  unfold trilinearAt lerp
  simp only [Nat.add_zero]
  congr 1
  ring

/-- C29: both modes give the same value on the sphere, for the longitudes that both find. -/
theorem C29_spherical_modes_agree_2D_partial (g : RGrid) (U : List ℚ) (hg : SphereGrid g U) (hm : ModestAxis U)
    (hn : g.lon.length ≤ 5000) (h2d : g.depth.length ≤ 1) (ix : Indexing) (d : Arr) (hfit : Fits d g)
    (hd : Seamless g U d) (x y z : ℚ) (xi yi zi : Nat) (hxi : xi + 1 < g.lon.length) (hyi : yi + 1 < g.lat.length)
    (hacc : Accepted g x) (hon : OnAxis U x 0 ∨ (x < U.headD 0 ∧ OnAxis U x 1)) (hy : InRange g.lat y) :
    ∃ v, sample g ix .linear d x y z = .ok (some v) ∧ cSample g ix .linear d x y z xi yi zi = .ok v := by
  obtain ⟨p, hp, h1, h2⟩ := C26_scipy_found_partial g hg.sph U hg.lon hg.latInc hg.latLen h2d x y z hacc hy (by
      rcases hon with ⟨a, b⟩ | ⟨a, b, c⟩
      · left; simpa using And.intro a b
      · right; simpa using And.intro a (And.intro b c))
  obtain ⟨n, e1⟩ := locatesMod_nat h1
  obtain ⟨m, e2, _⟩ := locates_nat h2
  rw [e1] at h1
  rw [e2] at h2
  refine ⟨_, C29_scipy_spherical_2D_partial g U hg h2d ix d hd x y z hacc hon n m _ _ h1 h2, ?_⟩
  rcases hon with h | h
  · exact C29_jit_spherical_2D_partial g U hg hm hn h2d ix d hfit hd x y z xi yi zi hxi hyi hacc 0 (Or.inl rfl) h
      n m _ _ h1 h2
  · exact C29_jit_spherical_2D_partial g U hg hm hn h2d ix d hfit hd x y z xi yi zi hxi hyi hacc 1
      (Or.inr (Or.inl rfl)) h.2 n m _ _ h1 h2

/-- Data on the grid across the Pacific. -/
def pacArr : Arr := { nz := 3, ny := 3, nx := 7, v := fun k j i => 100 * k + 10 * j + i }

example : Seamless pacific pacificU pacArr := by left; decide +kernel

example : Fits pacArr pacific ∧ LocatesMod360 pacific.lon 30 (4 : Nat) (5 / 6) ∧
    Locates pacific.lat 5 (1 : Nat) (1 / 2) ∧ Locates pacific.depth 20 (1 : Nat) (1 / 2) :=
  ⟨⟨rfl, rfl, rfl⟩,
   ⟨4, -20, 40, 60, 0, 0, rfl, by decide +kernel, by decide +kernel, by norm_num, by norm_num, by norm_num, by norm_num,
     by norm_num, by norm_num⟩,
   ⟨1, 0, 10, rfl, by decide +kernel, by decide +kernel, by norm_num, by norm_num, by norm_num⟩,
   ⟨1, 10, 30, rfl, by decide +kernel, by decide +kernel, by norm_num, by norm_num, by norm_num⟩⟩

example : sample pacific .nemo .linear pacArr 30 5 20 = .ok (some (1019 / 6)) ∧
    cSample pacific .nemo .linear pacArr 30 5 20 1 0 0 = .ok (1019 / 6) ∧
    trilinearAt pacArr 1 1 4 (1 / 2) (1 / 2) (5 / 6) = 1019 / 6 := by decide +kernel

/-- A full turn whose two ends hold different data (here the values of `global` are 0 to 4). -/
def seamArr : Arr := { nz := 1, ny := 2, nx := 5, v := fun _ _ i => i }

/-- C29 is false at the seam of a full turn whose ends differ: at longitude 0, which is also 360, the compiled search
keeps the value of the cell it came from, 0 or 4. -/
theorem C29_seam_history_fails :
    cSample global .nemo .linear seamArr 0 5 0 0 0 0 = .ok 0 ∧
    cSample global .nemo .linear seamArr 0 5 0 3 0 0 = .ok 4 := by decide +kernel

/-! ### Nearest neighbour (C30) -/

theorem nearest_circle {l U : List ℚ} (hU : EastwardAxis l U) (hspan : U.getLastD 0 - U.headD 0 ≤ 360) {x : ℚ}
    {n : Nat} {r : ℚ} (h : LocatesMod360 l x n r) (i : Nat) (hi : (i = n ∧ r ≤ 1 / 2) ∨ (i = n + 1 ∧ 1 / 2 ≤ r)) :
    NearestOnCircle l x i := by
  have hl := eastward_length hU
  have hlen := eastward_len hU
  have hinc := eastward_inc hU
  rw [headD_getD, getLastD_getD] at hspan
  obtain ⟨s, hs⟩ := locates_unwrapped hU h
  obtain ⟨e, e1, _⟩ := eastward_turn hU
  have hnear := nearestNode_of hinc hs i hi
  obtain ⟨n', a, b, hn, ha, hb, h0, h1, hx⟩ := hs
  obtain rfl : n = n' := by exact_mod_cast hn
  have hbl := (List.getElem?_eq_some_iff.mp hb).1
  have hag : U.getD n 0 = a := by
    rw [List.getD_eq_getElem _ _ (by omega)]; exact (List.getElem?_eq_some_iff.mp ha).2
  have hbg : U.getD (n + 1) 0 = b := by
    rw [List.getD_eq_getElem _ _ (by omega)]; exact (List.getElem?_eq_some_iff.mp hb).2
  have hab := inc_lt hinc (show n < n + 1 by omega) hbl
  rw [hag, hbg] at hab
  have hilen : i < l.length := by omega
  have lget : ∀ j, j < l.length → l[j]? = some (l.getD j 0) := by
    intro j hj
    rw [List.getD_eq_getElem _ _ hj]; exact List.getElem?_eq_getElem _
  -- distance of the chosen node to both sides
  have hd1 : |x + 360 * s - U.getD i 0| ≤ x + 360 * s - a := by
    rcases hi with ⟨rfl, hr⟩ | ⟨rfl, hr⟩
    · rw [hag, abs_of_nonneg (by nlinarith)]
    · rw [hbg, abs_of_nonpos (by nlinarith)]; nlinarith
  have hd2 : |x + 360 * s - U.getD i 0| ≤ b - (x + 360 * s) := by
    rcases hi with ⟨rfl, hr⟩ | ⟨rfl, hr⟩
    · rw [hag, abs_of_nonneg (by nlinarith)]; nlinarith
    · rw [hbg, abs_of_nonpos (by nlinarith)]; linarith
  have hfa : U.getD 0 0 ≤ a := by rw [← hag]; exact inc_le hinc (Nat.zero_le _) (by omega)
  have hbl' : b ≤ U.getD (U.length - 1) 0 := by rw [← hbg]; exact inc_le hinc (by omega) (by omega)
  refine ⟨l.getD i 0, s - e i, lget i hilen, ?_⟩
  intro j bj k hj
  have hjl := (List.getElem?_eq_some_iff.mp hj).1
  have hbj : l.getD j 0 = bj := by
    rw [lget j hjl] at hj; simpa using hj
  have ei := e1 i hilen
  have ej := e1 j hjl
  rw [hbj] at ej
  have q1 : x - l.getD i 0 + 360 * ((s - e i : ℤ) : ℚ) = x + 360 * s - U.getD i 0 := by push_cast; rw [ei]; ring
  have q2 : x - bj + 360 * (k : ℚ) = x + 360 * s - U.getD j 0 + 360 * ((k - s + e j : ℤ) : ℚ) := by
    push_cast; rw [ej]; ring
  rw [q1, q2]
  have hj0 : U.getD 0 0 ≤ U.getD j 0 := inc_le hinc (Nat.zero_le _) (by omega)
  have hj1 : U.getD j 0 ≤ U.getD (U.length - 1) 0 := inc_le hinc (by omega) (by omega)
  rcases lt_trichotomy (k - s + e j) 0 with hc | hc | hc
  · have hc' : ((k - s + e j : ℤ) : ℚ) ≤ -1 := by exact_mod_cast (by omega : k - s + e j ≤ -1)
    refine le_trans hd2 (le_trans ?_ (neg_le_abs _))
    linarith
  · rw [hc]
    obtain ⟨a', b', ha', hb', hle⟩ := hnear j (by omega)
    have t1 : U.getD i 0 = a' := by
      rw [List.getD_eq_getElem _ _ (by omega)]; exact (List.getElem?_eq_some_iff.mp ha').2
    have t2 : U.getD j 0 = b' := by
      rw [List.getD_eq_getElem _ _ (by omega)]; exact (List.getElem?_eq_some_iff.mp hb').2
    rw [t1, t2]
    simpa using hle
  · have hc' : 1 ≤ ((k - s + e j : ℤ) : ℚ) := by exact_mod_cast (by omega : 1 ≤ k - s + e j)
    refine le_trans hd1 (le_trans ?_ (le_abs_self _))
    linarith

/-- C30 (Scipy, 2D, spherical): the sampled value is the value at a node that is nearest to the position, on the circle
of longitudes and on the axis of latitudes, among all nodes of the grid. -/
theorem C30_scipy_spherical_2D_partial (g : RGrid) (U : List ℚ) (hg : SphereGrid g U)
    (hspan : U.getLastD 0 - U.headD 0 ≤ 360) (h2d : g.depth.length ≤ 1) (ix : Indexing) (d : Arr) (x y z : ℚ)
    (hacc : Accepted g x) (hon : OnAxis U x 0 ∨ (x < U.headD 0 ∧ OnAxis U x 1)) (hy : InRange g.lat y) :
    ∃ i j, NearestOnCircle g.lon x i ∧ NearestNode g.lat y j ∧
      sample g ix .nearest d x y z = .ok (some (d.v 0 j i)) := by
  obtain ⟨p, hp, h1, h2⟩ := C26_scipy_found_partial g hg.sph U hg.lon hg.latInc hg.latLen h2d x y z hacc hy (by
      rcases hon with ⟨a, b⟩ | ⟨a, b, c⟩
      · left; simpa using And.intro a b
      · right; simpa using And.intro a (And.intro b c))
  obtain ⟨n, e1⟩ := locatesMod_nat h1
  obtain ⟨m, e2, _⟩ := locates_nat h2
  rw [e1] at h1
  rw [e2] at h2
  refine ⟨n + (if p.xsi ≤ 1 / 2 then 0 else 1), m + (if p.eta ≤ 1 / 2 then 0 else 1), ?_, ?_, ?_⟩
  · apply nearest_circle hg.lon hspan h1
    split_ifs with h
    · left; exact ⟨rfl, h⟩
    · right; exact ⟨rfl, by linarith⟩
  · apply nearestNode_of hg.latInc h2
    split_ifs with h
    · left; exact ⟨rfl, h⟩
    · right; exact ⟨rfl, by linarith⟩
  · unfold sample
    rw [hp]
    simp only [if_pos h2d, interp2D, pyCell2, Arr.py, e1, e2]
    rw [wrap_nat_add, wrap_nat_add, wrap_zero]

/-- C30 (JIT, 2D, spherical). -/
theorem C30_jit_spherical_2D_partial (g : RGrid) (U : List ℚ) (hg : SphereGrid g U) (hm : ModestAxis U)
    (hn : g.lon.length ≤ 5000) (h2d : g.depth.length ≤ 1) (ix : Indexing) (d : Arr) (hfit : Fits d g)
    (x y z : ℚ) (xi yi zi : Nat) (hxi : xi + 1 < g.lon.length) (hyi : yi + 1 < g.lat.length)
    (hacc : Accepted g x) (w : ℤ) (hw : w = 0 ∨ w = 1 ∨ (w = -1 ∧ U = g.lon)) (hon : OnAxis U x w)
    (hy : InRange g.lat y) :
    ∃ i j, NearestOnCircle g.lon x i ∧ NearestNode g.lat y j ∧
      cSample g ix .nearest d x y z xi yi zi = .ok (d.v 0 j i) := by
  obtain ⟨p, hp, h1, h2⟩ := C26_jit_found_partial g U hg hm hn h2d x y z xi yi zi hxi hyi hacc hy w hw hon
  obtain ⟨n, e1⟩ := locatesMod_nat h1
  obtain ⟨m, e2, _⟩ := locates_nat h2
  rw [e1] at h1
  rw [e2] at h2
  have nx : d.nx ≠ 1 := by have := eastward_len hg.lon; have := hfit.1; omega
  have ny : d.ny ≠ 1 := by have := hg.latLen; have := hfit.2.1; omega
  refine ⟨n + (if p.xsi < 1 / 2 then 0 else 1), m + (if p.eta < 1 / 2 then 0 else 1), ?_, ?_, ?_⟩
  · apply nearest_circle hg.lon hm.2 h1
    split_ifs with h
    · left; exact ⟨rfl, h.le⟩
    · right; exact ⟨rfl, by linarith⟩
  · apply nearestNode_of hg.latInc h2
    split_ifs with h
    · left; exact ⟨rfl, h.le⟩
    · right; exact ⟨rfl, by linarith⟩
  · unfold cSample
    rw [hp]
    simp only [if_pos h2d, cInterp2D, cCell2, e1, e2, if_neg nx, if_neg ny, Int.toNat_natCast]

/-- C30 (Scipy, 3D, spherical). -/
theorem C30_scipy_spherical_3D_partial (g : RGrid) (U : List ℚ) (hg : SphereGrid g U)
    (hspan : U.getLastD 0 - U.headD 0 ≤ 360) (hdep : Increasing g.depth) (h3d : 2 ≤ g.depth.length)
    (hm5 : g.mom5 = false) (ix : Indexing) (d : Arr) (x y z : ℚ)
    (hacc : Accepted g x) (hon : OnAxis U x 0 ∨ (x < U.headD 0 ∧ OnAxis U x 1)) (hy : InRange g.lat y)
    (hz1 : ¬ BeforeFirst g.depth z) (hz2 : ¬ BeyondLast g.depth z) :
    ∃ i j k, NearestOnCircle g.lon x i ∧ NearestNode g.lat y j ∧ NearestNode g.depth z k ∧
      sample g ix .nearest d x y z = .ok (some (d.v k j i)) := by
  obtain ⟨p, hp, h1, h2, h3⟩ := (C26_scipy_found_3D_partial g U hg (Or.inl hdep) h3d hm5 x y z hacc hy hon).2.2 hz1 hz2
  obtain ⟨n, e1⟩ := locatesMod_nat h1
  obtain ⟨m, e2, _⟩ := locates_nat h2
  obtain ⟨q, e3, _⟩ := locates_nat h3
  rw [e1] at h1
  rw [e2] at h2
  rw [e3] at h3
  refine ⟨n + (if p.xsi ≤ 1 / 2 then 0 else 1), m + (if p.eta ≤ 1 / 2 then 0 else 1),
    q + (if p.zeta ≤ 1 / 2 then 0 else 1), ?_, ?_, ?_, ?_⟩
  · apply nearest_circle hg.lon hspan h1
    split_ifs with h
    · left; exact ⟨rfl, h⟩
    · right; exact ⟨rfl, by linarith⟩
  · apply nearestNode_of hg.latInc h2
    split_ifs with h
    · left; exact ⟨rfl, h⟩
    · right; exact ⟨rfl, by linarith⟩
  · apply nearestNode_of hdep h3
    split_ifs with h
    · left; exact ⟨rfl, h⟩
    · right; exact ⟨rfl, by linarith⟩
  · unfold sample
    rw [hp]
    simp only [if_neg (show ¬ g.depth.length ≤ 1 by omega), interp3D, pyCell3, Arr.py, e1, e2, e3]
    rw [wrap_nat_add, wrap_nat_add, wrap_nat_add]

/-- C30 (JIT, 3D, spherical), except for POP indexing. -/
theorem C30_jit_spherical_3D_partial (g : RGrid) (U : List ℚ) (hg : SphereGrid g U) (hm : ModestAxis U)
    (hn : g.lon.length ≤ 5000) (hdep : Increasing g.depth) (h3d : 2 ≤ g.depth.length)
    (hm5 : g.mom5 = false) (ix : Indexing) (hix : ix ≠ .pop) (d : Arr) (hfit : Fits d g) (x y z : ℚ)
    (xi yi zi : Nat) (hxi : xi + 1 < g.lon.length) (hyi : yi + 1 < g.lat.length)
    (hzi : zi ≤ g.depth.length - 1) (hacc : Accepted g x) (w : ℤ) (hw : w = 0 ∨ w = 1 ∨ (w = -1 ∧ U = g.lon))
    (hon : OnAxis U x w) (hy : InRange g.lat y) (hz1 : ¬ BeforeFirst g.depth z) (hz2 : ¬ BeyondLast g.depth z) :
    ∃ i j k, NearestOnCircle g.lon x i ∧ NearestNode g.lat y j ∧ NearestNode g.depth z k ∧
      cSample g ix .nearest d x y z xi yi zi = .ok (d.v k j i) := by
  obtain ⟨p, hp, h1, h2, h3⟩ := (C26_jit_found_3D_partial g U hg hm hn (Or.inl hdep) h3d hm5 x y z xi yi zi hxi hyi
    hzi hacc hy w hw hon).2.2 hz1 hz2
  obtain ⟨n, e1⟩ := locatesMod_nat h1
  obtain ⟨m, e2, _⟩ := locates_nat h2
  obtain ⟨q, e3, _⟩ := locates_nat h3
  rw [e1] at h1
  rw [e2] at h2
  rw [e3] at h3
  have nx : d.nx ≠ 1 := by have := eastward_len hg.lon; have := hfit.1; omega
  have ny : d.ny ≠ 1 := by have := hg.latLen; have := hfit.2.1; omega
  have nz : d.nz ≠ 1 := by have := hfit.2.2; omega
  have htop : decide ((q : ℤ) = -1) = false := decide_eq_false (by omega)
  refine ⟨n + (if p.xsi < 1 / 2 then 0 else 1), m + (if p.eta < 1 / 2 then 0 else 1),
    q + (if p.zeta < 1 / 2 then 0 else 1), ?_, ?_, ?_, ?_⟩
  · apply nearest_circle hg.lon hm.2 h1
    split_ifs with h
    · left; exact ⟨rfl, h.le⟩
    · right; exact ⟨rfl, by linarith⟩
  · apply nearestNode_of hg.latInc h2
    split_ifs with h
    · left; exact ⟨rfl, h.le⟩
    · right; exact ⟨rfl, by linarith⟩
  · apply nearestNode_of hdep h3
    split_ifs with h
    · left; exact ⟨rfl, h.le⟩
    · right; exact ⟨rfl, by linarith⟩
  · unfold cSample
    rw [hp]
    simp only [if_neg (show ¬ g.depth.length ≤ 1 by omega), e1, e2, e3, htop, Bool.and_false, hix, decide_false,
      Bool.false_and, Bool.false_eq_true, if_false, cInterp3D, cCell3, if_neg nx, if_neg ny, if_neg nz,
      Int.toNat_natCast]

example : sample pacific .nemo .nearest pacArr 30 5 25 = .ok (some 215) ∧
    cSample pacific .nemo .nearest pacArr 30 6 25 1 0 0 = .ok 225 := by decide +kernel

end Parcels.Interp
