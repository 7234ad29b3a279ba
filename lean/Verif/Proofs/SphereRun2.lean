import Verif.Proofs.SphereRun
import Verif.Proofs.GridRun2
import Verif.Spec.SphereRun

namespace Parcels.SphereRun

open Search Interp TimeInterp
open GridRun (Fld Hint HintOk)
open KernelLoop (Exc)

/-! ### The value does not depend on the cell -/

/-- A function of the node that repeats after one turn. -/
def Repeats (U : List ℚ) (f : Nat → ℚ) : Prop :=
  U.getLastD 0 - U.headD 0 < 360 ∨
  ∃ n : Nat, 0 < n ∧ n < U.length ∧ ∀ i a b, U[i]? = some a → U[i + n]? = some b → b = a + 360 ∧ f i = f (i + n)

theorem lin_cyclic {l U : List ℚ} (hU : EastwardAxis l U) (hspan : U.getLastD 0 - U.headD 0 ≤ 450) (f : Nat → ℚ) (hf : Repeats U f)
    {x : ℚ} {n n' : Nat} {r r' : ℚ} (h : LocatesMod360 l x n r) (h' : LocatesMod360 l x n' r') :
    (1 - r) * f n + r * f (n + 1) = (1 - r') * f n' + r' * f (n' + 1) := by
  have hl := eastward_length hU
  have hlen := eastward_len hU
  have hinc := eastward_inc hU
  obtain ⟨s, hs⟩ := locates_unwrapped hU h
  obtain ⟨s', hs'⟩ := locates_unwrapped hU h'
  rw [headD_getD, getLastD_getD] at hspan
  unfold Repeats at hf
  rw [headD_getD, getLastD_getD] at hf
  have last : Locates U (U.getD (U.length - 1) 0) (U.length - 2 : Nat) 1 := by
    refine ⟨U.length - 2, U.getD (U.length - 2) 0, U.getD (U.length - 1) 0, rfl, getD_some (by omega), ?_, by norm_num, by norm_num, by ring⟩
    rw [show U.length - 2 + 1 = U.length - 1 by omega]
    exact getD_some (by omega)
  have key : ∀ {s s' : ℤ} {n n' : Nat} {r r' : ℚ}, Locates U (x + 360 * s) n r → Locates U (x + 360 * s') n' r' →
      s < s' → (1 - r) * f n + r * f (n + 1) = (1 - r') * f n' + r' * f (n' + 1) := by
    intro s s' n n' r r' hs hs' hlt
    have r1 := (inRange_inc hinc (by omega) _).mp (locates_inRange hinc hs)
    have r2 := (inRange_inc hinc (by omega) _).mp (locates_inRange hinc hs')
    have hge : (s : ℚ) + 1 ≤ s' := by exact_mod_cast hlt
    have hss : s' = s + 1 := by
      have : (s' : ℚ) < s + 2 := by linarith
      have : s' < s + 2 := by exact_mod_cast this
      omega
    subst hss
    push_cast at hs' r2
    rcases hf with hsp | ⟨n0, hn0, hn1, hf⟩
    · exfalso; linarith
    obtain ⟨n2, a, b, e, ha, hb, h0, h1, ex⟩ := hs
    obtain rfl : n = n2 := by exact_mod_cast e
    have hnl := (List.getElem?_eq_some_iff.mp hb).1
    have hab : a < b := by
      have := inc_lt hinc (show n < n + 1 by omega) hnl
      rw [getD_some (by omega)] at ha
      rw [getD_some hnl] at hb
      rw [← Option.some.inj ha, ← Option.some.inj hb]
      exact this
    by_cases c : n + 1 + n0 < U.length
    · obtain ⟨f1, f2⟩ := hf n a _ ha (getD_some (l := U) (show n + n0 < U.length by omega))
      obtain ⟨f3, f4⟩ := hf (n + 1) b _ hb (getD_some (l := U) c)
      have hL : Locates U (x + 360 * (s + 1)) (n + n0 : Nat) r := by
        refine ⟨n + n0, _, U.getD (n + 1 + n0) 0, rfl, getD_some (by omega), ?_, h0, h1, ?_⟩
        · rw [show n + n0 + 1 = n + 1 + n0 by omega]; exact getD_some c
        · rw [f1, f3]; linear_combination ex
      have := lin_unique hinc hL hs' f
      rw [f2, f4, show n + 1 + n0 = n + n0 + 1 by omega]
      exact this
    · set m := U.length - 1 - n0 with hm
      obtain ⟨f1, f2⟩ := hf m _ _ (getD_some (l := U) (show m < U.length by omega)) (getD_some (l := U) (show m + n0 < U.length by omega))
      rw [show m + n0 = U.length - 1 by omega] at f1 f2
      have hle : U.getD m 0 ≤ U.getD n 0 := inc_le hinc (by omega) (by omega)
      have hau : U.getD n 0 = a := by
        rw [getD_some (by omega)] at ha
        exact Option.some.inj ha
      have hrw : 0 ≤ r * (b - a) := mul_nonneg h0 (by linarith)
      have eq1 : U.getD m 0 = U.getD n 0 := by linarith
      have emn : m = n := by
        by_contra hne
        have := inc_lt hinc (show m < n by omega) (show n < U.length by omega)
        linarith
      have hr : r = 0 := by
        have : r * (b - a) = 0 := by linarith
        rcases mul_eq_zero.mp this with h | h
        · exact h
        · linarith
      have e2 : x + 360 * ((s : ℚ) + 1) = U.getD (U.length - 1) 0 := by rw [hr] at ex; rw [f1, eq1, hau]; linear_combination ex
      rw [e2] at hs'
      have u := lin_unique hinc hs' last f
      rw [show U.length - 2 + 1 = U.length - 1 by omega] at u
      rw [u, hr, ← emn, f2]
      ring
  rcases lt_trichotomy s s' with hc | hc | hc
  · exact key hs hs' hc
  · subst hc; exact lin_unique hinc hs hs' f
  · exact (key hs' hs hc).symm

theorem repeats_of {U : List ℚ} {d : Arr} (h : Cyclic U d) (k j : Nat) : Repeats U (fun i => d.v k j i) := by
  rcases h with h | ⟨n, h1, h2, h3⟩
  · exact Or.inl h
  · exact Or.inr ⟨n, h1, h2, fun i a b ha hb => ⟨(h3 i a b ha hb).1, (h3 i a b ha hb).2 k j⟩⟩

theorem bilinear_cyclic (d : Arr) (k : Nat) {g : RGrid} {U : List ℚ} (hg : SphereGrid g U) (hspan : U.getLastD 0 - U.headD 0 ≤ 450)
    (hs : Cyclic U d) {x y : ℚ} {n n' m m' : Nat} {r r' s s' : ℚ} (h1 : LocatesMod360 g.lon x n r)
    (h2 : LocatesMod360 g.lon x n' r') (h3 : Locates g.lat y m s) (h4 : Locates g.lat y m' s') :
    bilinearAt d k m n s r = bilinearAt d k m' n' s' r' := by
  have e1 := lin_cyclic hg.lon hspan (fun i => d.v k m i) (repeats_of hs k m) h1 h2
  have e2 := lin_cyclic hg.lon hspan (fun i => d.v k (m + 1) i) (repeats_of hs k (m + 1)) h1 h2
  have e3 := lin_unique hg.latInc h3 h4 (fun j => (1 - r') * d.v k j n' + r' * d.v k j (n' + 1))
  unfold bilinearAt lerp
  linear_combination (1 - s) * e1 + s * e2 + e3

theorem Sound.span450 {f : Fld} {U : List ℚ} (hf : Sound f U) : U.getLastD 0 - U.headD 0 ≤ 450 := by
  rcases hf.span with h | h
  · linarith
  · exact h.2

/-- There is at most one value. -/
theorem space_unique {f : Fld} {U : List ℚ} (hf : Sound f U) {d : Arr} (hd : Cyclic U d) {z y x w w' : ℚ} (h : SpaceValue f.grid d z y x w)
    (h' : SpaceValue f.grid d z y x w') : w = w' := by
  obtain ⟨n, m, r, s, hx, hy, h2, h3⟩ := h
  obtain ⟨n', m', r', s', hx', hy', h2', h3'⟩ := h'
  rcases Nat.lt_or_ge f.grid.depth.length 2 with c | c
  · rw [h2 (by omega), h2' (by omega)]
    exact bilinear_cyclic d 0 hf.sphere hf.span450 hd hx hx' hy hy'
  · obtain ⟨k, q, hz, rfl⟩ := h3 c
    obtain ⟨k', q', hz', rfl⟩ := h3' c
    have e1 := bilinear_cyclic d k hf.sphere hf.span450 hd hx hx' hy hy'
    have e2 := bilinear_cyclic d (k + 1) hf.sphere hf.span450 hd hx hx' hy hy'
    have e3 := lin_unique (hf.depth.resolve_left (by omega)) hz hz' (fun j => bilinearAt d j m' n' s' r')
    unfold trilinearAt lerp
    linear_combination (1 - q) * e1 + q * e2 + e3

/-! ### The two searches -/

/-- The depth is in the range of the levels, if there are some. -/
def DepthOk (g : RGrid) (z : ℚ) : Prop := 2 ≤ g.depth.length → ¬ BeforeFirst g.depth z ∧ ¬ BeyondLast g.depth z

/-- What a successful search gives. -/
def Found (g : RGrid) (x y z : ℚ) (p : Pos) : Prop :=
  LocatesMod360 g.lon x p.xi p.xsi ∧ Locates g.lat y p.yi p.eta ∧ (2 ≤ g.depth.length → Locates g.depth z p.zi p.zeta)

theorem Places.on {g : RGrid} {U : List ℚ} {x : ℚ} (h : Places g U x) : OnAxis U x 0 ∨ (x < U.headD 0 ∧ OnAxis U x 1) := by
  rcases h.2 with h | h
  · exact Or.inl h
  · exact Or.inr h.2

theorem scipy_found {f : Fld} {U : List ℚ} (hf : Sound f U) {x y z : ℚ} (hx : Places f.grid U x) (hy : InRange f.grid.lat y) (hz : DepthOk f.grid z) :
    ∃ p, searchRect f.grid x y z = .ok p ∧ Found f.grid x y z p := by
  have hg := hf.sphere
  rcases Nat.lt_or_ge f.grid.depth.length 2 with c | c
  · obtain ⟨p, hp, h1, h2⟩ := C26_scipy_found_partial f.grid hg.sph U hg.lon hg.latInc hg.latLen (by omega) x y z hx.1 hy (by
      rcases hx.on with ⟨a, b⟩ | ⟨a, b, c⟩
      · left; simpa using And.intro a b
      · right; simpa using And.intro a (And.intro b c))
    exact ⟨p, hp, h1, h2, fun h => by omega⟩
  · obtain ⟨p, hp, h1, h2, h3⟩ := (C26_scipy_found_3D_partial f.grid U hg (Or.inl (hf.depth.resolve_left (by omega))) c hf.mom5 x y z hx.1 hy hx.on).2.2
      (hz c).1 (hz c).2
    exact ⟨p, hp, h1, h2, fun _ => h3⟩

/-- The C search of the longitude, also on axes with a halo. -/
theorem jit_lon_any {f : Fld} {U : List ℚ} (hf : Sound f U) {x : ℚ} (hx : Places f.grid U x) {xi : Nat} (hxi : xi + 1 < f.grid.lon.length) :
    ∃ i r, cSearchX f.grid x xi = .ok (i, r) ∧ inUnit r = true ∧ LocatesMod360 f.grid.lon x i r := by
  have hg := hf.sphere
  have hlen := eastward_len hg.lon
  by_cases c : U.getLastD 0 - U.headD 0 ≤ 360
  · rcases hx.2 with h | ⟨-, -, h⟩
    · exact jit_lon hg ⟨hf.narrow, c⟩ hf.number (Or.inl rfl) h hxi
    · exact jit_lon hg ⟨hf.narrow, c⟩ hf.number (Or.inr (Or.inl rfl)) h hxi
  · obtain ⟨e, hs⟩ := hf.span.resolve_left c
    have hon : OnAxis U x 0 := by
      rcases hx.2 with h | h
      · exact h
      · exact absurd h.1 c
    unfold OnAxis at hon
    rw [headD_getD, getLastD_getD] at hon
    rw [headD_getD, getLastD_getD] at hs
    simp only [Int.cast_zero, mul_zero, add_zero] at hon
    have hL : Long f.grid.lon x := by
      rw [e]
      refine ⟨by rw [← e]; exact hlen, eastward_inc hg.lon, ?_, hs, hon.1, hon.2⟩
      intro i hi
      exact hf.narrow i _ _ (getD_some (by omega)) (getD_some hi)
    obtain ⟨⟨j, a, b⟩, hj⟩ := long_found hL 10000 xi hxi (by have := hf.number; omega)
    obtain ⟨i0, i1, ea, eb, ha, hb⟩ := cSphere_inv f.grid.lon hlen x 10000 xi (by omega) (by exact_mod_cast hxi) hj
    have h0 : 0 ≤ (x - a) / (b - a) := div_nonneg (by linarith) (by linarith)
    have h1 : (x - a) / (b - a) ≤ 1 := div_le_one_of_le₀ (by linarith) (by linarith)
    refine ⟨j, (x - a) / (b - a), ?_, ?_, cSphere_locates hg.lon hj (by omega) (by exact_mod_cast hxi) h0 h1⟩
    · unfold cSearchX
      rw [if_neg (by omega), hg.sph, cond_true, hj]
    · unfold inUnit; rw [Bool.and_eq_true]; exact ⟨decide_eq_true h0, decide_eq_true h1⟩

theorem jit_start {f : Fld} {U : List ℚ} (hf : Sound f U) {x y : ℚ} (hx : Places f.grid U x) (hy : InRange f.grid.lat y) (z : ℚ) {h : Hint}
    (hh : HintOk f h) : ∃ i r, LocatesMod360 f.grid.lon x i r ∧ Locates f.grid.lat y ((cAxis f.grid.lat y h.yi).1 : Nat) (cAxis f.grid.lat y h.yi).2 ∧
      cSearchRect f.grid x y z h.xi h.yi h.zi =
      match (if 1 < f.grid.depth.length then cSearchZ f.grid.depth false z h.zi else .ok ((h.zi : ℤ), 0)) with
      | .error e => .error e
      | .ok (k, zeta) =>
        if inUnit zeta then .ok ⟨r, (cAxis f.grid.lat y h.yi).2, zeta, i, ((cAxis f.grid.lat y h.yi).1 : Nat), k⟩ else .error .sampling := by
  have hg := hf.sphere
  rw [inRange_inc hg.latInc hg.latLen] at hy
  obtain ⟨i, r, e1, ux, hlx⟩ := jit_lon_any hf hx hh.1
  have hly := cAxis_locates hg.latInc hg.latLen hh.2.1 hy.1 hy.2
  have uy := inUnit_of_locates hly
  have r1 := accepted_check hx.1
  refine ⟨i, r, hlx, hly, ?_⟩
  unfold cSearchRect
  rw [if_neg (fun h => r1 ⟨h.1, h.2.2⟩)]
  rw [if_neg (by rw [minL_inc hg.latInc, maxL_inc hg.latInc]; rintro ⟨_, h | h⟩ <;> linarith)]
  simp only [e1, hf.mom5, ux, uy, Bool.and_self, Bool.true_and]
  generalize (if 1 < f.grid.depth.length then cSearchZ f.grid.depth false z h.zi else .ok ((h.zi : ℤ), 0)) = o
  rcases o with e | ⟨i, r⟩ <;> rfl

theorem jit_found {f : Fld} {U : List ℚ} (hf : Sound f U) {x y z : ℚ} (hx : Places f.grid U x) (hy : InRange f.grid.lat y) (hz : DepthOk f.grid z)
    {h : Hint} (hh : HintOk f h) : ∃ p, cSearchRect f.grid x y z h.xi h.yi h.zi = .ok p ∧ Found f.grid x y z p ∧ p.zi.toNat ≤ f.grid.depth.length - 1 := by
  obtain ⟨i, r, hlx, hly, e⟩ := jit_start hf hx hy z hh
  rw [e]
  rcases Nat.lt_or_ge f.grid.depth.length 2 with c | c
  · rw [if_neg (by omega)]
    have u0 : inUnit 0 = true := by decide +kernel
    simp only [u0, if_true]
    refine ⟨_, rfl, ⟨hlx, hly, fun h => by omega⟩, ?_⟩
    simpa using hh.2.2.1
  · obtain ⟨-, -, c3⟩ := C25_z_levels_jit f.grid.depth (Or.inl (hf.depth.resolve_left (by omega))) c z h.zi hh.2.2.1
    obtain ⟨k, q, hr, hloc⟩ := c3 (hz c).1 (hz c).2
    have uz := inUnit_of_locates hloc
    rw [if_pos (by omega), hr]
    simp only [uz, if_true]
    refine ⟨_, rfl, ⟨hlx, hly, fun _ => hloc⟩, ?_⟩
    obtain ⟨m, e1, e2⟩ := locates_nat hloc
    show (k : ℤ).toNat ≤ _
    rw [e1, Int.toNat_natCast]
    omega

/-- A successful search gives an interpolated value. -/
theorem value_of_found {g : RGrid} {x y z : ℚ} {p : Pos} (h : Found g x y z p) (d : Arr) :
    SpaceValue g d z y x (if g.depth.length ≤ 1 then bilinearAt d 0 p.yi.toNat p.xi.toNat p.eta p.xsi
      else trilinearAt d p.zi.toNat p.yi.toNat p.xi.toNat p.zeta p.eta p.xsi) := by
  obtain ⟨h1, h2, h3⟩ := h
  obtain ⟨n, e1⟩ := locatesMod_nat h1
  obtain ⟨m, e2, -⟩ := locates_nat h2
  rw [e1] at h1
  rw [e2] at h2
  refine ⟨n, m, _, _, h1, h2, fun c => ?_, fun c => ?_⟩
  · rw [if_pos c, e1, e2, Int.toNat_natCast, Int.toNat_natCast]
  · have h3 := h3 c
    obtain ⟨k, e3, -⟩ := locates_nat h3
    rw [e3] at h3
    refine ⟨k, _, h3, ?_⟩
    rw [if_neg (by omega), e1, e2, e3, Int.toNat_natCast, Int.toNat_natCast, Int.toNat_natCast]

theorem scipy_value {f : Fld} {d : Arr} {x y z : ℚ} {p : Pos} (hp : searchRect f.grid x y z = .ok p) (h : Found f.grid x y z p) :
    sample f.grid .nemo .linear d x y z = .ok (some (if f.grid.depth.length ≤ 1 then bilinearAt d 0 p.yi.toNat p.xi.toNat p.eta p.xsi
      else trilinearAt d p.zi.toNat p.yi.toNat p.xi.toNat p.zeta p.eta p.xsi)) := by
  obtain ⟨h1, h2, h3⟩ := h
  obtain ⟨n, e1⟩ := locatesMod_nat h1
  obtain ⟨m, e2, -⟩ := locates_nat h2
  unfold sample
  rw [hp]
  rcases Nat.lt_or_ge f.grid.depth.length 2 with c | c
  · have c' : f.grid.depth.length ≤ 1 := by omega
    simp only [if_pos c', interp2D]
    have hc : pyCell2 d p = fun j i => d.v 0 (m + j) (n + i) := by
      funext j i
      unfold pyCell2 Arr.py
      rw [e1, e2, wrap_nat_add, wrap_nat_add, wrap_zero]
    rw [hc, bilin_eq, e1, e2, Int.toNat_natCast, Int.toNat_natCast]
  · obtain ⟨k, e3, -⟩ := locates_nat (h3 c)
    have hc : ∀ q : Nat, pyCell3 d p q = fun j i => d.v (k + q) (m + j) (n + i) := by
      intro q
      funext j i
      unfold pyCell3 Arr.py
      rw [e1, e2, e3, wrap_nat_add, wrap_nat_add, wrap_nat_add]
    simp only [if_neg (show ¬ f.grid.depth.length ≤ 1 by omega), interp3D, linear3D, reduceCtorEq, if_false, false_and]
    rw [hc 0, hc 1, bilin_eq, bilin_eq, e1, e2, e3, Int.toNat_natCast, Int.toNat_natCast, Int.toNat_natCast]
    unfold trilinearAt lerp
    simp only [Nat.add_zero]
    congr 2
    ring

theorem jit_value {f : Fld} {U : List ℚ} (hf : Sound f U) {d : Arr} (hfit : Fits d f.grid) {x y z : ℚ} {p : Pos} {a b c : Nat}
    (hp : cSearchRect f.grid x y z a b c = .ok p) (h : Found f.grid x y z p) :
    cSample f.grid .nemo .linear d x y z a b c = .ok (if f.grid.depth.length ≤ 1 then bilinearAt d 0 p.yi.toNat p.xi.toNat p.eta p.xsi
      else trilinearAt d p.zi.toNat p.yi.toNat p.xi.toNat p.zeta p.eta p.xsi) := by
  have hg := hf.sphere
  obtain ⟨h1, h2, h3⟩ := h
  obtain ⟨n, e1⟩ := locatesMod_nat h1
  obtain ⟨m, e2, -⟩ := locates_nat h2
  have nx : d.nx ≠ 1 := by have := eastward_len hg.lon; have := hfit.1; omega
  have ny : d.ny ≠ 1 := by have := hg.latLen; have := hfit.2.1; omega
  unfold cSample
  rw [hp]
  rcases Nat.lt_or_ge f.grid.depth.length 2 with c | c
  · have c' : f.grid.depth.length ≤ 1 := by omega
    simp only [if_pos c', cInterp2D]
    have hc : cCell2 d p.xi.toNat p.yi.toNat = fun j i => d.v 0 (m + j) (n + i) := by
      funext j i
      unfold cCell2
      rw [e1, e2, if_neg nx, if_neg ny, Int.toNat_natCast, Int.toNat_natCast]
    rw [hc, bilin_eq, e1, e2, Int.toNat_natCast, Int.toNat_natCast]
  · obtain ⟨k, e3, -⟩ := locates_nat (h3 c)
    have nz : d.nz ≠ 1 := by have := hfit.2.2; omega
    have hc : ∀ q : Nat, cCell3 d p.xi.toNat p.yi.toNat p.zi q = fun j i => d.v (k + q) (m + j) (n + i) := by
      intro q
      funext j i
      unfold cCell3
      rw [e1, e2, e3, if_neg nx, if_neg ny, if_neg nz, Int.toNat_natCast, Int.toNat_natCast, Int.toNat_natCast]
    have i1 : decide (Indexing.nemo = Indexing.mom5) = false := by decide
    have i2 : decide (Indexing.nemo = Indexing.pop) = false := by decide
    simp only [if_neg (show ¬ f.grid.depth.length ≤ 1 by omega), i1, i2, Bool.false_and, cInterp3D, cLinear3D,
      reduceCtorEq, decide_false, or_self, if_false, Bool.false_eq_true, trilin]
    rw [hc 0, hc 1, bilin_eq, bilin_eq, e1, e2, e3, Int.toNat_natCast, Int.toNat_natCast, Int.toNat_natCast]
    unfold trilinearAt lerp
    simp only [Nat.add_zero]
    congr 1
    ring

end Parcels.SphereRun
