import Verif.Proofs.SphereRun2
import Verif.Proofs.GridRun3

namespace Parcels.SphereRun

open Search Interp TimeInterp
open GridRun (Fld Hint HintOk Prog Body TimeValue follow refScheme strip bare snap remember)
open KernelLoop (Exc)
open WholeRun (Scheme solution trajectory record core)
open Recovery (TP)

variable {V : Type}

/-! ### Units -/

theorem toTarget_eq (cosd : ℚ → ℚ) (c : Converters.Unit') (v y : ℚ) : toTarget cosd c v y = degrees cosd c y v := by
  cases c <;> simp only [toTarget, degrees]
  · rw [div_div, div_div]; norm_num
  · rw [div_div, div_div, div_div]; congr 1; ring
  · norm_num
  · norm_num

theorem cToTarget_eq (cosd : ℚ → ℚ) (c : Converters.Unit') (v y : ℚ) : v * cToTarget cosd c y = degrees cosd c y v := by
  cases c <;> simp only [cToTarget, degrees]
  · rw [mul_one]
  · rw [mul_one_div]; norm_num
  · rw [mul_one_div]; norm_num
  · rw [one_div, inv_pow, ← div_eq_mul_inv]; norm_num
  · rw [one_div, inv_pow, ← div_eq_mul_inv]; norm_num

/-! ### Space -/

theorem space_covers {f : Fld} {U : List ℚ} (hf : Sound f U) {d : Arr} {z y x w : ℚ} (h : SpaceValue f.grid d z y x w) :
    InRange f.grid.lat y ∧ DepthOk f.grid z := by
  obtain ⟨n, m, r, s, -, hy, -, h3⟩ := h
  refine ⟨GridRun.locates_inRange hy, fun c => ?_⟩
  obtain ⟨k, q, hz, -⟩ := h3 c
  exact dep_cases (hf.depth.resolve_left (by omega)) hz

theorem space_scipy {f : Fld} {U : List ℚ} (hf : Sound f U) {d : Arr} (hd : Cyclic U d) {z y x w : ℚ} (hx : Places f.grid U x)
    (h : SpaceValue f.grid d z y x w) : sample f.grid .nemo .linear d x y z = .ok (some w) := by
  obtain ⟨hy, hz⟩ := space_covers hf h
  obtain ⟨p, hp, hp'⟩ := scipy_found hf hx hy hz
  rw [scipy_value hp hp', space_unique hf hd h (value_of_found hp' d)]

theorem space_jit {f : Fld} {U : List ℚ} (hf : Sound f U) {d : Arr} (hd : Cyclic U d) (hfit : Fits d f.grid) {z y x w : ℚ} (hx : Places f.grid U x)
    (h : SpaceValue f.grid d z y x w) {hi : Hint} (hh : HintOk f hi) : cSample f.grid .nemo .linear d x y z hi.xi hi.yi hi.zi = .ok w := by
  obtain ⟨hy, hz⟩ := space_covers hf h
  obtain ⟨p, hp, hp', -⟩ := jit_found hf hx hy hz hh
  rw [jit_value hf hfit hp hp', space_unique hf hd h (value_of_found hp' d)]

/-- On a regional grid, a longitude that passes the range check and is on the axis is one where both modes look. -/
theorem places_of {g : RGrid} {U : List ℚ} (hg : SphereGrid g U) (hr : Regional g U) {x : ℚ} (hx : Accepted g x) {n : Nat} {r : ℚ}
    (h : LocatesMod360 g.lon x n r) : Places g U x := by
  have hl := eastward_length hg.lon
  have hlen := eastward_len hg.lon
  have hinc := eastward_inc hg.lon
  obtain ⟨e, e1, e2, -, -⟩ := eastward_turn hg.lon
  obtain ⟨a, b, ha, hb, hax, hxb⟩ := hx.resolve_left (by rw [hr.1]; decide)
  obtain ⟨i, hi, rfl⟩ := List.getElem_of_mem ha
  obtain ⟨j, hj, rfl⟩ := List.getElem_of_mem hb
  have hi' := e1 i hi
  have hj' := e1 j hj
  rw [List.getD_eq_getElem g.lon 0 hi] at hi'
  rw [List.getD_eq_getElem g.lon 0 hj] at hj'
  have u1 := inc_le hinc (Nat.zero_le i) (show i < U.length by omega)
  have u2 := inc_le hinc (show j ≤ U.length - 1 by omega) (by omega)
  have ei : (e i : ℚ) ≤ 1 := by rcases e2 i with h | h <;> rw [h] <;> norm_num
  have ej : (0 : ℚ) ≤ e j := by rcases e2 j with h | h <;> rw [h] <;> norm_num
  obtain ⟨s, hs⟩ := locates_unwrapped hg.lon h
  have hs' := (inRange_inc hinc (by omega) _).mp (GridRun.locates_inRange hs)
  refine ⟨hx, ?_⟩
  have hr2 := hr.2
  unfold OnAxis
  rw [headD_getD, getLastD_getD] at *
  rcases le_or_gt (U.getD 0 0) x with c | c
  · left
    refine ⟨by push_cast; linarith, by push_cast; linarith⟩
  · right
    refine ⟨hr2, c, by push_cast; linarith, ?_⟩
    have : (0 : ℚ) < s := by linarith [hs'.1]
    have : (0 : ℤ) < s := by exact_mod_cast this
    have : (1 : ℚ) ≤ s := by exact_mod_cast this
    push_cast
    linarith [hs'.2]

theorem foldl_mem (f : ℚ → ℚ → ℚ) (hf : ∀ a b, f a b = a ∨ f a b = b) : ∀ (l : List ℚ) (a : ℚ), l.foldl f a ∈ a :: l := by
  intro l
  induction l with
  | nil => intro a; simp
  | cons b l ih =>
    intro a
    rw [List.foldl_cons]
    have := ih (f a b)
    rcases hf a b with h | h <;> rw [h] at this ⊢ <;> simp only [List.mem_cons] at this ⊢
    · rcases this with h | h
      · exact Or.inl h
      · exact Or.inr (Or.inr h)
    · exact Or.inr this

theorem foldl_head_mem (f : ℚ → ℚ → ℚ) (hf : ∀ a b, f a b = a ∨ f a b = b) {l : List ℚ} (hl : l ≠ []) : l.foldl f (l.headD 0) ∈ l := by
  cases l with
  | nil => exact absurd rfl hl
  | cons a l =>
    have := foldl_mem f hf (a :: l) a
    rw [List.headD_cons]
    simp only [List.mem_cons] at this ⊢
    rcases this with h | h
    · exact Or.inl h
    · exact h

theorem minL_mem {l : List ℚ} (hl : l ≠ []) : minL l ∈ l := foldl_head_mem min min_choice hl

theorem maxL_mem {l : List ℚ} (hl : l ≠ []) : maxL l ∈ l := foldl_head_mem max max_choice hl

theorem accepted_of {g : RGrid} (hlen : 2 ≤ g.lon.length) {x : ℚ} (h : ¬ (g.zonalPeriodic = false ∧ (x < minL g.lon ∨ maxL g.lon < x))) : Accepted g x := by
  by_cases c : g.zonalPeriodic = true
  · exact Or.inl c
  · right
    have h' : ¬ (x < minL g.lon ∨ maxL g.lon < x) := fun hh => h ⟨by simpa using c, hh⟩
    rw [not_or, not_lt, not_lt] at h'
    exact ⟨_, _, minL_mem (by rintro e; rw [e] at hlen; simp at hlen), maxL_mem (by rintro e; rw [e] at hlen; simp at hlen), h'.1, h'.2⟩

theorem scipy_checks {f : Fld} {U : List ℚ} (hf : Sound f U) {x y z : ℚ} {p : Pos} (hp : searchRect f.grid x y z = .ok p) :
    Accepted f.grid x ∧ InRange f.grid.lat y := by
  have hlen := eastward_len hf.sphere.lon
  have hlat := hf.sphere.latLen
  unfold searchRect at hp
  by_cases c1 : 1 < f.grid.lon.length ∧ f.grid.zonalPeriodic = false ∧ (x < minL f.grid.lon ∨ maxL f.grid.lon < x)
  · rw [if_pos c1] at hp; cases hp
  rw [if_neg c1] at hp
  by_cases c2 : 1 < f.grid.lat.length ∧ (y < minL f.grid.lat ∨ maxL f.grid.lat < y)
  · rw [if_pos c2] at hp; cases hp
  refine ⟨accepted_of hlen fun h => c1 ⟨by omega, h⟩, ?_⟩
  have h' : ¬ (y < minL f.grid.lat ∨ maxL f.grid.lat < y) := fun hh => c2 ⟨by omega, hh⟩
  rw [not_or, not_lt, not_lt, minL_inc hf.sphere.latInc, maxL_inc hf.sphere.latInc] at h'
  exact (inRange_inc hf.sphere.latInc hlat y).mpr h'

theorem jit_checks {f : Fld} {U : List ℚ} (hf : Sound f U) {x y z : ℚ} {a b c : Nat} {p : Pos} (hp : cSearchRect f.grid x y z a b c = .ok p) :
    Accepted f.grid x ∧ InRange f.grid.lat y := by
  have hlen := eastward_len hf.sphere.lon
  have hlat := hf.sphere.latLen
  unfold cSearchRect at hp
  by_cases c1 : f.grid.zonalPeriodic = false ∧ 1 < f.grid.lon.length ∧ (x < minL f.grid.lon ∨ maxL f.grid.lon < x)
  · rw [if_pos c1] at hp; cases hp
  rw [if_neg c1] at hp
  by_cases c2 : 1 < f.grid.lat.length ∧ (y < minL f.grid.lat ∨ maxL f.grid.lat < y)
  · rw [if_pos c2] at hp; cases hp
  refine ⟨accepted_of hlen fun h => c1 ⟨h.1, by omega, h.2⟩, ?_⟩
  have h' : ¬ (y < minL f.grid.lat ∨ maxL f.grid.lat < y) := fun hh => c2 ⟨by omega, hh⟩
  rw [not_or, not_lt, not_lt, minL_inc hf.sphere.latInc, maxL_inc hf.sphere.latInc] at h'
  exact (inRange_inc hf.sphere.latInc hlat y).mpr h'

/-- On a regional grid, a search that succeeds is at a place where both modes look. -/
theorem scipy_back {f : Fld} {U : List ℚ} (hf : Sound f U) (hr : Regional f.grid U) {x y z : ℚ} {p : Pos} (hp : searchRect f.grid x y z = .ok p) :
    Places f.grid U x ∧ InRange f.grid.lat y ∧ DepthOk f.grid z := by
  have hg := hf.sphere
  obtain ⟨h1, h2⟩ := scipy_checks hf hp
  have hl := C26_scipy_sound f.grid hg.sph U hg.lon x y z p hp
  obtain ⟨n, e⟩ := locatesMod_nat hl
  rw [e] at hl
  have hP := places_of hg hr h1 hl
  refine ⟨hP, h2, fun c => ?_⟩
  obtain ⟨q1, q2, -⟩ := C26_scipy_found_3D_partial f.grid U hg (Or.inl (hf.depth.resolve_left (by omega))) c hf.mom5 x y z h1 h2 hP.on
  refine ⟨fun hb => ?_, fun hb => ?_⟩
  · rw [q1 hb] at hp; cases hp
  · rw [q2 hb] at hp; cases hp

theorem jit_back {f : Fld} {U : List ℚ} (hf : Sound f U) (hr : Regional f.grid U) {x y z : ℚ} {h : Hint} (hh : HintOk f h) {p : Pos}
    (hp : cSearchRect f.grid x y z h.xi h.yi h.zi = .ok p) : Places f.grid U x ∧ InRange f.grid.lat y ∧ DepthOk f.grid z := by
  have hg := hf.sphere
  obtain ⟨h1, h2⟩ := jit_checks hf hp
  have hl := C26_jit_sound f.grid hg.sph U hg.lon x y z _ _ _ hh.1 p hp
  obtain ⟨n, e⟩ := locatesMod_nat hl
  rw [e] at hl
  have hP := places_of hg hr h1 hl
  refine ⟨hP, h2, fun c => ?_⟩
  obtain ⟨i, r, -, -, e⟩ := jit_start hf hP h2 z hh
  rw [e, if_pos (by omega)] at hp
  obtain ⟨q1, q2, -⟩ := C25_z_levels_jit f.grid.depth (Or.inl (hf.depth.resolve_left (by omega))) c z h.zi hh.2.2.1
  refine ⟨fun hb => ?_, fun hb => ?_⟩
  · rw [q1 hb] at hp; cases hp
  · rw [q2 hb] at hp; cases hp

/-! ### Samples -/

theorem eval_value {f : SFld} {U : List ℚ} (hf : Sound f.fld U) (cosd : ℚ → ℚ) {t z y x w : ℚ} (hx : Places f.fld.grid U x)
    (h : FieldValue cosd f t z y x w) : eval cosd f t z y x = .ok w := by
  obtain ⟨v, u, hv, ht, rfl⟩ := h
  have hs : ∀ j, j < f.fld.time.length → snap f.fld z y x j = .ok (v j) := by
    intro j hj
    unfold snap
    rw [space_scipy hf (hf.cyclic j) hx (hv j hj)]
  unfold eval GridRun.eval
  rw [GridRun.time_scipy hf.timeInc hf.timeLen f.fld.extrap _ v hs t u ht]
  simp only [toTarget_eq]

theorem cEval_value {f : SFld} {U : List ℚ} (hf : Sound f.fld U) (cosd : ℚ → ℚ) {t z y x w : ℚ} (hx : Places f.fld.grid U x)
    (h : FieldValue cosd f t z y x w) {hi : Hint} (hh : HintOk f.fld hi) : cEval cosd f t z y x hi = .ok (w, remember f.fld t z y x hi) := by
  obtain ⟨v, u, hv, ht, rfl⟩ := h
  have hs : ∀ j, j < f.fld.time.length → cSample f.fld.grid .nemo .linear (f.fld.data j) x y z hi.xi hi.yi hi.zi = .ok (v j) := by
    intro j hj
    exact space_jit hf (hf.cyclic j) (hf.fits j) hx (hv j hj) hh
  unfold cEval GridRun.cEval
  rw [GridRun.time_jit hf.timeInc hf.timeLen f.fld.extrap _ v hs 0 hi.ti hh.2.2.2 t u ht]
  simp only [cToTarget_eq]

theorem value_of_places {f : SFld} {U : List ℚ} (hf : Sound f.fld U) {x y z : ℚ} (hx : Places f.fld.grid U x) (hy : InRange f.fld.grid.lat y)
    (hz : DepthOk f.fld.grid z) : ∃ val : Arr → ℚ, ∀ d, SpaceValue f.fld.grid d z y x (val d) := by
  obtain ⟨p, -, hp⟩ := scipy_found hf hx hy hz
  exact ⟨_, value_of_found hp⟩

/-- Where both modes look, they give a value at the same times. -/
theorem eval_back {f : SFld} {U : List ℚ} (hf : Sound f.fld U) (cosd : ℚ → ℚ) {t z y x w : ℚ} (hx : Places f.fld.grid U x)
    (hy : InRange f.fld.grid.lat y) (hz : DepthOk f.fld.grid z) (h : eval cosd f t z y x = .ok w) : FieldValue cosd f t z y x w := by
  obtain ⟨val, hval⟩ := value_of_places hf hx hy hz
  rcases GridRun.time_total hf.timeInc hf.timeLen f.fld.extrap t (fun i => val (f.fld.data i)) with ⟨u, hu⟩ | ⟨c, hc⟩
  · have hv : FieldValue cosd f t z y x (degrees cosd f.units y u) := ⟨_, u, fun i _ => hval _, hu, rfl⟩
    rw [eval_value hf cosd hx hv] at h
    injection h with h
    rw [← h]
    exact hv
  · exfalso
    have hs : ∀ j, j < f.fld.time.length → snap f.fld z y x j = .ok (val (f.fld.data j)) := by
      intro j _
      unfold snap
      rw [space_scipy hf (hf.cyclic j) hx (hval (f.fld.data j))]
    have hne : f.fld.time ≠ [] := List.length_pos_iff.mp hf.timeLen
    obtain ⟨o1, o2⟩ := C32_scipy_outside f.fld.time hf.timeInc hne (snap f.fld z y x) _ hs t
    unfold eval GridRun.eval at h
    rw [c] at h
    rcases hc with hc | hc
    · rw [(o1 hc).1] at h; cases h
    · rw [(o2 hc).1] at h; cases h

theorem cEval_back {f : SFld} {U : List ℚ} (hf : Sound f.fld U) (cosd : ℚ → ℚ) {t z y x w : ℚ} (hx : Places f.fld.grid U x)
    (hy : InRange f.fld.grid.lat y) (hz : DepthOk f.fld.grid z) {hi h' : Hint} (hh : HintOk f.fld hi) (h : cEval cosd f t z y x hi = .ok (w, h')) :
    FieldValue cosd f t z y x w := by
  obtain ⟨val, hval⟩ := value_of_places hf hx hy hz
  rcases GridRun.time_total hf.timeInc hf.timeLen f.fld.extrap t (fun i => val (f.fld.data i)) with ⟨u, hu⟩ | ⟨c, hc⟩
  · have hv : FieldValue cosd f t z y x (degrees cosd f.units y u) := ⟨_, u, fun i _ => hval _, hu, rfl⟩
    rw [cEval_value hf cosd hx hv hh] at h
    injection h with h
    rw [← (Prod.mk.inj h).1]
    exact hv
  · exfalso
    have hs : ∀ j, j < f.fld.time.length → cSample f.fld.grid .nemo .linear (f.fld.data j) x y z hi.xi hi.yi hi.zi = .ok (val (f.fld.data j)) := by
      intro j _
      exact space_jit hf (hf.cyclic j) (hf.fits j) hx (hval _) hh
    have hne : f.fld.time ≠ [] := List.length_pos_iff.mp hf.timeLen
    obtain ⟨o1, o2⟩ := C32_jit_outside f.fld.time hf.timeInc hne _ _ hs 0 hi.ti hh.2.2.2 t
    unfold cEval GridRun.cEval at h
    rw [c] at h
    rcases hc with hc | hc
    · rw [(o1 hc).1] at h; cases h
    · rw [(o2 hc).1] at h; cases h

/-- On a regional grid, sampling in Scipy mode gives the value where both modes look and there is one, and fails elsewhere. -/
theorem eval_iff {f : SFld} {U : List ℚ} (hf : Sound f.fld U) (hr : Regional f.fld.grid U) (cosd : ℚ → ℚ) (t z y x w : ℚ) :
    eval cosd f t z y x = .ok w ↔ Places f.fld.grid U x ∧ FieldValue cosd f t z y x w := by
  refine ⟨fun h => ?_, fun h => eval_value hf cosd h.1 h.2⟩
  cases hp : searchRect f.fld.grid x y z with
  | ok p =>
    obtain ⟨h1, h2, h3⟩ := scipy_back hf hr hp
    exact ⟨h1, eval_back hf cosd h1 h2 h3 h⟩
  | error e =>
    exfalso
    have hs : ∀ i, snap f.fld z y x i = .error e := by
      intro i
      unfold snap sample
      rw [hp]
    obtain ⟨e', h'⟩ := GridRun.evalTime_err (TAxis.full f.fld.time false f.fld.extrap) _ e hs t
    unfold eval GridRun.eval at h
    rw [h'] at h
    cases h

theorem cEval_iff {f : SFld} {U : List ℚ} (hf : Sound f.fld U) (hr : Regional f.fld.grid U) (cosd : ℚ → ℚ) {hi : Hint} (hh : HintOk f.fld hi)
    (t z y x w : ℚ) : (∃ h', cEval cosd f t z y x hi = .ok (w, h')) ↔ Places f.fld.grid U x ∧ FieldValue cosd f t z y x w := by
  refine ⟨fun ⟨h', h⟩ => ?_, fun h => ⟨_, cEval_value hf cosd h.1 h.2 hh⟩⟩
  cases hp : cSearchRect f.fld.grid x y z hi.xi hi.yi hi.zi with
  | ok p =>
    obtain ⟨h1, h2, h3⟩ := jit_back hf hr hh hp
    exact ⟨h1, cEval_back hf cosd h1 h2 h3 hh h⟩
  | error e =>
    exfalso
    have hs : ∀ i, cSample f.fld.grid .nemo .linear (f.fld.data i) x y z hi.xi hi.yi hi.zi = .error e := by
      intro i
      unfold cSample
      rw [hp]
    have hn := GridRun.cEvalTime_err (TAxis.full f.fld.time false f.fld.extrap) _ e hs 1 t hi.ti
    unfold cEval GridRun.cEval at h
    split at h
    · rename_i v hv
      split at hv
      · rename_i v' hv'; exact hn v' hv'
      · cases hv
      · cases hv
    · cases h

theorem remember_ok {f : Fld} {U : List ℚ} (hf : Sound f U) (t : ℚ) {z y x : ℚ} (hx : Places f.grid U x) (hy : InRange f.grid.lat y) (hz : DepthOk f.grid z)
    {h : Hint} (hh : HintOk f h) : HintOk f (remember f t z y x h) := by
  have hti := hh.2.2.2
  have hlen := hf.timeLen
  have hst : startIdx h.ti < f.time.length := by unfold startIdx; split_ifs <;> omega
  have hidx := cSearch_direct (T := f.time) false 0 0 0 t h.ti 0 (Or.inl rfl)
  obtain ⟨p, hp, ⟨p1, p2, -⟩, p3⟩ := jit_found hf hx hy hz hh
  unfold remember
  rw [hidx, hp]
  obtain ⟨n, e1⟩ := locatesMod_nat p1
  obtain ⟨m, e2, e2'⟩ := locates_nat p2
  refine ⟨?_, by show p.yi.toNat + 1 < _; rw [e2]; simpa using e2', p3, ?_⟩
  · show p.xi.toNat + 1 < _
    obtain ⟨n', a, b, w, q, q', en, -, hb, -⟩ := p1
    rw [en, Int.toNat_natCast]
    exact (List.getElem?_eq_some_iff.mp hb).1
  · have : cWalk ltB f.time t (startIdx h.ti) < f.time.length := by
      rcases lt_or_ge t (f.time.getD 0 0) with c | c
      · rw [walk_before hf.timeInc _ hst c]; omega
      · exact (walk_in hf.timeInc _ hst c).1
    show ((cWalk ltB f.time t (startIdx h.ti) : ℕ) : ℤ) < f.time.length
    exact_mod_cast this

theorem value_covers {f : SFld} {U : List ℚ} (hf : Sound f.fld U) {cosd : ℚ → ℚ} {t z y x w : ℚ} (h : FieldValue cosd f t z y x w) :
    InRange f.fld.grid.lat y ∧ DepthOk f.fld.grid z := by
  obtain ⟨v, u, hv, -, -⟩ := h
  exact space_covers hf (hv 0 hf.timeLen)

/-- There is at most one value. -/
theorem value_unique {f : SFld} {U : List ℚ} (hf : Sound f.fld U) {cosd : ℚ → ℚ} {t z y x w w' : ℚ} (hx : Places f.fld.grid U x)
    (h : FieldValue cosd f t z y x w) (h' : FieldValue cosd f t z y x w') : w = w' := by
  have a := eval_value hf cosd hx h
  rw [eval_value hf cosd hx h'] at a
  injection a with a
  exact a.symm

theorem interpolates_exists {fs : Nat → SFld} {U : Nat → List ℚ} (hf : ∀ i, Sound (fs i).fld (U i)) (cosd : ℚ → ℚ) : ∃ val, Interpolates cosd fs U val := by
  classical
  refine ⟨fun i t z y x => if h : ∃ w, Places (fs i).fld.grid (U i) x ∧ FieldValue cosd (fs i) t z y x w then some h.choose else none, fun i t z y x w => ?_⟩
  dsimp only
  split_ifs with h
  · have hc := h.choose_spec
    refine ⟨fun e => ?_, fun e => ?_⟩
    · rw [← Option.some.inj e]; exact hc
    · rw [value_unique (hf i) hc.1 hc.2 e.2]
  · exact ⟨fun e => (by cases e), fun e => absurd ⟨w, e⟩ h⟩

end Parcels.SphereRun
