import Verif.Proofs.SphereRun5

namespace Parcels.SphereRun

open Search Interp TimeInterp
open GridRun (Fld Hint HintOk Prog Body TimeValue follow refScheme strip bare snap remember rk4 uv Covers Constant)
open KernelLoop (Exc)
open WholeRun (Scheme solution trajectory record core)
open Recovery (TP)

variable {V : Type}

/-! ### Lists -/

/-- Both are defined and related, or both undefined. -/
def Both {α β : Type} (R : α → β → Prop) : Option α → Option β → Prop
  | some a, some b => R a b
  | none, none => True
  | _, _ => False

theorem Both.isSome {α β : Type} {R : α → β → Prop} {a : Option α} {b : Option β} (h : Both R a b) : a.isSome = b.isSome := by
  cases a <;> cases b <;> first | rfl | exact h.elim

theorem both_filterMap {ι α β : Type} {R : α → β → Prop} {f : ι → Option α} {g : ι → Option β} :
    ∀ l : List ι, (∀ a ∈ l, Both R (f a) (g a)) → List.Forall₂ R (l.filterMap f) (l.filterMap g) := by
  intro l
  induction l with
  | nil => intro _; exact .nil
  | cons a l ih =>
    intro h
    have h1 := h a List.mem_cons_self
    have h2 := ih fun x hx => h x (List.mem_cons_of_mem _ hx)
    rw [List.filterMap_cons, List.filterMap_cons]
    cases hf : f a <;> cases hg : g a <;> rw [hf, hg] at h1
    · exact h2
    · exact h1.elim
    · exact h1.elim
    · exact .cons h1 h2

theorem forall₂_flatMap {ι α β : Type} {R : α → β → Prop} {f : ι → List α} {g : ι → List β} :
    ∀ l : List ι, (∀ a, List.Forall₂ R (f a) (g a)) → List.Forall₂ R (l.flatMap f) (l.flatMap g) := by
  intro l h
  induction l with
  | nil => exact .nil
  | cons a l ih =>
    rw [List.flatMap_cons, List.flatMap_cons]
    exact List.rel_append (h a) ih

/-! ### Trajectories round the globe -/

section
variable {fs : Nat → SFld} {U : Nat → List ℚ} (hf : ∀ i, Sound (fs i).fld (U i)) {west h dt : ℚ} (hh : 0 ≤ h) (hh' : h ≤ 360)
    (hs : Spans fs U (west - h) (west + 360 + h)) {cosd : ℚ → ℚ} {val : Nat → (t z y x : ℚ) → Option ℚ} (hv : Everywhere cosd fs val)
    (hu : ∀ t z y x w, val 0 t z y x = some w → |w| * |dt| ≤ h)
include hf hh hh' hs hv hu

theorem trajectory_global_scipy (t : ℚ) (q : TP (ℚ × ℚ × ℚ)) (h0 : west ≤ q.2.vars.1) (h1 : q.2.vars.1 ≤ west + 360) :
    Both (SameCore west) (trajectory (refScheme val rk4) dt t q) (trajectory (scipyScheme cosd fs (periodic west (west + 360) rk4)) dt t q) := by
  have hq : Same west q.2.vars q.2.vars := ⟨⟨0, by simp⟩, rfl, h0, h1⟩
  unfold trajectory
  by_cases c : 0 < (q.2.time - t) * sgn dt
  · rw [if_pos c, if_pos c]
    exact ⟨rfl, rfl, hq⟩
  · rw [if_neg c, if_neg c]
    have := global_scipy hf hh hh' hs hv hu ⌊(t - q.2.time) / dt⌋₊ q.2.time q.2.vars q.2.vars hq
    revert this
    generalize solution (refScheme val rk4) dt ⌊(t - q.2.time) / dt⌋₊ q.2.time q.2.vars = a
    generalize solution (scipyScheme cosd fs (periodic west (west + 360) rk4)) dt ⌊(t - q.2.time) / dt⌋₊ q.2.time q.2.vars = b
    intro this
    cases a <;> cases b <;> first | exact this | exact ⟨rfl, rfl, this⟩

theorem record_global_scipy (t : ℚ) (q : TP (ℚ × ℚ × ℚ)) (h0 : west ≤ q.2.vars.1) (h1 : q.2.vars.1 ≤ west + 360) :
    Both (SameCore west) (record (refScheme val rk4) dt t q) (record (scipyScheme cosd fs (periodic west (west + 360) rk4)) dt t q) := by
  unfold record
  by_cases c : 0 < (q.2.time - t) * sgn dt
  · rw [if_pos c, if_pos c]; trivial
  · rw [if_neg c, if_neg c]
    exact trajectory_global_scipy hf hh hh' hs hv hu t q h0 h1

theorem trajectory_global_jit (hg : Grids fs) (t : ℚ) (q : TP ((ℚ × ℚ × ℚ) × (Nat → Hint))) (hi : Hints fs q.2.vars.2) (h0 : west ≤ q.2.vars.1.1)
    (h1 : q.2.vars.1.1 ≤ west + 360) : Both (SameCore west) (trajectory (refScheme val rk4) dt t (strip q))
      ((trajectory (jitScheme cosd fs (periodic west (west + 360) rk4)) dt t q).map bare) := by
  have hq : Same west q.2.vars.1 q.2.vars.1 := ⟨⟨0, by simp⟩, rfl, h0, h1⟩
  unfold trajectory
  by_cases c : 0 < (q.2.time - t) * sgn dt
  · rw [if_pos c, if_pos (show 0 < ((strip q).2.time - t) * sgn dt from c)]
    exact ⟨rfl, rfl, hq⟩
  · rw [if_neg c, if_neg (show ¬ 0 < ((strip q).2.time - t) * sgn dt from c)]
    have := global_jit hf hg hh hh' hs hv hu ⌊(t - q.2.time) / dt⌋₊ q.2.time q.2.vars.1 q.2.vars.1 q.2.vars.2 hi hq
    show Both _ (Option.map _ (solution (refScheme val rk4) dt ⌊(t - q.2.time) / dt⌋₊ q.2.time q.2.vars.1))
      (Option.map bare (Option.map _ (solution (jitScheme cosd fs (periodic west (west + 360) rk4)) dt ⌊(t - q.2.time) / dt⌋₊ q.2.time (q.2.vars.1, q.2.vars.2))))
    revert this
    generalize solution (refScheme val rk4) dt ⌊(t - q.2.time) / dt⌋₊ q.2.time q.2.vars.1 = a
    generalize solution (jitScheme cosd fs (periodic west (west + 360) rk4)) dt ⌊(t - q.2.time) / dt⌋₊ q.2.time (q.2.vars.1, q.2.vars.2) = b
    intro this
    cases a <;> cases b <;> first | exact this | exact ⟨rfl, rfl, this⟩

theorem record_global_jit (hg : Grids fs) (t : ℚ) (q : TP ((ℚ × ℚ × ℚ) × (Nat → Hint))) (hi : Hints fs q.2.vars.2) (h0 : west ≤ q.2.vars.1.1)
    (h1 : q.2.vars.1.1 ≤ west + 360) : Both (SameCore west) (record (refScheme val rk4) dt t (strip q))
      ((record (jitScheme cosd fs (periodic west (west + 360) rk4)) dt t q).map bare) := by
  unfold record
  by_cases c : 0 < (q.2.time - t) * sgn dt
  · rw [if_pos c, if_pos (show 0 < ((strip q).2.time - t) * sgn dt from c)]; trivial
  · rw [if_neg c, if_neg (show ¬ 0 < ((strip q).2.time - t) * sgn dt from c)]
    exact trajectory_global_jit hf hh hh' hs hv hu hg t q hi h0 h1

end

theorem halo_le {fs : Nat → SFld} {U : Nat → List ℚ} (hf : ∀ i, Sound (fs i).fld (U i)) {west h : ℚ} (hs : Spans fs U (west - h) (west + 360 + h)) :
    h ≤ 360 := by
  obtain ⟨-, h1, h2⟩ := hs 0 (Or.inl rfl)
  have := (hf 0).span450
  linarith

/-- On axes without jump, all values form a function. -/
theorem everywhere_exists {fs : Nat → SFld} {U : Nat → List ℚ} (hf : ∀ i, Sound (fs i).fld (U i)) (hU : ∀ i, (fs i).fld.grid.lon = U i) (cosd : ℚ → ℚ) :
    ∃ val, Everywhere cosd fs val := by
  classical
  refine ⟨fun i t z y x => if h : ∃ w, FieldValue cosd (fs i) t z y x w then some h.choose else none, fun i t z y x w => ?_⟩
  dsimp only
  split_ifs with h
  · have hc := h.choose_spec
    refine ⟨fun e => ?_, fun e => ?_⟩
    · rw [← Option.some.inj e]; exact hc
    · have e2 := e
      obtain ⟨v, u, hv, -⟩ := e
      obtain ⟨n, m, r, s, hx, -⟩ := hv 0 (hf i).timeLen
      obtain ⟨k, hk⟩ := locates_unwrapped (hf i).sphere.lon hx
      have hlen := eastward_len (hf i).sphere.lon
      have hin := (inRange_inc (eastward_inc (hf i).sphere.lon) (by rw [← hU i]; exact hlen) _).mp (GridRun.locates_inRange hk)
      rw [← headD_getD, ← getLastD_getD] at hin
      have hP := places_inc (hf i) (hU i) hin.1 hin.2
      congr 1
      exact value_unique (hf i) hP ((value_turn k).mpr hc) ((value_turn k).mpr e2)
  · exact ⟨fun e => (by cases e), fun e => absurd ⟨w, e⟩ h⟩

/-! ### Uniform flow -/

theorem value_constant {cosd : ℚ → ℚ} {f : SFld} {c : ℚ} (hc : Constant f.fld c) (hlen : 1 ≤ f.fld.time.length) {t z y x w : ℚ}
    (h : FieldValue cosd f t z y x w) : w = degrees cosd f.units y c := by
  obtain ⟨v, u, hv, ht, rfl⟩ := h
  congr 1
  have hvc : ∀ i, i < f.fld.time.length → v i = c := by
    intro i hi
    obtain ⟨n, m, r, s, -, -, h2, h3⟩ := hv i hi
    rcases Nat.lt_or_ge f.fld.grid.depth.length 2 with k | k
    · rw [h2 (by omega)]
      unfold bilinearAt lerp
      simp only [hc i]
      ring
    · obtain ⟨k', q, -, e⟩ := h3 k
      rw [e]
      unfold trilinearAt bilinearAt lerp
      simp only [hc i]
      ring
  rcases ht with ⟨i, hi, rfl⟩ | ⟨i, r, hl, rfl⟩ | ⟨-, -, rfl⟩ | ⟨-, -, rfl⟩
  · exact hvc i (List.getElem?_eq_some_iff.mp hi).1
  · obtain ⟨n, e, hn⟩ := locates_nat hl
    have e' : i = n := by exact_mod_cast e
    rw [hvc i (by omega), hvc (i + 1) (by omega)]
    unfold lerp
    ring
  · exact hvc 0 (by omega)
  · exact hvc _ (by omega)

theorem covers_value {cosd : ℚ → ℚ} {f : SFld} {U : List ℚ} (hf : Sound f.fld U) (hU : f.fld.grid.lon = U) {t z y x : ℚ} (h : Covers f.fld t z y x) :
    Places f.fld.grid U x ∧ ∃ w, FieldValue cosd f t z y x w := by
  obtain ⟨h1, h2, h3, h4⟩ := h
  have hinc := eastward_inc hf.sphere.lon
  have hlen := eastward_len hf.sphere.lon
  rw [hU] at h1 hlen
  rw [inRange_inc hinc hlen, ← headD_getD, ← getLastD_getD] at h1
  have hP := places_inc hf hU h1.1 h1.2
  refine ⟨hP, ?_⟩
  have hz : DepthOk f.fld.grid z := by
    intro c
    obtain ⟨k, q, hz⟩ := GridRun.located (hf.depth.resolve_left (by omega)) c (h3 c)
    exact dep_cases (hf.depth.resolve_left (by omega)) hz
  obtain ⟨val, hval⟩ := value_of_places hf hP h2 hz
  rcases GridRun.time_total hf.timeInc hf.timeLen f.fld.extrap t (fun i => val (f.fld.data i)) with ⟨w, hw⟩ | ⟨c, hc⟩
  · exact ⟨_, _, w, fun i _ => hval _, hw, rfl⟩
  · exfalso
    rcases h4 with h4 | ⟨a, b, ha, hb, h5, h6⟩
    · rw [h4] at c; cases c
    · obtain ⟨i, hi, rfl⟩ := List.getElem_of_mem ha
      obtain ⟨j, hj, rfl⟩ := List.getElem_of_mem hb
      have e1 := inc_le hf.timeInc (Nat.zero_le i) hi
      have e2 := inc_le hf.timeInc (show j ≤ f.fld.time.length - 1 by omega) (by omega)
      rw [List.getD_eq_getElem _ 0 hi] at e1
      rw [List.getD_eq_getElem _ 0 hj] at e2
      rw [headD_getD, getLastD_getD] at hc
      rcases hc with hc | hc <;> linarith

theorem covers_val {cosd : ℚ → ℚ} {fs : Nat → SFld} {U : Nat → List ℚ} (hf : ∀ i, Sound (fs i).fld (U i)) {val : Nat → (t z y x : ℚ) → Option ℚ}
    (hv : Interpolates cosd fs U val) {i : Nat} (hU : (fs i).fld.grid.lon = U i) {c : ℚ} (hc : Constant (fs i).fld c) {t z y x : ℚ}
    (h : Covers (fs i).fld t z y x) : val i t z y x = some (degrees cosd (fs i).units y c) := by
  obtain ⟨hP, w, hw⟩ := covers_value (cosd := cosd) (hf i) hU h
  rw [value_constant hc (hf i).timeLen hw] at hw
  exact (hv _ _ _ _ _ _).mpr ⟨hP, hw⟩

/-- One step of the Runge-Kutta kernel if the velocity is the same at all latitudes of the step. -/
theorem rk4_step_uniform {cosd : ℚ → ℚ} {fs : Nat → SFld} {U : Nat → List ℚ} (hf : ∀ i, Sound (fs i).fld (U i)) {val : Nat → (t z y x : ℚ) → Option ℚ}
    (hv : Interpolates cosd fs U val) (hU : ∀ i, i = 0 ∨ i = 1 → (fs i).fld.grid.lon = U i) {u v a b : ℚ} (hu : Constant (fs 0).fld u)
    (hv' : Constant (fs 1).fld v) (t dt x y z : ℚ)
    (ha : ∀ w : ℚ, degrees cosd (fs 0).units (y + w * (b * dt)) u = a ∧ degrees cosd (fs 1).units (y + w * (b * dt)) v = b)
    (hc : ∀ w : ℚ, 0 ≤ w → w ≤ 1 → ∀ i, i = 0 ∨ i = 1 → Covers (fs i).fld (t + w * dt) z (y + w * (b * dt)) (x + w * (a * dt))) :
    refScheme val rk4 t dt (x, y, z) = .ok (x + a * dt, y + b * dt, z) := by
  have key : ∀ w : ℚ, 0 ≤ w → w ≤ 1 → val 0 (t + w * dt) z (y + w * (b * dt)) (x + w * (a * dt)) = some a ∧
      val 1 (t + w * dt) z (y + w * (b * dt)) (x + w * (a * dt)) = some b := by
    intro w w0 w1
    obtain ⟨a1, a2⟩ := ha w
    refine ⟨?_, ?_⟩
    · rw [covers_val hf hv (hU 0 (Or.inl rfl)) hu (hc w w0 w1 0 (Or.inl rfl)), a1]
    · rw [covers_val hf hv (hU 1 (Or.inr rfl)) hv' (hc w w0 w1 1 (Or.inr rfl)), a2]
  have k1 := key 0 le_rfl (by norm_num)
  have k2 := key (1 / 2) (by norm_num) (by norm_num)
  have k3 := key 1 (by norm_num) le_rfl
  simp only [zero_mul, add_zero] at k1
  rw [show y + 1 / 2 * (b * dt) = y + b * (1 / 2) * dt by ring, show x + 1 / 2 * (a * dt) = x + a * (1 / 2) * dt by ring] at k2
  simp only [one_mul] at k3
  unfold refScheme rk4 uv
  simp only [follow, k1.1, k1.2, k2.1, k2.2, k3.1, k3.2]
  congr 2
  · ring
  · congr 1
    ring

theorem solution_uniform {cosd : ℚ → ℚ} {fs : Nat → SFld} {U : Nat → List ℚ} (hf : ∀ i, Sound (fs i).fld (U i)) {val : Nat → (t z y x : ℚ) → Option ℚ}
    (hv : Interpolates cosd fs U val) (hU : ∀ i, i = 0 ∨ i = 1 → (fs i).fld.grid.lon = U i) {u v a b : ℚ} (hu : Constant (fs 0).fld u)
    (hv' : Constant (fs 1).fld v) (dt : ℚ) : ∀ (n : Nat) (t x y z : ℚ),
    (∀ w : ℚ, degrees cosd (fs 0).units (y + w * b) u = a ∧ degrees cosd (fs 1).units (y + w * b) v = b) →
    (∀ i, i = 0 ∨ i = 1 → Covers (fs i).fld t z y x ∧ Covers (fs i).fld (t + n * dt) z (y + b * (n * dt)) (x + a * (n * dt))) →
    solution (refScheme val rk4) dt n t (x, y, z) = some (x + a * (n * dt), y + b * (n * dt), z) := by
  intro n
  induction n with
  | zero => intro t x y z _ _; simp [solution]
  | succ n ih =>
    intro t x y z ha h
    have hn : (0 : ℚ) < ((n + 1 : ℕ) : ℚ) := by exact_mod_cast Nat.succ_pos n
    have hc : ∀ w : ℚ, 0 ≤ w → w ≤ 1 → ∀ i, i = 0 ∨ i = 1 → Covers (fs i).fld (t + w * dt) z (y + w * (b * dt)) (x + w * (a * dt)) := by
      intro w w0 w1 i hi
      have hw : w / ((n + 1 : ℕ) : ℚ) ≤ 1 := by
        rw [div_le_one hn]
        have : (1 : ℚ) ≤ ((n + 1 : ℕ) : ℚ) := by exact_mod_cast Nat.succ_le_succ (Nat.zero_le n)
        linarith
      have := GridRun.covers_between (h i hi).1 (h i hi).2 (div_nonneg w0 hn.le) hw
      have e1 : w / ((n + 1 : ℕ) : ℚ) * (t + ((n + 1 : ℕ) : ℚ) * dt - t) = w * dt := by field_simp; ring
      have e2 : w / ((n + 1 : ℕ) : ℚ) * (y + b * (((n + 1 : ℕ) : ℚ) * dt) - y) = w * (b * dt) := by field_simp; ring
      have e3 : w / ((n + 1 : ℕ) : ℚ) * (x + a * (((n + 1 : ℕ) : ℚ) * dt) - x) = w * (a * dt) := by field_simp; ring
      rw [e1, e2, e3] at this
      exact this
    rw [solution, rk4_step_uniform hf hv hU hu hv' t dt x y z (fun w => by
      have := ha (w * dt)
      rwa [show w * dt * b = w * (b * dt) by ring] at this) hc]
    dsimp only
    rw [ih]
    · congr 2
      · push_cast; ring
      · congr 1
        push_cast; ring
    · intro w
      have := ha (w + dt)
      rwa [show y + (w + dt) * b = y + b * dt + w * b by ring] at this
    · intro i hi
      refine ⟨?_, ?_⟩
      · have := hc 1 (by norm_num) le_rfl i hi
        simpa using this
      · have := (h i hi).2
        rw [show t + dt + (n : ℚ) * dt = t + ((n + 1 : ℕ) : ℚ) * dt by push_cast; ring,
          show y + b * dt + b * ((n : ℚ) * dt) = y + b * (((n + 1 : ℕ) : ℚ) * dt) by push_cast; ring,
          show x + a * dt + a * ((n : ℚ) * dt) = x + a * (((n + 1 : ℕ) : ℚ) * dt) by push_cast; ring]
        exact this

end Parcels.SphereRun
