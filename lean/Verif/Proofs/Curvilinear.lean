import Verif.Spec.Curvilinear
import Mathlib.Algebra.Order.Field.Basic
import Mathlib.Algebra.Order.AbsoluteValue.Basic
import Mathlib.Tactic.FieldSimp
import Mathlib.Tactic.LinearCombination
import Mathlib.Tactic.Linarith
import Mathlib.Tactic.Ring
import Mathlib.Tactic.Positivity
import Mathlib.Analysis.SpecialFunctions.Pow.NNReal

/-!
Lemmas about the search on curvilinear grids.
-/

namespace Parcels.Curvilinear

variable {K : Type} [Field K] [LinearOrder K] [IsStrictOrderedRing K]

/-! ### The solver in one cell -/

omit [IsStrictOrderedRing K] [LinearOrder K] in
theorem chord_eq (c : Cell K) (eta : K) : chord c eta = a1 c + a3 c * eta := by
  unfold chord a1 a3; ring

omit [IsStrictOrderedRing K] [LinearOrder K] in
theorem sideCross_eq (c : Cell K) : sideCross c = qa c := by
  unfold sideCross qa a3 b2 a2 b3; ring

omit [IsStrictOrderedRing K] [LinearOrder K] in
theorem bilinX_eq (c : Cell K) (xsi eta : K) :
    bilinX c xsi eta = c.x0 + a2 c * eta + xsi * (a1 c + a3 c * eta) := by
  unfold bilinX a1 a2 a3; ring

omit [IsStrictOrderedRing K] [LinearOrder K] in
theorem bilinY_eq (c : Cell K) (xsi eta : K) :
    bilinY c xsi eta = c.y0 + b2 c * eta + xsi * (b1 c + b3 c * eta) := by
  unfold bilinY b1 b2 b3; ring

omit [IsStrictOrderedRing K] [LinearOrder K] in
/-- At relative coordinates of the position the quadratic equation holds. -/
theorem quad_zero {c : Cell K} {x y xsi eta : K} (h : At c x y xsi eta) :
    qa c * (eta * eta) + qb c x y * eta + qc c x y = 0 := by
  obtain ⟨h1, h2⟩ := h
  rw [bilinX_eq] at h1
  rw [bilinY_eq] at h2
  rw [← h1, ← h2]
  unfold qa qb qc
  ring

omit [IsStrictOrderedRing K] [LinearOrder K] in
/-- The derivative of the quadratic is the Jacobian. -/
theorem quad_deriv {c : Cell K} {x y xsi eta : K} (h : At c x y xsi eta) :
    2 * qa c * eta + qb c x y = jacobian c xsi eta := by
  obtain ⟨h1, h2⟩ := h
  rw [bilinX_eq] at h1
  rw [bilinY_eq] at h2
  rw [← h1, ← h2]
  unfold qa qb jacobian a1 a2 a3 b1 b2 b3
  ring

omit [IsStrictOrderedRing K] [LinearOrder K] in
/-- The discriminant is the square of the Jacobian. -/
theorem quad_det {c : Cell K} {x y xsi eta : K} (h : At c x y xsi eta) :
    qb c x y * qb c x y - 4 * qa c * qc c x y = jacobian c xsi eta * jacobian c xsi eta := by
  rw [← quad_deriv h]
  linear_combination (-4 * qa c) * quad_zero h

omit [IsStrictOrderedRing K] [LinearOrder K] in
/-- A root of the quadratic with the matching xsi gives relative coordinates of the position. -/
theorem at_of_root {c : Cell K} {x y eta : K} (h : qa c * (eta * eta) + qb c x y * eta + qc c x y = 0)
    (hc : a1 c + a3 c * eta ≠ 0) :
    At c x y ((x - c.x0 - a2 c * eta) / (a1 c + a3 c * eta)) eta := by
  have hx : (x - c.x0 - a2 c * eta) / (a1 c + a3 c * eta) * (a1 c + a3 c * eta) = x - c.x0 - a2 c * eta :=
    div_mul_cancel₀ _ hc
  constructor
  · rw [bilinX_eq, hx]; ring
  · rw [bilinY_eq]
    apply mul_right_cancel₀ hc
    generalize (x - c.x0 - a2 c * eta) / (a1 c + a3 c * eta) = xsi at hx ⊢
    unfold qa qb qc at h
    linear_combination h + (b1 c + b3 c * eta) * hx

theorem tiny_pos : (0 : K) < tiny := by unfold tiny; positivity

/-- The solver on a clear cell: if the position has relative coordinates at all (where the map is regular), the
computed eta is a root of the quadratic, hence part of relative coordinates of the position. -/
theorem solveEta_root {sqrt : K → K} (hs : IsSqrt sqrt) (jit : Bool) {c : Cell K} {x y xsi eta : K} (old : Ext K)
    (hclear : Clear c) (h : At c x y xsi eta) (hj : jacobian c xsi eta ≠ 0) :
    ∃ e, solveEta sqrt jit c x y old = .fin e ∧ qa c * (e * e) + qb c x y * e + qc c x y = 0 ∧
      (0 < jacobian c xsi eta → e = eta) ∧ (qa c = 0 → e = eta) := by
  unfold solveEta
  simp only
  rw [quad_det h]
  have hz := quad_zero h
  have hd := quad_deriv h
  rcases hclear with h0 | h1
  · rw [sideCross_eq] at h0
    rw [if_pos (by rw [h0, abs_zero]; exact tiny_pos)]
    rw [h0] at hz hd
    have hb : qb c x y ≠ 0 := by
      intro hb; apply hj; rw [← hd, hb]; ring
    have he : -qc c x y / qb c x y = eta := by
      field_simp
      linear_combination -hz
    refine ⟨eta, ?_, quad_zero h, fun _ => rfl, fun _ => rfl⟩
    unfold Ext.div
    rw [if_neg hb, he]
  · rw [sideCross_eq] at h1
    rw [if_neg (not_lt.mpr h1)]
    have hq : qa c ≠ 0 := by
      intro hq
      rw [hq, abs_zero] at h1
      exact absurd h1 (not_le.mpr tiny_pos)
    have hpos : 0 < jacobian c xsi eta * jacobian c xsi eta := by
      rw [← sq]; positivity
    rw [if_pos (Or.inl hpos)]
    rw [hs]
    refine ⟨_, rfl, ?_, ?_, fun h => absurd h hq⟩
    · have s2 : |jacobian c xsi eta| * |jacobian c xsi eta| = jacobian c xsi eta * jacobian c xsi eta :=
        abs_mul_abs_self _
      generalize |jacobian c xsi eta| = s at s2 ⊢
      have hdet := quad_det h
      rw [← hdet] at s2
      field_simp
      linear_combination s2
    · intro hp
      rw [abs_of_pos hp, ← hd]
      field_simp
      ring

omit [IsStrictOrderedRing K] in
theorem solveXsi_clear {c : Cell K} {x y e : K} (h : tiny ≤ |chord c e|) :
    solveXsi c x y (.fin e) = .fin ((x - c.x0 - a2 c * e) / (a1 c + a3 c * e)) := by
  rw [chord_eq] at h
  exact if_neg (not_lt.mpr h)

/-! ### C28: the cells that are used -/

omit [IsStrictOrderedRing K] in
theorem cellAt_valid {g : CGrid K} {xi yi : ℤ} {c : Cell K} (h : cellAt g xi yi = some c) : ValidCell g xi yi := by
  unfold cellAt at h
  split at h
  · next hv => exact hv
  · cases h

omit [IsStrictOrderedRing K] in
theorem cellAt_some {g : CGrid K} {xi yi : ℤ} (h : ValidCell g xi yi) : ∃ c, cellAt g xi yi = some c := by
  exact ⟨_, if_pos h⟩

omit [IsStrictOrderedRing K] in
/-- One step: from a valid cell, with a move by at most one cell in each direction, the next cell is valid
exactly unless the flag for spherical meshes is set, the step crosses the last row of cells, and the column (after
the zonal wrap) is one of the first two: the fold `xdim - xi` then leaves the grid. -/
theorem step_iff (g : CGrid K) (sphere : Bool) (xi yi dx dy : ℤ) (h : ValidCell g xi yi)
    (hdx : dx = -1 ∨ dx = 0 ∨ dx = 1) (hdy : dy = -1 ∨ dy = 0 ∨ dy = 1) :
    let m := reconnect g.xdim g.ydim sphere (xi + dx) (yi + dy)
    let column := if xi + dx < 0 then (g.xdim : ℤ) - 2 else if xi + dx > g.xdim - 2 then 0 else xi + dx
    ValidCell g m.1 m.2 ↔ ¬ (sphere = true ∧ yi + dy > g.ydim - 2 ∧ (column = 0 ∨ column = 1)) := by
  intro m column
  obtain ⟨h1, h2, h3, h4⟩ := h
  simp only [m, column]
  unfold reconnect ValidCell
  cases sphere
  · simp only [cond_false, Bool.false_eq_true, false_and, not_false_eq_true, iff_true]
    split_ifs <;> (simp only; omega)
  · simp only [cond_true, true_and]
    split_ifs <;> (simp only; first | omega | (simp only [true_or, and_true]; omega))

omit [IsStrictOrderedRing K] in
theorem move_eq (g : CGrid K) (jit : Bool) (xi yi : ℤ) (xsi eta : Ext K) :
    ∃ dx dy : ℤ, (dx = -1 ∨ dx = 0 ∨ dx = 1) ∧ (dy = -1 ∨ dy = 0 ∨ dy = 1) ∧
      move g jit xi yi xsi eta = reconnect g.xdim g.ydim (sphereFlag g jit) (xi + dx) (yi + dy) ∧
      (xsi.lt (-tol) = false → xsi.gt (1 + tol) = false → dx = 0) ∧
      (eta.lt (-tol) = false → eta.gt (1 + tol) = false → dy = 0) := by
  refine ⟨if xsi.lt (-tol) then -1 else if xsi.gt (1 + tol) then 1 else 0,
    if eta.lt (-tol) then -1 else if eta.gt (1 + tol) then 1 else 0, ?_, ?_, ?_, ?_, ?_⟩
  · split_ifs <;> simp
  · split_ifs <;> simp
  · unfold move
    simp only
    congr 1 <;> split_ifs <;> ring
  · intro h1 h2; rw [h1, h2]; simp
  · intro h1 h2; rw [h1, h2]; simp

omit [IsStrictOrderedRing K] in
theorem reconnect_valid {g : CGrid K} {sphere : Bool} {xi yi : ℤ} (h : ValidCell g xi yi) :
    reconnect g.xdim g.ydim sphere xi yi = (xi, yi) := by
  obtain ⟨h1, h2, h3, h4⟩ := h
  unfold reconnect
  simp only
  rw [if_neg (by omega : ¬ xi < 0), if_neg (by omega : ¬ xi > (g.xdim : ℤ) - 2), if_neg (by omega : ¬ yi < 0),
    if_neg (by omega)]

omit [IsStrictOrderedRing K] in
/-- What one iteration does. -/
theorem step_ok {sqrt : K → K} {jit : Bool} {g : CGrid K} {x y : K} {s s' : St K}
    (h : step sqrt jit g x y s = .ok s') :
    ∃ c, cellAt g s.xi s.yi = some c ∧ s'.eta = solveEta sqrt jit (shift g.spherical x c) x y s.eta ∧
      s'.xsi = solveXsi (shift g.spherical x c) x y s'.eta ∧ (s'.xi, s'.yi) = move g jit s.xi s.yi s'.xsi s'.eta := by
  unfold step at h
  split at h
  · cases h
  · next c hc =>
    simp only at h
    split at h
    · cases h
    · split at h
      · cases h
      · injection h with h
        subst h
        exact ⟨c, hc, rfl, rfl, rfl⟩

omit [IsStrictOrderedRing K] in
/-- The accepted cell is the one the last iteration looked at. -/
theorem walk_ok {sqrt : K → K} {jit : Bool} {g : CGrid K} {x y : K} : ∀ (n : Nat) (s s' : St K),
    searching s = true → walk sqrt jit g x y n s = .ok s' →
    searching s' = false ∧ ∃ c old, cellAt g s'.xi s'.yi = some c ∧
      s'.eta = solveEta sqrt jit (shift g.spherical x c) x y old ∧
      s'.xsi = solveXsi (shift g.spherical x c) x y s'.eta := by
  intro n
  induction n with
  | zero =>
    intro s s' hs h
    unfold walk at h
    rw [if_pos hs] at h
    cases h
  | succ n ih =>
    intro s s' hs h
    unfold walk at h
    rw [if_pos hs] at h
    rcases hst : step sqrt jit g x y s with e | s1
    · rw [hst] at h; cases h
    · rw [hst] at h
      simp only at h
      by_cases h1 : searching s1 = true
      · exact ih s1 s' h1 h
      · have heq : s' = s1 := by
          cases n with
          | zero =>
            unfold walk at h
            rw [if_neg h1] at h
            injection h with h; exact h.symm
          | succ n =>
            unfold walk at h
            rw [if_neg h1] at h
            injection h with h; exact h.symm
        subst heq
        rw [Bool.not_eq_true] at h1
        refine ⟨h1, ?_⟩
        obtain ⟨c, hc, he, hx, hm⟩ := step_ok hst
        obtain ⟨dx, dy, _, _, hmv, hdx, hdy⟩ := move_eq g jit s.xi s.yi s'.xsi s'.eta
        have h2 := h1
        unfold searching at h2
        simp only [Bool.or_eq_false_iff] at h2
        obtain ⟨⟨⟨k1, k2⟩, k3⟩, k4⟩ := h2
        rw [hmv, hdx k1 k2, hdy k3 k4, add_zero, add_zero, reconnect_valid (cellAt_valid hc)] at hm
        injection hm with m1 m2
        rw [m1, m2]
        exact ⟨c, s.eta, hc, he, hx⟩

omit [IsStrictOrderedRing K] in
theorem walk_index {sqrt : K → K} {jit : Bool} {g : CGrid K} {x y : K} (hf : sphereFlag g jit = false) :
    ∀ (n : Nat) (s : St K), ValidCell g s.xi s.yi → walk sqrt jit g x y n s ≠ .error .index := by
  intro n
  induction n with
  | zero =>
    intro s _ h
    unfold walk at h
    split at h <;> cases h
  | succ n ih =>
    intro s hv h
    unfold walk at h
    split at h
    · rcases hst : step sqrt jit g x y s with e | s1
      · rw [hst] at h
        simp only at h
        injection h with h
        subst h
        obtain ⟨c, hc⟩ := cellAt_some hv
        unfold step at hst
        rw [hc] at hst
        simp only at hst
        split at hst
        · cases hst
        · split at hst <;> cases hst
      · rw [hst] at h
        obtain ⟨c, hc, he, hx, hm⟩ := step_ok hst
        obtain ⟨dx, dy, d1, d2, hmv, _, _⟩ := move_eq g jit s.xi s.yi s1.xsi s1.eta
        rw [hmv, hf] at hm
        have := (step_iff g false s.xi s.yi dx dy hv d1 d2).mpr (by simp)
        rw [← hm] at this
        exact ih s1 this h
    · cases h

theorem searching_start (xi yi : ℤ) :
    searching ({ xi := xi, yi := yi, xsi := .fin (-1), eta := .fin (-1) } : St K) = true := by
  unfold searching Ext.lt
  have : (-1 : K) < -tol := by
    have : (tol : K) < 1 := by unfold tol; norm_num
    linarith
  simp [this]

theorem search_ok {sqrt : K → K} {jit : Bool} {n : Nat} {g : CGrid K} {x y : K} {xi yi : ℤ} {r : Found K}
    (h : search sqrt jit n g x y xi yi = .ok r) :
    ∃ s c old, searching s = false ∧ cellAt g r.xi r.yi = some c ∧
      s.eta = solveEta sqrt jit (shift g.spherical x c) x y old ∧
      s.xsi = solveXsi (shift g.spherical x c) x y s.eta ∧
      clamp jit s.xsi = .ok r.xsi ∧ clamp jit s.eta = .ok r.eta := by
  unfold search at h
  split at h
  · cases h
  · split at h
    · cases h
    · next s hw =>
      split at h
      · next a b ha hb =>
        injection h with h
        subst h
        obtain ⟨h1, c, old, hc, he, hx⟩ := walk_ok n _ s (searching_start xi yi) hw
        exact ⟨s, c, old, h1, hc, he, hx, ha, hb⟩
      · cases h

/-! ### The shift to one side of the date line -/

omit [IsStrictOrderedRing K] in
theorem near_same (p0 p : K) : SameLon (near p0 p) p := by
  unfold near SameLon
  simp only
  split_ifs
  · exact ⟨0, by push_cast; ring⟩
  · exact ⟨-1, by push_cast; ring⟩
  · exact ⟨1, by push_cast; ring⟩
  · exact ⟨0, by push_cast; ring⟩

omit [IsStrictOrderedRing K] in
theorem nearX_same (x p : K) : SameLon (nearX x p) p := by
  unfold nearX SameLon
  simp only
  split_ifs
  · exact ⟨0, by push_cast; ring⟩
  · exact ⟨1, by push_cast; ring⟩
  · exact ⟨-1, by push_cast; ring⟩
  · exact ⟨0, by push_cast; ring⟩

theorem near_close {p0 p : K} (h : |p - p0| ≤ 540) : |near p0 p - p0| ≤ 180 := by
  rw [abs_le] at h ⊢
  unfold near
  simp only
  constructor <;> split_ifs <;> linarith [h.1, h.2]

omit [IsStrictOrderedRing K] in
theorem cellAt_corners {g : CGrid K} {xi yi : ℤ} (h : ValidCell g xi yi) : cellAt g xi yi = some (corners g xi yi) :=
  if_pos h

/-! ### The walk started in the right cell -/

theorem tol_pos : (0 : K) < tol := by unfold tol; positivity

theorem fin_of_search {s : St K} {e f : K} (hs : searching s = false) (he : s.eta = .fin e) (hf : s.xsi = .fin f) :
    -tol ≤ f ∧ f ≤ 1 + tol ∧ -tol ≤ e ∧ e ≤ 1 + tol := by
  unfold searching at hs
  rw [he, hf] at hs
  simp only [Ext.lt, Ext.gt, Bool.or_eq_false_iff, decide_eq_false_iff_not, not_lt] at hs
  exact ⟨hs.1.1.1, hs.1.1.2, hs.1.2, hs.2⟩

theorem not_searching_of {s : St K} {e f : K} (he : s.eta = .fin e) (hf : s.xsi = .fin f) (h1 : 0 ≤ f) (h2 : f ≤ 1)
    (h3 : 0 ≤ e) (h4 : e ≤ 1) : searching s = false := by
  have := tol_pos (K := K)
  unfold searching
  rw [he, hf]
  simp only [Ext.lt, Ext.gt, Bool.or_eq_false_iff, decide_eq_false_iff_not, not_lt]
  exact ⟨⟨⟨by linarith, by linarith⟩, by linarith⟩, by linarith⟩

omit [IsStrictOrderedRing K] in
theorem clamp_fin (jit : Bool) (f : K) : clamp jit (.fin f) = .ok (min 1 (max 0 f)) := rfl

theorem clamp_id {f : K} (h1 : 0 ≤ f) (h2 : f ≤ 1) : min 1 (max 0 f) = f := by
  rw [max_eq_right h1, min_eq_right h2]

omit [IsStrictOrderedRing K] in
theorem walk_done {sqrt : K → K} {jit : Bool} {g : CGrid K} {x y : K} (n : Nat) {s : St K} (h : searching s = false) :
    walk sqrt jit g x y n s = .ok s := by
  cases n <;> · unfold walk; rw [if_neg (by rw [h]; decide)]

/-- A search whose first cell gives coordinates in [0, 1] ends there. -/
theorem search_first {sqrt : K → K} {jit : Bool} {g : CGrid K} {x y : K} {xi yi : ℤ} {e f : K} (n : Nat)
    (hv : ValidCell g xi yi) (hr : rejected g x y = false)
    (he : solveEta sqrt jit (shift g.spherical x (corners g xi yi)) x y (.fin (-1)) = .fin e)
    (hf : solveXsi (shift g.spherical x (corners g xi yi)) x y (.fin e) = .fin f)
    (h1 : 0 ≤ f) (h2 : f ≤ 1) (h3 : 0 ≤ e) (h4 : e ≤ 1) :
    search sqrt jit (n + 1) g x y xi yi = .ok { xsi := f, eta := e, xi := xi, yi := yi } := by
  have ht := tol_pos (K := K)
  have hstep : step sqrt jit g x y { xi := xi, yi := yi, xsi := .fin (-1), eta := .fin (-1) } =
      .ok { xi := xi, yi := yi, xsi := .fin f, eta := .fin e } := by
    unfold step
    rw [cellAt_corners hv]
    simp only [he, hf]
    have g1 : ¬ (Ext.lt (.fin f) 0 = true ∧ Ext.lt (.fin e) 0 = true ∧ xi = 0 ∧ yi = 0) := by
      rintro ⟨k, _⟩
      simp only [Ext.lt, decide_eq_true_eq] at k
      linarith
    have g2 : ¬ (Ext.gt (.fin f) 1 = true ∧ Ext.gt (.fin e) 1 = true ∧ xi = g.xdim - 1 ∧ yi = g.ydim - 1) := by
      rintro ⟨k, _⟩
      simp only [Ext.gt, decide_eq_true_eq] at k
      linarith
    rw [if_neg g1, if_neg g2]
    obtain ⟨dx, dy, _, _, hmv, hdx, hdy⟩ := move_eq g jit xi yi (.fin f) (.fin e)
    rw [hmv, hdx (by simp only [Ext.lt, decide_eq_false_iff_not, not_lt]; linarith)
        (by simp only [Ext.gt, decide_eq_false_iff_not, not_lt]; linarith),
      hdy (by simp only [Ext.lt, decide_eq_false_iff_not, not_lt]; linarith)
        (by simp only [Ext.gt, decide_eq_false_iff_not, not_lt]; linarith), add_zero, add_zero, reconnect_valid hv]
  unfold search
  rw [hr]
  unfold walk
  rw [if_pos (searching_start xi yi), hstep]
  simp only [Bool.false_eq_true, if_false]
  rw [walk_done n (not_searching_of rfl rfl h1 h2 h3 h4)]
  simp only [clamp_fin, clamp_id h1 h2, clamp_id h3 h4]

/-! ### Clamping -/

theorem clamp_range {jit : Bool} {e : Ext K} {v : K} (h : clamp jit e = .ok v) : 0 ≤ v ∧ v ≤ 1 := by
  unfold clamp at h
  split at h
  · injection h with h
    rw [← h]
    exact ⟨le_min zero_le_one (le_max_left _ _), min_le_left _ _⟩
  · injection h with h
    rw [← h]; exact ⟨zero_le_one, le_refl _⟩
  · injection h with h
    rw [← h]; exact ⟨le_refl _, zero_le_one⟩
  · cases jit
    · injection h with h
      rw [← h]; exact ⟨le_refl _, zero_le_one⟩
    · cases h

theorem clamp_near {t f : K} (ht : 0 ≤ t) (h1 : -t ≤ f) (h2 : f ≤ 1 + t) :
    |min 1 (max 0 f) - f| ≤ t ∧ 0 ≤ min 1 (max 0 f) ∧ min 1 (max 0 f) ≤ 1 := by
  refine ⟨?_, le_min zero_le_one (le_max_left _ _), min_le_left _ _⟩
  rw [abs_le]
  rcases le_total f 0 with h | h
  · rw [max_eq_left h, min_eq_right zero_le_one]
    constructor <;> linarith
  · rw [max_eq_right h]
    rcases le_total f 1 with k | k
    · rw [min_eq_right k]; constructor <;> linarith
    · rw [min_eq_left k]; constructor <;> linarith

theorem convex_abs {u v D s : K} (hu : |u| ≤ D) (hv : |v| ≤ D) (h0 : 0 ≤ s) (h1 : s ≤ 1) :
    |(1 - s) * u + s * v| ≤ D := by
  rw [abs_le] at *
  constructor <;> nlinarith [hu.1, hu.2, hv.1, hv.2]

theorem line_abs {u v D s t : K} (hu : |u| ≤ D) (hv : |v| ≤ D) (h0 : -t ≤ s) (h1 : s ≤ 1 + t) (ht : 0 ≤ t) :
    |(1 - s) * u + s * v| ≤ (1 + 2 * t) * D := by
  have hD : 0 ≤ D := le_trans (abs_nonneg _) hu
  rw [abs_le] at *
  rcases le_total s 0 with h | h
  · constructor <;> nlinarith [hu.1, hu.2, hv.1, hv.2]
  · rcases le_total s 1 with k | k
    · constructor <;> nlinarith [hu.1, hu.2, hv.1, hv.2, mul_nonneg ht hD]
    · constructor <;> nlinarith [hu.1, hu.2, hv.1, hv.2]

/-- Moving the relative coordinates by at most t moves a bilinear function by at most t (2 + 2 t) times the largest
difference along an edge. -/
theorem bilin_near {p0 p1 p2 p3 D t a b a' b' : K} (ht : 0 ≤ t)
    (h1 : |p1 - p0| ≤ D) (h2 : |p2 - p3| ≤ D) (h3 : |p3 - p0| ≤ D) (h4 : |p2 - p1| ≤ D)
    (ha : |a' - a| ≤ t) (hb : |b' - b| ≤ t) (hb0 : 0 ≤ b') (hb1 : b' ≤ 1) (ha0 : -t ≤ a) (ha1 : a ≤ 1 + t) :
    |((1 - a') * (1 - b') * p0 + a' * (1 - b') * p1 + a' * b' * p2 + (1 - a') * b' * p3) -
      ((1 - a) * (1 - b) * p0 + a * (1 - b) * p1 + a * b * p2 + (1 - a) * b * p3)| ≤ t * D * (2 + 2 * t) := by
  have hD : 0 ≤ D := le_trans (abs_nonneg _) h1
  have e : ((1 - a') * (1 - b') * p0 + a' * (1 - b') * p1 + a' * b' * p2 + (1 - a') * b' * p3) -
      ((1 - a) * (1 - b) * p0 + a * (1 - b) * p1 + a * b * p2 + (1 - a) * b * p3) =
      (a' - a) * ((1 - b') * (p1 - p0) + b' * (p2 - p3)) + (b' - b) * ((1 - a) * (p3 - p0) + a * (p2 - p1)) := by
    ring
  rw [e]
  have k1 := convex_abs h1 h2 hb0 hb1
  have k2 := line_abs h3 h4 ha0 ha1 ht
  calc _ ≤ |(a' - a) * ((1 - b') * (p1 - p0) + b' * (p2 - p3))| +
        |(b' - b) * ((1 - a) * (p3 - p0) + a * (p2 - p1))| := abs_add_le _ _
    _ ≤ t * D + t * ((1 + 2 * t) * D) := by
        rw [abs_mul, abs_mul]
        exact add_le_add (mul_le_mul ha k1 (abs_nonneg _) ht) (mul_le_mul hb k2 (abs_nonneg _) ht)
    _ = t * D * (2 + 2 * t) := by ring

/-! ### Grids of rectangles -/

omit [Field K] [IsStrictOrderedRing K] in
theorem foldl_min_le (l : List K) (a : K) : l.foldl min a ≤ a ∧ ∀ b ∈ l, l.foldl min a ≤ b := by
  induction l generalizing a with
  | nil => exact ⟨le_refl _, by simp⟩
  | cons c l ih =>
    obtain ⟨h1, h2⟩ := ih (min a c)
    refine ⟨le_trans h1 (min_le_left _ _), ?_⟩
    intro b hb
    rcases List.mem_cons.mp hb with rfl | hb
    · exact le_trans h1 (min_le_right _ _)
    · exact h2 b hb

omit [Field K] [IsStrictOrderedRing K] in
theorem le_foldl_max (l : List K) (a : K) : a ≤ l.foldl max a ∧ ∀ b ∈ l, b ≤ l.foldl max a := by
  induction l generalizing a with
  | nil => exact ⟨le_refl _, by simp⟩
  | cons c l ih =>
    obtain ⟨h1, h2⟩ := ih (max a c)
    refine ⟨le_trans (le_max_left _ _) h1, ?_⟩
    intro b hb
    rcases List.mem_cons.mp hb with rfl | hb
    · exact le_trans (le_max_right _ _) h1
    · exact h2 b hb

omit [Field K] [LinearOrder K] [IsStrictOrderedRing K] in
theorem mem_entries {g : CGrid K} {v : Nat → Nat → K} {j i : Nat} (hj : j < g.ydim) (hi : i < g.xdim) :
    v j i ∈ entries g v := by
  unfold entries
  rw [List.mem_flatMap]
  exact ⟨j, List.mem_range.mpr hj, List.mem_map.mpr ⟨i, List.mem_range.mpr hi, rfl⟩⟩

omit [Field K] [IsStrictOrderedRing K] in
/-- A position between two entries in each direction is not rejected. -/
theorem rejected_false {g : CGrid K} {x y : K} {j1 i1 j2 i2 j3 i3 j4 i4 : Nat}
    (h1 : j1 < g.ydim ∧ i1 < g.xdim ∧ g.lon j1 i1 ≤ x) (h2 : j2 < g.ydim ∧ i2 < g.xdim ∧ x ≤ g.lon j2 i2)
    (h3 : j3 < g.ydim ∧ i3 < g.xdim ∧ g.lat j3 i3 ≤ y) (h4 : j4 < g.ydim ∧ i4 < g.xdim ∧ y ≤ g.lat j4 i4) :
    rejected g x y = false := by
  have k1 : ¬ (x < minOf g g.lon ∨ maxOf g g.lon < x) := by
    rintro (h | h)
    · exact absurd (lt_of_lt_of_le h ((foldl_min_le _ _).2 _ (mem_entries h1.1 h1.2.1))) (not_lt.mpr h1.2.2)
    · exact absurd (lt_of_le_of_lt ((le_foldl_max _ _).2 _ (mem_entries h2.1 h2.2.1)) h) (not_lt.mpr h2.2.2)
  have k2 : ¬ (y < minOf g g.lat ∨ maxOf g g.lat < y) := by
    rintro (h | h)
    · exact absurd (lt_of_lt_of_le h ((foldl_min_le _ _).2 _ (mem_entries h3.1 h3.2.1))) (not_lt.mpr h3.2.2)
    · exact absurd (lt_of_le_of_lt ((le_foldl_max _ _).2 _ (mem_entries h4.1 h4.2.1)) h) (not_lt.mpr h4.2.2)
  unfold rejected
  simp [k1, k2]

omit [Field K] [IsStrictOrderedRing K] in
/-- An axis interval contains the position. -/
theorem bracket (X : Nat → K) (n : Nat) (x : K) (h0 : X 0 ≤ x) (h1 : x ≤ X (n + 1)) :
    ∃ k, k ≤ n ∧ X k ≤ x ∧ x ≤ X (k + 1) := by
  induction n with
  | zero => exact ⟨0, le_refl _, h0, h1⟩
  | succ n ih =>
    rcases le_total x (X (n + 1)) with h | h
    · obtain ⟨k, a, b, c⟩ := ih h
      exact ⟨k, by omega, b, c⟩
    · exact ⟨n + 1, le_refl _, h, h1⟩

omit [Field K] [IsStrictOrderedRing K] in
theorem axis_mono {X : Nat → K} {n : Nat} (h : ∀ i, i + 1 < n → X i < X (i + 1)) {a b : Nat} (hab : a ≤ b) (hb : b < n) :
    X a ≤ X b := by
  induction b with
  | zero => have : a = 0 := by omega
            rw [this]
  | succ b ih =>
    rcases Nat.lt_or_ge a (b + 1) with h1 | h1
    · exact le_trans (ih (by omega) (by omega)) (h b hb).le
    · have : a = b + 1 := by omega
      rw [this]

/-- The solver in a rectangle. -/
theorem solve_rect {sqrt : K → K} (jit : Bool) {c : Cell K} {x y : K} (old : Ext K) (e1 : c.x3 = c.x0) (e2 : c.x2 = c.x1)
    (e3 : c.y1 = c.y0) (e4 : c.y2 = c.y3) (hx : c.x0 + tiny ≤ c.x1) (hy : c.y0 < c.y3) :
    solveEta sqrt jit c x y old = .fin ((y - c.y0) / (c.y3 - c.y0)) ∧
    ∀ e, solveXsi c x y (.fin e) = .fin ((x - c.x0) / (c.x1 - c.x0)) := by
  have t := tiny_pos (K := K)
  have ha2 : a2 c = 0 := by unfold a2; rw [e1]; ring
  have ha3 : a3 c = 0 := by unfold a3; rw [e1, e2]; ring
  have hb1 : b1 c = 0 := by unfold b1; rw [e3]; ring
  have hb3 : b3 c = 0 := by unfold b3; rw [e3, e4]; ring
  have hA : a1 c = c.x1 - c.x0 := by unfold a1; ring
  have hB : b2 c = c.y3 - c.y0 := by unfold b2; ring
  have hp : 0 < c.x1 - c.x0 := by linarith
  have hq : 0 < c.y3 - c.y0 := by linarith
  constructor
  · unfold solveEta
    simp only
    rw [if_pos (by unfold qa; rw [ha3, ha2]; simp [t])]
    have hb : qb c x y = (c.x1 - c.x0) * (c.y3 - c.y0) := by
      unfold qb; rw [ha3, hb3, ha2, hA, hB]; ring
    have hc : qc c x y = -((c.x1 - c.x0) * (y - c.y0)) := by
      unfold qc; rw [hb1, hA]; ring
    unfold Ext.div
    rw [if_neg (by rw [hb]; positivity), hb, hc]
    congr 1
    field_simp
  · intro e
    simp only [solveXsi]
    rw [ha3, ha2, hA, zero_mul, add_zero, sub_zero, if_neg]
    rw [abs_of_pos hp]
    linarith

/-- The distance of the cell from the one that contains the position. -/
def dist (k l : Nat) (s : St K) : Nat := (s.xi - k).natAbs + (s.yi - l).natAbs

/-- On a grid of rectangles every iteration either ends the loop or comes one cell nearer. -/
theorem step_rect {sqrt : K → K} (jit : Bool) {g : CGrid K} {X Y : Nat → K} (hg : ∀ j i, g.lon j i = X i ∧ g.lat j i = Y j)
    (hflat : g.spherical = false) (hX : ∀ i, i + 1 < g.xdim → X i + tiny ≤ X (i + 1))
    (hY : ∀ j, j + 1 < g.ydim → Y j < Y (j + 1)) {x y : K} {k l : Nat} (hk : k + 1 < g.xdim) (hl : l + 1 < g.ydim)
    (hx : X k ≤ x ∧ x ≤ X (k + 1)) (hy : Y l ≤ y ∧ y ≤ Y (l + 1)) (s : St K) (hv : ValidCell g s.xi s.yi) :
    ∃ s', step sqrt jit g x y s = .ok s' ∧ ValidCell g s'.xi s'.yi ∧ (searching s' = true → dist k l s' < dist k l s) := by
  have t := tiny_pos (K := K)
  have tp := tol_pos (K := K)
  obtain ⟨v1, v2, v3, v4⟩ := hv
  obtain ⟨i, hi⟩ := Int.eq_ofNat_of_zero_le v1
  obtain ⟨j, hj⟩ := Int.eq_ofNat_of_zero_le v3
  have hXm : ∀ i, i + 1 < g.xdim → X i < X (i + 1) := fun i h => by linarith [hX i h]
  have hi2 : i + 1 < g.xdim := by omega
  have hj2 : j + 1 < g.ydim := by omega
  have hc : cellAt g s.xi s.yi = some (corners g s.xi s.yi) := cellAt_corners ⟨v1, v2, v3, v4⟩
  obtain ⟨se, sx⟩ := solve_rect (sqrt := sqrt) jit (c := corners g s.xi s.yi) (x := x) (y := y) s.eta
    (by simp [corners, hg]) (by simp [corners, hg]) (by simp [corners, hg]) (by simp [corners, hg])
    (by simp only [corners, hg, hi, Int.toNat_natCast]; exact hX i hi2)
    (by simp only [corners, hg, hj, Int.toNat_natCast]; exact hY j hj2)
  have hwx : 0 < X (i + 1) - X i := by linarith [hXm i hi2]
  have hwy : 0 < Y (j + 1) - Y j := by linarith [hY j hj2]
  simp only [corners, hg, hi, hj, Int.toNat_natCast] at se sx
  set f := (x - X i) / (X (i + 1) - X i) with hf
  set e := (y - Y j) / (Y (j + 1) - Y j) with he
  have fx : f * (X (i + 1) - X i) = x - X i := div_mul_cancel₀ _ hwx.ne'
  have ey : e * (Y (j + 1) - Y j) = y - Y j := div_mul_cancel₀ _ hwy.ne'
  have f0 : f < 0 → k < i := by
    intro h
    by_contra hki
    have := axis_mono hXm (not_lt.mp hki) (by omega : k < g.xdim)
    nlinarith [hx.1]
  have f1 : 1 < f → i < k := by
    intro h
    by_contra hki
    have := axis_mono hXm (by omega : k + 1 ≤ i + 1) hi2
    nlinarith [hx.2]
  have e0 : e < 0 → l < j := by
    intro h
    by_contra hki
    have := axis_mono hY (not_lt.mp hki) (by omega : l < g.ydim)
    nlinarith [hy.1]
  have e1 : 1 < e → j < l := by
    intro h
    by_contra hki
    have := axis_mono hY (by omega : l + 1 ≤ j + 1) hj2
    nlinarith [hy.2]
  let dx : ℤ := if f < -tol then -1 else if 1 + tol < f then 1 else 0
  let dy : ℤ := if e < -tol then -1 else if 1 + tol < e then 1 else 0
  have hnext : ValidCell g (s.xi + dx) (s.yi + dy) := by
    rw [hi, hj]
    have a1 : 0 ≤ (i : ℤ) + dx ∧ (i : ℤ) + dx + 1 < g.xdim := by
      simp only [dx]
      split_ifs with c1 c2
      · have := f0 (by linarith); omega
      · have := f1 (by linarith); omega
      · omega
    have a2 : 0 ≤ (j : ℤ) + dy ∧ (j : ℤ) + dy + 1 < g.ydim := by
      simp only [dy]
      split_ifs with c1 c2
      · have := e0 (by linarith); omega
      · have := e1 (by linarith); omega
      · omega
    exact ⟨a1.1, a1.2, a2.1, a2.2⟩
  have hmove : move g jit s.xi s.yi (.fin f) (.fin e) = (s.xi + dx, s.yi + dy) := by
    rw [← reconnect_valid (sphere := sphereFlag g jit) hnext]
    unfold move
    simp only [Ext.lt, Ext.gt, dx, dy, decide_eq_true_eq]
    congr 1 <;> split_ifs <;> ring
  refine ⟨{ xi := s.xi + dx, yi := s.yi + dy, xsi := .fin f, eta := .fin e }, ?_, hnext, ?_⟩
  · unfold step
    rw [hc]
    simp only [hflat, shift, cond_false]
    simp only [corners, hg, hi, hj, Int.toNat_natCast]
    rw [se]
    rw [sx e]
    rw [if_neg, if_neg]
    · rw [← hi, ← hj, hmove]
    · simp only [Ext.gt, decide_eq_true_eq]
      rintro ⟨h, _, h2, _⟩
      have := f1 h; omega
    · simp only [Ext.lt, decide_eq_true_eq]
      rintro ⟨h, _, h2, _⟩
      have := f0 h; omega
  · intro hse
    unfold searching at hse
    simp only [Ext.lt, Ext.gt, Bool.or_eq_true, decide_eq_true_eq] at hse
    unfold dist
    simp only [hi, hj, dx, dy]
    rcases hse with ((h | h) | h) | h
    · have := f0 (by linarith)
      rw [if_pos h]
      split_ifs with c1 c2
      · have := e0 (by linarith); omega
      · have := e1 (by linarith); omega
      · omega
    · have := f1 (by linarith)
      rw [if_neg (by linarith : ¬ f < -tol), if_pos h]
      split_ifs with c1 c2
      · have := e0 (by linarith); omega
      · have := e1 (by linarith); omega
      · omega
    · have := e0 (by linarith)
      rw [if_pos h]
      split_ifs with c1 c2
      · have := f0 (by linarith); omega
      · have := f1 (by linarith); omega
      · omega
    · have := e1 (by linarith)
      rw [if_neg (by linarith : ¬ e < -tol), if_pos h]
      split_ifs with c1 c2
      · have := f0 (by linarith); omega
      · have := f1 (by linarith); omega
      · omega

theorem walk_rect {sqrt : K → K} (jit : Bool) {g : CGrid K} {X Y : Nat → K} (hg : ∀ j i, g.lon j i = X i ∧ g.lat j i = Y j)
    (hflat : g.spherical = false) (hX : ∀ i, i + 1 < g.xdim → X i + tiny ≤ X (i + 1))
    (hY : ∀ j, j + 1 < g.ydim → Y j < Y (j + 1)) {x y : K} {k l : Nat} (hk : k + 1 < g.xdim) (hl : l + 1 < g.ydim)
    (hx : X k ≤ x ∧ x ≤ X (k + 1)) (hy : Y l ≤ y ∧ y ≤ Y (l + 1)) : ∀ (n : Nat) (s : St K), ValidCell g s.xi s.yi →
    dist k l s < n → ∃ s', walk sqrt jit g x y n s = .ok s' := by
  intro n
  induction n with
  | zero => intro s _ h; omega
  | succ n ih =>
    intro s hv hn
    unfold walk
    by_cases hs : searching s = true
    · rw [if_pos hs]
      obtain ⟨s', h1, h2, h3⟩ := step_rect (sqrt := sqrt) jit hg hflat hX hY hk hl hx hy s hv
      rw [h1]
      simp only
      by_cases hs' : searching s' = true
      · exact ih s' h2 (by have := h3 hs'; omega)
      · rw [Bool.not_eq_true] at hs'
        exact ⟨s', walk_done n hs'⟩
    · rw [if_neg hs]
      exact ⟨s, rfl⟩

end Parcels.Curvilinear
