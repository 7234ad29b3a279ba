import Verif.Model.Density
import Verif.Props.Search
import Verif.Proofs.Rng
import Mathlib.Algebra.BigOperators.Group.Finset.Basic
import Mathlib.Algebra.BigOperators.Group.Finset.Piecewise
import Mathlib.Algebra.BigOperators.Ring.Finset
import Mathlib.Algebra.BigOperators.Field

/-!
C52: particle density conserves particles.
-/

namespace Parcels.Density

open Search (RGrid FlatGrid)

/-- The sum over all cells of the array. -/
def total {K : Type} [AddCommMonoid K] (g : RGrid) (D : ℕ → ℕ → K) : K :=
  ∑ j ∈ Finset.range g.lat.length, ∑ i ∈ Finset.range g.lon.length, D j i

theorem pyIndex_lt {n : ℕ} {i : ℤ} {k : ℕ} (h : pyIndex n i = some k) : k < n := by
  unfold pyIndex at h
  split at h
  · simp only [Option.some.injEq] at h; omega
  · split at h
    · simp only [Option.some.injEq] at h; omega
    · cases h

theorem total_bump {K : Type} [AddCommMonoid K] (g : RGrid) (D : ℕ → ℕ → K) (j i : ℕ) (v : K) (hj : j < g.lat.length) (hi : i < g.lon.length) :
    total g (bump id D j i v) = total g D + v := by
  have e : ∀ b a, bump id D j i v b a = D b a + if b = j then (if a = i then v else 0) else 0 := by
    intro b a
    unfold bump
    by_cases hb : b = j <;> by_cases ha : a = i <;> simp [hb, ha]
  unfold total
  simp only [e, Finset.sum_add_distrib]
  congr 1
  rw [Finset.sum_eq_single j]
  · simp [hi]
  · intro b _ hb
    simp [hb]
  · intro h
    exact absurd (Finset.mem_range.mpr hj) h

section
variable {K : Type} [AddCommMonoid K] [One K] [DecidableEq K]

/-- The value a particle adds to a cell: its weight if the cell is its cell. -/
def share (g : RGrid) (j i : ℕ) (pv : DP × K) : K :=
  match cell g pv.1 with
  | .ok (yi, xi) => if pyIndex g.lat.length yi = some j ∧ pyIndex g.lon.length xi = some i then pv.2 else 0
  | .error _ => 0

theorem count_spec (g : RGrid) : ∀ (ps : List DP) (vals : List K) (D D' : ℕ → ℕ → K), count id g ps vals D = .ok D' →
    ps.length ≤ vals.length ∧ total g D' = total g D + (vals.take ps.length).sum ∧
    ∀ j i, D' j i = D j i + ((ps.zip vals).map (share g j i)).sum
  | [], vals, D, D', h => by
    simp only [count, Except.ok.injEq] at h
    subst h
    simp
  | p :: ps, vals, D, D', h => by
    rw [count] at h
    cases hc : cell g p with
    | error e => rw [hc] at h; cases h
    | ok c =>
      obtain ⟨yi, xi⟩ := c
      rw [hc] at h
      simp only at h
      split at h
      · rename_i j i v vals' hj hi
        obtain ⟨h1, h2, h3⟩ := count_spec g ps vals' _ _ h
        refine ⟨by simpa using h1, ?_, ?_⟩
        · rw [h2, total_bump g D j i v (pyIndex_lt hj) (pyIndex_lt hi)]
          simp [add_assoc]
        · intro b a
          rw [h3]
          simp only [List.zip_cons_cons, List.map_cons, List.sum_cons, ← add_assoc]
          congr 1
          simp only [bump, share, hc, hj, hi, Option.some.injEq]
          by_cases hc : b = j ∧ a = i
          · rw [if_pos hc, if_pos ⟨hc.1.symm, hc.2.symm⟩]; rfl
          · rw [if_neg hc, if_neg fun h => hc ⟨h.1.symm, h.2.symm⟩, add_zero]
      · cases h

/-- C52. Without rounding, the sum of `density()` over all cells is the number of particles; with weights, the sum of the weights; and
each cell holds the sum of the weights of the particles whose cell it is: every particle is counted once. -/
theorem C52_conserved (g : RGrid) (ps : List DP) (val : Val K) (D : ℕ → ℕ → K) (h : density id g ps val = .ok D) :
    ∃ vals, weights ps.length val = .ok vals ∧ ps.length ≤ vals.length ∧ total g D = (vals.take ps.length).sum ∧
      ∀ j i, D j i = ((ps.zip vals).map (share g j i)).sum := by
  unfold density at h
  cases hw : weights ps.length val with
  | error e => rw [hw] at h; cases h
  | ok vals =>
    rw [hw] at h
    simp only at h
    obtain ⟨h1, h2, h3⟩ := count_spec g ps vals _ _ h
    exact ⟨vals, rfl, h1, by rw [h2]; simp [total], fun j i => by rw [h3]; simp⟩

end

/-- C52, with the default weights: the sum is the number of particles. -/
theorem C52_number (g : RGrid) (ps : List DP) (D : ℕ → ℕ → ℚ) (h : density id g ps .none = .ok D) : total g D = ps.length := by
  obtain ⟨vals, hw, _, ht, _⟩ := C52_conserved g ps _ D h
  simp only [weights, Except.ok.injEq] at hw
  subst hw
  rw [ht]
  simp

/-- C52. On a flat grid, particles inside it, not searched for before or with indices of a cell that contains them, make no error. -/
theorem C52_defined (g : RGrid) (hg : FlatGrid g) (ps : List DP)
    (hin : ∀ p ∈ ps, (p.ti < 0 ∧ Search.InRange g.lon p.lon ∧ Search.InRange g.lat p.lat) ∨
      (0 ≤ p.ti ∧ (∃ r, Search.Locates g.lon p.lon p.xi r) ∧ ∃ r, Search.Locates g.lat p.lat p.yi r)) :
    (∃ D, density id g ps (.none : Val ℚ) = .ok D) ∧
    ∀ p ∈ ps, ∃ (j i : ℕ) (r s : ℚ), cell g p = .ok ((j : ℤ), (i : ℤ)) ∧ pyIndex g.lat.length j = some j ∧ pyIndex g.lon.length i = some i ∧
      Search.Locates g.lat p.lat j r ∧ Search.Locates g.lon p.lon i s := by
  have key : ∀ p ∈ ps, ∃ (j i : ℕ) (r s : ℚ), cell g p = .ok ((j : ℤ), (i : ℤ)) ∧ pyIndex g.lat.length j = some j ∧
      pyIndex g.lon.length i = some i ∧ Search.Locates g.lat p.lat j r ∧ Search.Locates g.lon p.lon i s := by
    intro p hp
    have lt : ∀ {l : List ℚ} {x : ℚ} {k : ℤ} {r : ℚ}, Search.Locates l x k r → ∃ n : ℕ, k = n ∧ pyIndex l.length n = some n := by
      rintro l x k r ⟨n, a, b, rfl, h1, h2, _⟩
      obtain ⟨hn, -⟩ := List.getElem?_eq_some_iff.mp h1
      exact ⟨n, rfl, by simp [pyIndex, hn]⟩
    rcases hin p hp with ⟨ht, hx, hy⟩ | ⟨ht, ⟨s, hx⟩, r, hy⟩
    · have hg' : FlatGrid { g with depth := [] } := ⟨hg.flat, hg.noHalo, hg.lonInc, hg.lonLen, hg.latInc, hg.latLen⟩
      obtain ⟨q, hq, hqx, hqy⟩ := (Search.C24_scipy { g with depth := [] } hg' (by simp) p.lon p.lat 0).1 ⟨hx, hy⟩
      obtain ⟨i, hi, hi'⟩ := lt hqx
      obtain ⟨j, hj, hj'⟩ := lt hqy
      refine ⟨j, i, q.eta, q.xsi, ?_, hj', hi', hj ▸ hqy, hi ▸ hqx⟩
      simp only [cell, if_pos ht, search2D, hq, Except.map, hi, hj]
    · obtain ⟨i, hi, hi'⟩ := lt hx
      obtain ⟨j, hj, hj'⟩ := lt hy
      refine ⟨j, i, r, s, ?_, hj', hi', hj ▸ hy, hi ▸ hx⟩
      rw [cell, if_neg (by omega), hi, hj]
  refine ⟨?_, key⟩
  simp only [density, weights]
  generalize (fun _ _ => (0 : ℚ)) = D
  induction ps generalizing D with
  | nil => exact ⟨D, rfl⟩
  | cons p ps ih =>
    obtain ⟨j, i, r, s, hc, hj, hi, _⟩ := key p (by simp)
    simp only [List.length_cons, List.replicate_succ, count, hc, hj, hi]
    exact ih (fun q hq => hin q (by simp [hq])) (fun q hq => key q (by simp [hq])) _

/-- A grid of two by three cells and four particles, one of them with indices from an earlier search. -/
def exGrid : RGrid := { lon := [0, 1, 3, 10], lat := [-5, 5, 6], depth := [0], spherical := false, zonalPeriodic := false, mom5 := false }
def exSet : List DP := [⟨1/2, 0, -1, 0, 0⟩, ⟨2, 11/2, -1, 0, 0⟩, ⟨3/4, 4, 0, 0, 0⟩, ⟨10, 6, -1, 0, 0⟩]

example : (density id exGrid exSet (.none : Val ℚ)).toOption.map (fun D => (List.range 3).map fun j => (List.range 4).map (D j)) =
    some [[2, 0, 0, 0], [0, 1, 1, 0], [0, 0, 0, 0]] := by decide +kernel
example : (density id exGrid exSet (.list [1, 2, 3, 4] : Val ℚ)).toOption.map (fun D => (List.range 3).map fun j => (List.range 4).map (D j)) =
    some [[4, 0, 0, 0], [0, 2, 4, 0], [0, 0, 0, 0]] := by decide +kernel

/-- C52. The relative density sums to 1, if the weights do not sum to 0 and there is one for each particle. -/
theorem C52_relative (g : RGrid) (ps : List DP) (val : Val ℚ) (D : ℕ → ℕ → ℚ) (h : relative g ps val = .ok D) (vals : List ℚ)
    (hw : weights ps.length val = .ok vals) (hl : vals.length = ps.length) (h0 : vals.sum ≠ 0) : total g D = 1 := by
  rw [relative, hw] at h
  simp only at h
  cases hc : count id g ps vals (fun _ _ => 0) with
  | error e => rw [hc] at h; cases h
  | ok D' =>
    rw [hc] at h
    simp only [Except.map, Except.ok.injEq] at h
    subst h
    obtain ⟨_, h2, _⟩ := count_spec g ps vals _ _ hc
    rw [← hl, List.take_length] at h2
    simp only [total, ← Finset.sum_div] at h2 ⊢
    rw [h2]
    simp [h0]

example : (relative exGrid exSet (.none : Val ℚ)).toOption.map (fun D => D 0 0) = some (1 / 2) := by decide +kernel

/-- The documentation asks for a numpy array of values; an array with more than one element makes an error. -/
theorem C52_array_fails (g : RGrid) (ps : List DP) (a b : ℚ) (l : List ℚ) : density id g ps (.array (a :: b :: l)) = .error .truth := rfl

/-! ### The precision of the result -/

theorem not_rep : ¬ Rng.Rep 24 (2 ^ 24 + 1) := by
  rintro ⟨m, k, hm, h⟩
  rcases le_or_gt k 0 with hk | hk
  · have h1 : (m : ℝ) * 2 ^ k ≤ 2 ^ 24 := by
      calc (m : ℝ) * 2 ^ k ≤ |(m : ℝ)| * 2 ^ k := mul_le_mul_of_nonneg_right (le_abs_self _) (by positivity)
        _ ≤ 2 ^ 24 * 1 := mul_le_mul (by exact_mod_cast hm) (zpow_le_one_of_nonpos₀ (by norm_num) hk) (by positivity) (by positivity)
        _ = 2 ^ 24 := mul_one _
    rw [← h] at h1
    norm_num at h1
  · obtain ⟨n, rfl⟩ := Int.eq_ofNat_of_zero_le hk.le
    rw [zpow_natCast] at h
    have h' : (2 ^ 24 + 1 : ℤ) = m * 2 ^ n := by exact_mod_cast h
    obtain ⟨j, rfl⟩ : ∃ j, n = j + 1 := ⟨n - 1, by omega⟩
    rw [pow_succ 2 j, ← mul_assoc] at h'
    generalize m * 2 ^ j = y at h'
    omega

/-- C52, as computed: with the rounding of float32, counts are exact for up to 2^24 particles. -/
theorem C52_float32 (f : ℝ → ℝ) (hf : Rng.Nearest 24 f) (g : RGrid) (ps : List DP) (hn : ps.length ≤ 2 ^ 24) :
    density f g ps .none = density id g ps .none := by
  have key : ∀ (ps : List DP) (D : ℕ → ℕ → ℝ) (N : ℕ → ℕ → ℕ) (m : ℕ), (∀ j i, D j i = N j i) → (∀ j i, N j i ≤ m) →
      m + ps.length ≤ 2 ^ 24 → count f g ps (List.replicate ps.length 1) D = count id g ps (List.replicate ps.length 1) D := by
    intro ps
    induction ps with
    | nil => intros; rfl
    | cons p ps ih =>
      intro D N m hD hN hm
      simp only [List.length_cons, List.replicate_succ, count]
      cases cell g p with
      | error e => rfl
      | ok c =>
        obtain ⟨yi, xi⟩ := c
        simp only
        cases hj : pyIndex g.lat.length yi with
        | none => rfl
        | some j =>
          cases hi : pyIndex g.lon.length xi with
          | none => rfl
          | some i =>
            simp only
            have e : bump f D j i 1 = bump id D j i 1 := by
              funext b a
              simp only [bump]
              split
              · simp only [id, hD]
                have hb := hN b a
                have := hf.fix (Rng.rep_int 24 (N b a + 1) (by
                  rw [abs_of_nonneg (by positivity)]
                  simp only [List.length_cons] at hm
                  have : N b a + 1 ≤ 2 ^ 24 := by omega
                  exact_mod_cast this))
                push_cast at this
                exact this
              · rfl
            rw [e]
            refine ih _ (fun b a => if b = j ∧ a = i then N b a + 1 else N b a) (m + 1) ?_ ?_ ?_
            · intro b a
              simp only [bump]
              split
              · simp [hD]
              · exact hD b a
            · intro b a
              have := hN b a
              split <;> omega
            · simp only [List.length_cons] at hm
              omega
  exact key ps _ (fun _ _ => 0) 0 (by simp) (by simp) (by simpa using hn)

/-- With one particle more in a cell the count is wrong. -/
theorem C52_float32_fails (f : ℝ → ℝ) (hf : Rng.Nearest 24 f) :
    ∃ (g : RGrid) (ps : List DP) (D D' : ℕ → ℕ → ℝ), ps.length = 2 ^ 24 + 1 ∧ density f g ps .none = .ok D ∧
      density id g ps .none = .ok D' ∧ D' 0 0 = ps.length ∧ D 0 0 ≠ ps.length := by
  have key : ∀ (f : ℝ → ℝ) (n : ℕ) (D : ℕ → ℕ → ℝ), ∃ D', count f exGrid (List.replicate n ⟨1/2, 0, 0, 0, 0⟩) (List.replicate n 1) D = .ok D' ∧
      (n = 0 → D' = D) ∧ (n ≠ 0 → ∃ x, D' 0 0 = f x) ∧ ((∀ x, f x = x) → D' 0 0 = D 0 0 + n) := by
    intro f n
    induction n with
    | zero => intro D; exact ⟨D, rfl, fun _ => rfl, fun h => absurd rfl h, by simp⟩
    | succ n ih =>
      intro D
      obtain ⟨D', h1, h2, h3, h4⟩ := ih (bump f D 0 0 1)
      have e : count f exGrid (List.replicate (n + 1) ⟨1/2, 0, 0, 0, 0⟩) (List.replicate (n + 1) 1) D =
          count f exGrid (List.replicate n ⟨1/2, 0, 0, 0, 0⟩) (List.replicate n 1) (bump f D 0 0 1) := by
        simp only [List.replicate_succ, count, cell]
        rfl
      refine ⟨D', e ▸ h1, by omega, fun _ => ?_, fun hx => ?_⟩
      · by_cases hn : n = 0
        · rw [h2 hn]
          exact ⟨D 0 0 + 1, by simp [bump]⟩
        · exact h3 hn
      · rw [h4 hx]
        simp only [bump, and_self, if_true, hx]
        push_cast
        ring
  obtain ⟨D, h1, _, h3, _⟩ := key f (2 ^ 24 + 1) fun _ _ => 0
  obtain ⟨D', h1', _, _, h4'⟩ := key id (2 ^ 24 + 1) fun _ _ => 0
  refine ⟨exGrid, List.replicate (2 ^ 24 + 1) ⟨1/2, 0, 0, 0, 0⟩, D, D', List.length_replicate, ?_, ?_, ?_, ?_⟩
  · rw [density, weights, List.length_replicate]
    exact h1
  · rw [density, weights, List.length_replicate]
    exact h1'
  · rw [h4' fun _ => rfl, List.length_replicate, zero_add]
  · rw [List.length_replicate]
    obtain ⟨x, hx⟩ := h3 (by norm_num)
    rw [hx]
    intro hh
    have hr := hf.rep x
    rw [hh] at hr
    exact not_rep (by exact_mod_cast hr)

end Parcels.Density
