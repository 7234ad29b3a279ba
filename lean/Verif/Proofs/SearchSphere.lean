import Verif.Proofs.SearchLon
import Mathlib.Tactic.Linarith
import Mathlib.Tactic.Push

/-! Completeness of the C search on spherical meshes: helper lemmas for C26. -/

namespace Parcels.Search

/-- A longitude axis in unwrapped form: `c` are the unwrapped longitudes, moved by a whole number of turns so that
`x` is in cell `t`; the stored longitudes are `c i - 360 * k i`. -/
structure Circ (l : List ℚ) (c : Nat → ℚ) (k : Nat → ℤ) (x : ℚ) (t : Nat) : Prop where
  len : 2 ≤ l.length
  raw : ∀ i, i < l.length → l.getD i 0 = c i - 360 * k i
  step : ∀ i, i + 1 < l.length → c i < c (i + 1)
  width : ∀ i, i + 1 < l.length → c (i + 1) - c i < 135
  lo : ∀ i, i < l.length → c 0 ≤ c i
  hi : ∀ i, i < l.length → c i ≤ c 0 + 360
  kr : ∀ i, i < l.length → k i = -1 ∨ k i = 0 ∨ k i = 1
  kstep : ∀ i, i + 1 < l.length → k (i + 1) = k i ∨ k (i + 1) = k i + 1
  kspan : ∀ i, i < l.length → k i ≤ k 0 + 1
  tl : t + 1 < l.length
  below : ∀ i, i ≤ t → c i ≤ x
  above : ∀ i, t < i → i < l.length → x ≤ c i

/-- The turn by which the search misplaces node `i`. -/
def off (c : Nat → ℚ) (k : Nat → ℤ) (x : ℚ) (i : Nat) : ℤ :=
  if k i = 1 then (if c i < x + 135 then 0 else -1)
  else if k i = 0 then (if c i < x - 225 then 1 else if x + 225 < c i then -1 else 0)
  else (if x - 135 < c i then 0 else 1)

variable {l : List ℚ} {c : Nat → ℚ} {k : Nat → ℤ} {x : ℚ} {t : Nat}

theorem near225_lo {v x : ℚ} (h : v < x - 225) : near225 v x = v + 360 := by
  unfold near225; simp only [if_pos h]; rw [if_neg (by linarith)]

theorem near225_mid {v x : ℚ} (h : x - 225 ≤ v) (h2 : v ≤ x + 225) : near225 v x = v := by
  unfold near225; simp only [if_neg (not_lt.mpr h)]; rw [if_neg (by linarith)]

theorem near225_hi {v x : ℚ} (h : x + 225 < v) : near225 v x = v - 360 := by
  unfold near225; simp only [if_neg (show ¬ v < x - 225 by linarith)]; rw [if_pos h]

theorem near180_lo {v a : ℚ} (h : v < a - 180) : near180 v a = v + 360 := by
  unfold near180; simp only [if_pos h]; rw [if_neg (by linarith)]

theorem near180_mid {v a : ℚ} (h : a - 180 ≤ v) (h2 : v ≤ a + 180) : near180 v a = v := by
  unfold near180; simp only [if_neg (not_lt.mpr h)]; rw [if_neg (by linarith)]

theorem near180_hi {v a : ℚ} (h : a + 180 < v) : near180 v a = v - 360 := by
  unfold near180; simp only [if_neg (show ¬ v < a - 180 by linarith)]; rw [if_pos h]

theorem near225_off (h : Circ l c k x t) {i : Nat} (hi : i < l.length) :
    near225 (l.getD i 0) x = c i + 360 * off c k x i := by
  have hx1 : c i ≤ x + 360 := by
    have := h.hi i hi; have := h.below 0 (by omega); linarith
  have hx2 : x - 360 ≤ c i := by
    have := h.lo i hi
    have h1 := h.above (t + 1) (by omega) h.tl
    have := h.hi (t + 1) h.tl
    linarith
  rw [h.raw i hi]
  rcases h.kr i hi with e | e | e
  · by_cases h1 : x - 135 < c i
    · have ho : off c k x i = 0 := by
        unfold off; rw [if_neg (by omega), if_neg (by omega), if_pos h1]
      rw [ho, e]; push_cast
      rw [near225_hi (by linarith)]; ring
    · have ho : off c k x i = 1 := by
        unfold off; rw [if_neg (by omega), if_neg (by omega), if_neg h1]
      rw [ho, e]; push_cast
      rw [near225_mid (by linarith) (by linarith)]; ring
  · by_cases h1 : c i < x - 225
    · have ho : off c k x i = 1 := by
        unfold off; rw [if_neg (by omega), if_pos e, if_pos h1]
      rw [ho, e]; push_cast
      rw [near225_lo (by linarith)]; ring
    · by_cases h2 : x + 225 < c i
      · have ho : off c k x i = -1 := by
          unfold off; rw [if_neg (by omega), if_pos e, if_neg h1, if_pos h2]
        rw [ho, e]; push_cast
        rw [near225_hi (by linarith)]; ring
      · have ho : off c k x i = 0 := by
          unfold off; rw [if_neg (by omega), if_pos e, if_neg h1, if_neg h2]
        rw [ho, e]; push_cast
        rw [near225_mid (by linarith) (by linarith)]; ring
  · by_cases h1 : c i < x + 135
    · have ho : off c k x i = 0 := by
        unfold off; rw [if_pos e, if_pos h1]
      rw [ho, e]; push_cast
      rw [near225_lo (by linarith)]; ring
    · have ho : off c k x i = -1 := by
        unfold off; rw [if_pos e, if_neg h1]
      rw [ho, e]; push_cast
      rw [near225_mid (by linarith) (by linarith)]; ring

/-- What the search does at cell `i`: it stops, or goes on with a cell that is nearer. -/
def mu (l : List ℚ) (c : Nat → ℚ) (k : Nat → ℤ) (x : ℚ) (t i : Nat) : Nat :=
  if off c k x i = 0 then (t - i) + (i - t)
  else if off c k x i = 1 then l.length + i
  else l.length + (l.length - 2 - i)

theorem off_cases (i : Nat) : off c k x i = 0 ∨ off c k x i = 1 ∨ off c k x i = -1 := by
  unfold off; split_ifs <;> simp

theorem off_t (h : Circ l c k x t) : off c k x t = 0 := by
  have h1 := h.below t (le_refl _)
  have h2 := h.above (t + 1) (by omega) h.tl
  have h3 := h.width t h.tl
  unfold off
  split_ifs <;> first | rfl | (exfalso; linarith)

theorem off_le (h : Circ l c k x t) {i : Nat} (hi : i ≤ t) : off c k x i ≠ -1 := by
  have h1 := h.below i hi
  unfold off
  split_ifs <;> first | decide | (exfalso; linarith)

theorem off_gt (h : Circ l c k x t) {i : Nat} (hi : t < i) (hl : i < l.length) : off c k x i ≠ 1 := by
  have h1 := h.above i hi hl
  unfold off
  split_ifs <;> first | decide | (exfalso; linarith)

theorem off_east (h : Circ l c k x t) {i : Nat} (hi : i < t) (h0 : off c k x i = 0) : off c k x (i + 1) = 0 := by
  have tl := h.tl
  have h1 := h.below (i + 1) hi
  have h2 := h.step i (by omega)
  have e := h.kstep i (by omega)
  have e2 := h.kr i (by omega)
  have e3 := h.kr (i + 1) (by omega)
  unfold off at h0 ⊢
  split_ifs at h0 ⊢ <;> first | rfl | (exfalso; linarith) | (exfalso; omega) | (simp at h0)

theorem off_west (h : Circ l c k x t) {i : Nat} (hi : t < i) (hl : i + 1 < l.length) (h0 : off c k x (i + 1) = 0) :
    off c k x i = 0 := by
  have h1 := h.above i hi (by omega)
  have h2 := h.step i (by omega)
  have e := h.kstep i (by omega)
  have e2 := h.kr i (by omega)
  have e3 := h.kr (i + 1) (by omega)
  unfold off at h0 ⊢
  split_ifs at h0 ⊢ <;> first | rfl | (exfalso; linarith) | (exfalso; omega) | (simp at h0)

theorem off_ends (h : Circ l c k x t) : ¬ (off c k x 0 = 1 ∧ off c k x (l.length - 2) = -1) := by
  rintro ⟨h1, h2⟩
  have hl := h.len
  have h3 := h.hi (l.length - 2) (by omega)
  have e := h.kspan (l.length - 2) (by omega)
  have e0 := h.kr 0 (by omega)
  have e1 := h.kr (l.length - 2) (by omega)
  unfold off at h1 h2
  split_ifs at h1 h2 <;> first | (simp at h1; done) | (simp at h2; done) | linarith | omega

theorem mu_zero_lt (h : Circ l c k x t) {i : Nat} (hi : i + 1 < l.length) (h0 : off c k x i = 0) :
    mu l c k x t i < l.length := by
  have := h.tl
  unfold mu
  rw [if_pos h0]
  omega

theorem near180_eq {a w : ℚ} (hw : 0 < w) (hw2 : w < 135) (j : ℤ) (hj : j = -1 ∨ j = 0 ∨ j = 1) :
    near180 (a + w + 360 * j) a = a + w := by
  rcases hj with rfl | rfl | rfl
  · push_cast
    rw [near180_lo (by linarith)]; ring
  · push_cast
    rw [near180_mid (by linarith) (by linarith)]; ring
  · push_cast
    rw [near180_hi (by linarith)]; ring

theorem wrapX_in {i : Nat} (h : i + 1 < l.length) : wrapX (i : ℤ) l.length = (i : ℤ) := by
  unfold wrapX; simp only; split_ifs <;> omega

/-- From every cell, one step of the search ends it or leads to a cell with smaller `mu`. -/
theorem sphere_step (h : Circ l c k x t) {i : Nat} (hi : i + 1 < l.length)
    (a b : ℚ) (ha : a = near225 (l.getD i 0) x) (hb : b = near180 (l.getD (i + 1) 0) a)
    (hne : x < a ∨ b < x) :
    ∃ i' : Nat, wrapX (if b < x then (i : ℤ) + 1 else (i : ℤ) - 1) l.length = (i' : ℤ) ∧ i' + 1 < l.length ∧
      mu l c k x t i' < mu l c k x t i := by
  have tl := h.tl
  have hs := h.step i hi
  have hw := h.width i hi
  rw [near225_off h (by omega)] at ha
  rw [h.raw (i + 1) hi] at hb
  have hkr := h.kr (i + 1) hi
  have hkr0 := h.kr i (by omega)
  have hks := h.kstep i hi
  have wr : ∀ j : Nat, j + 1 < l.length → wrapX (j : ℤ) l.length = (j : ℤ) := fun j hj => wrapX_in hj
  have wrN : wrapX ((l.length - 1 : Nat) : ℤ) l.length = ((0 : Nat) : ℤ) := by
    unfold wrapX; simp only; split_ifs <;> omega
  have wrM : wrapX (-1) l.length = ((l.length - 2 : Nat) : ℤ) := by
    unfold wrapX; simp only; split_ifs <;> omega
  rcases off_cases (c := c) (k := k) (x := x) i with h0 | h0 | h0
  · -- the node is where it should be
    rw [h0] at ha
    simp only [Int.cast_zero, mul_zero, add_zero] at ha
    have hb' : b = c (i + 1) := by
      rw [hb, ha, show c (i + 1) - 360 * (k (i + 1) : ℚ) = c i + (c (i + 1) - c i) + 360 * ((-k (i + 1) : ℤ) : ℚ) by
        push_cast; ring, near180_eq (by linarith) hw _ (by omega)]
      ring
    rw [ha, hb'] at hne
    rw [hb']
    by_cases hit : i < t
    · have h1 := h.below (i + 1) hit
      have h2 := h.below i (by omega)
      have hlt : c (i + 1) < x := by rcases hne with h | h <;> [linarith; exact h]
      rw [if_pos hlt]
      refine ⟨i + 1, ?_, by omega, ?_⟩
      · rw [← wr (i + 1) (by omega)]; push_cast; rfl
      · unfold mu; rw [if_pos (off_east h hit h0), if_pos h0]; omega
    · by_cases hit2 : i = t
      · subst hit2
        have h1 := h.below i (le_refl _)
        have h2 := h.above (i + 1) (by omega) hi
        exfalso; rcases hne with h | h <;> linarith
      · have h1 := h.above i (by omega) (by omega)
        rw [if_neg (by linarith)]
        refine ⟨i - 1, ?_, by omega, ?_⟩
        · rw [← wr (i - 1) (by omega), Nat.cast_sub (by omega)]; rfl
        · have hz : off c k x (i - 1) = 0 := by
            by_cases hq : t < i - 1
            · exact off_west h hq (by omega) (by rw [show i - 1 + 1 = i by omega]; exact h0)
            · rw [show i - 1 = t by omega]; exact off_t h
          unfold mu; rw [if_pos hz, if_pos h0]; omega
  · -- one turn too far east: the search goes west
    have hit : i ≤ t := by
      by_contra hc
      exact off_gt h (by omega) (by omega) h0
    have hit' : i ≠ t := by
      intro e; rw [e, off_t h] at h0; exact absurd h0 (by decide)
    have hmu : mu l c k x t i = l.length + i := by
      unfold mu; rw [if_neg (by rw [h0]; decide), if_pos h0]
    have hx2 : x - 360 ≤ c i := by
      have := h.lo i (by omega)
      have h1 := h.above (t + 1) (by omega) h.tl
      have := h.hi (t + 1) h.tl
      linarith
    rw [h0] at ha
    simp only [Int.cast_one, mul_one] at ha
    by_cases hsp : k (i + 1) = 1
    · -- crossing the jump of the stored longitudes
      have hk0 : k i = 0 := by
        unfold off at h0
        split_ifs at h0 <;> first | assumption | (exfalso; omega) | (simp at h0)
      have hc : c i < x - 225 := by
        unfold off at h0
        rw [if_neg (by omega), if_pos hk0] at h0
        split_ifs at h0 with h1 h2
        all_goals first | exact h1 | exact absurd h0 (by decide)
      have hb' : b = c (i + 1) := by
        rw [hb, ha, hsp]
        push_cast
        rw [near180_lo (by linarith)]; ring
      rw [hb', if_pos (by linarith)]
      refine ⟨i + 1, ?_, by omega, ?_⟩
      · rw [← wr (i + 1) (by omega)]; push_cast; rfl
      · have hz : off c k x (i + 1) = 0 := by
          unfold off
          rw [if_pos hsp, if_pos (by linarith)]
        have := mu_zero_lt h (i := i + 1) (by omega) hz
        omega
    · have hb' : b = c (i + 1) + 360 := by
        rw [hb, ha, show c (i + 1) - 360 * (k (i + 1) : ℚ) =
          c i + 360 + (c (i + 1) - c i) + 360 * ((-k (i + 1) - 1 : ℤ) : ℚ) by push_cast; ring,
          near180_eq (by linarith) hw _ (by omega)]
        ring
      have hxa : ¬ b < x := by rw [hb']; linarith
      rw [if_neg hxa]
      by_cases hi0 : i = 0
      · subst hi0
        refine ⟨l.length - 2, ?_, by omega, ?_⟩
        · rw [← wrM]; rfl
        · have hz : off c k x (l.length - 2) = 0 := by
            rcases off_cases (c := c) (k := k) (x := x) (l.length - 2) with e | e | e
            · exact e
            · exfalso
              by_cases hq : t < l.length - 2
              · exact off_gt h hq (by omega) e
              · rw [show l.length - 2 = t by omega, off_t h] at e; exact absurd e (by decide)
            · exact absurd ⟨h0, e⟩ (off_ends h)
          have := mu_zero_lt h (i := l.length - 2) (by omega) hz
          omega
      · refine ⟨i - 1, ?_, by omega, ?_⟩
        · rw [← wr (i - 1) (by omega), Nat.cast_sub (by omega)]; rfl
        · rcases off_cases (c := c) (k := k) (x := x) (i - 1) with e | e | e
          · have := mu_zero_lt h (i := i - 1) (by omega) e
            omega
          · have : mu l c k x t (i - 1) = l.length + (i - 1) := by
              unfold mu; rw [if_neg (by rw [e]; decide), if_pos e]
            omega
          · exact absurd e (off_le h (by omega))
  · -- one turn too far west: the search goes east
    have hit : t < i := by
      by_contra hc
      exact off_le h (by omega) h0
    have hmu : mu l c k x t i = l.length + (l.length - 2 - i) := by
      unfold mu; rw [if_neg (by rw [h0]; decide), if_neg (by rw [h0]; decide)]
    rw [h0] at ha
    push_cast at ha
    have hk : k i ≠ -1 := by
      intro e
      unfold off at h0
      rw [if_neg (by omega), if_neg (by omega)] at h0
      split_ifs at h0
    have hb' : b = c (i + 1) - 360 := by
      rw [hb, ha, show c (i + 1) - 360 * (k (i + 1) : ℚ) =
        c i + 360 * -1 + (c (i + 1) - c i) + 360 * ((1 - k (i + 1) : ℤ) : ℚ) by push_cast; ring,
        near180_eq (by linarith) hw _ (by omega)]
      ring
    have hle : b ≤ x := by
      rw [hb']
      have := h.hi (i + 1) hi
      have := h.below 0 (by omega)
      linarith
    have hlt : b < x := by
      rcases hne with hh | hh
      · rw [ha] at hh; rw [hb']; rw [hb'] at hle; linarith
      · exact hh
    rw [if_pos hlt]
    by_cases hl : i + 2 < l.length
    · refine ⟨i + 1, ?_, by omega, ?_⟩
      · rw [← wr (i + 1) (by omega)]; push_cast; rfl
      · rcases off_cases (c := c) (k := k) (x := x) (i + 1) with e | e | e
        · have := mu_zero_lt h (i := i + 1) (by omega) e
          omega
        · exact absurd e (off_gt h (by omega) (by omega))
        · have : mu l c k x t (i + 1) = l.length + (l.length - 2 - (i + 1)) := by
            unfold mu; rw [if_neg (by rw [e]; decide), if_neg (by rw [e]; decide)]
          omega
    · refine ⟨0, ?_, by omega, ?_⟩
      · rw [← wrN, Nat.cast_sub (by omega)]
        congr 1
        push_cast
        omega
      · have hz : off c k x 0 = 0 := by
          rcases off_cases (c := c) (k := k) (x := x) 0 with e | e | e
          · exact e
          · exact absurd ⟨e, by rw [show l.length - 2 = i by omega]; exact h0⟩ (off_ends h)
          · exact absurd e (off_le h (by omega))
        have := mu_zero_lt h (i := 0) (by omega) hz
        omega

theorem mu_le (h : Circ l c k x t) {i : Nat} (hi : i + 1 < l.length) : mu l c k x t i ≤ 2 * l.length := by
  have := h.tl
  unfold mu; split_ifs <;> omega

/-- The search finds a cell, from every cell, with enough iterations. -/
theorem sphere_found (h : Circ l c k x t) : ∀ (fuel i : Nat), i + 1 < l.length → mu l c k x t i ≤ fuel →
    ∃ j a b, cSphere l x fuel (i : ℤ) = .ok (j, a, b) ∧ a ≤ x ∧ x ≤ b := by
  intro fuel
  induction fuel with
  | zero =>
    intro i hi hm
    rw [cSphere]
    simp only [Int.toNat_natCast]
    by_cases hne : x < near225 (l.getD i 0) x ∨ near180 (l.getD (i + 1) 0) (near225 (l.getD i 0) x) < x
    · obtain ⟨_, _, _, h3⟩ := sphere_step h hi _ _ rfl rfl hne
      omega
    · rw [if_neg hne]
      push Not at hne
      exact ⟨_, _, _, rfl, hne.1, hne.2⟩
  | succ f ih =>
    intro i hi hm
    rw [cSphere]
    simp only [Int.toNat_natCast]
    by_cases hne : x < near225 (l.getD i 0) x ∨ near180 (l.getD (i + 1) 0) (near225 (l.getD i 0) x) < x
    · obtain ⟨i', h1, h2, h3⟩ := sphere_step h hi _ _ rfl rfl hne
      rw [if_pos hne, h1]
      exact ih i' h2 (by omega)
    · rw [if_neg hne]
      push Not at hne
      exact ⟨_, _, _, rfl, hne.1, hne.2⟩

end Parcels.Search
