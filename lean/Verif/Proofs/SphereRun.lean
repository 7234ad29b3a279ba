import Verif.Props.InterpSphere

/-! The C search on an increasing axis of longitudes that may be longer than one turn (a halo), and uniqueness of the interpolated value there. -/

namespace Parcels.Search

/-! ### Single steps -/

theorem cs_found {l : List ℚ} {x : ℚ} (fuel i : Nat) (h : near225 (l.getD i 0) x ≤ x)
    (h' : x ≤ near180 (l.getD (i + 1) 0) (near225 (l.getD i 0) x)) : ∃ r, cSphere l x fuel i = .ok r := by
  cases fuel <;> rw [cSphere] <;> simp only [Int.toNat_natCast] <;>
    rw [if_neg (by rintro (c | c) <;> linarith)] <;> exact ⟨_, rfl⟩

theorem cs_east {l : List ℚ} {x : ℚ} (fuel i : Nat) (h' : near180 (l.getD (i + 1) 0) (near225 (l.getD i 0) x) < x) :
    cSphere l x (fuel + 1) i = cSphere l x fuel (wrapX ((i + 1 : Nat) : ℤ) l.length) := by
  rw [cSphere]
  simp only [Int.toNat_natCast]
  rw [if_pos (Or.inr h'), if_pos h']
  push_cast
  rfl

theorem cs_west {l : List ℚ} {x : ℚ} (fuel i : Nat) (h : x < near225 (l.getD i 0) x)
    (h2 : near225 (l.getD i 0) x ≤ near180 (l.getD (i + 1) 0) (near225 (l.getD i 0) x)) :
    cSphere l x (fuel + 1) i = cSphere l x fuel (wrapX ((i : ℤ) - 1) l.length) := by
  rw [cSphere]
  simp only [Int.toNat_natCast]
  rw [if_pos (Or.inl h), if_neg (by linarith)]

/-! ### The search on a long axis -/

/-- An increasing axis with cells narrower than 135 degrees, of 450 degrees at most, and a position on it. -/
structure Long (l : List ℚ) (x : ℚ) : Prop where
  len : 2 ≤ l.length
  inc : Increasing l
  width : ∀ i, i + 1 < l.length → l.getD (i + 1) 0 - l.getD i 0 < 135
  span : l.getD (l.length - 1) 0 - l.getD 0 0 ≤ 450
  lo : l.getD 0 0 ≤ x
  hi : x ≤ l.getD (l.length - 1) 0

variable {l : List ℚ} {x : ℚ}

theorem Long.pos (h : Long l x) {i : Nat} (hi : i + 1 < l.length) : 0 < l.getD (i + 1) 0 - l.getD i 0 := by
  have := inc_lt h.inc (show i < i + 1 by omega) hi
  linarith

theorem next_node (h : Long l x) {i : Nat} (hi : i + 1 < l.length) (j : ℤ) (hj : j = -1 ∨ j = 0 ∨ j = 1) :
    near180 (l.getD (i + 1) 0) (l.getD i 0 + 360 * j) = l.getD (i + 1) 0 + 360 * j := by
  have := near180_eq (a := l.getD i 0 + 360 * j) (h.pos hi) (h.width i hi) (-j) (by omega)
  push_cast at this
  rw [show l.getD i 0 + 360 * (j : ℚ) + (l.getD (i + 1) 0 - l.getD i 0) + 360 * -(j : ℚ) = l.getD (i + 1) 0 by ring] at this
  rw [this]; ring

theorem next0 (h : Long l x) {i : Nat} (hi : i + 1 < l.length) : near180 (l.getD (i + 1) 0) (l.getD i 0) = l.getD (i + 1) 0 := by
  simpa using next_node h hi 0 (by omega)

theorem next1 (h : Long l x) {i : Nat} (hi : i + 1 < l.length) : near180 (l.getD (i + 1) 0) (l.getD i 0 + 360) = l.getD (i + 1) 0 + 360 := by
  simpa using next_node h hi 1 (by omega)

theorem nextM (h : Long l x) {i : Nat} (hi : i + 1 < l.length) : near180 (l.getD (i + 1) 0) (l.getD i 0 - 360) = l.getD (i + 1) 0 - 360 := by
  have := next_node h hi (-1) (by omega)
  push_cast at this
  rw [show l.getD i 0 + 360 * (-1 : ℚ) = l.getD i 0 - 360 by ring, show l.getD (i + 1) 0 + 360 * (-1 : ℚ) = l.getD (i + 1) 0 - 360 by ring] at this
  exact this

theorem wrapX_mid {i n : Nat} (h : i + 1 < n) : wrapX (i : ℤ) n = (i : ℤ) := by
  unfold wrapX; simp only; split_ifs <;> omega

theorem wrapX_pred {i n : Nat} (h : i + 1 < n) (hp : 0 < i) : wrapX ((i : ℤ) - 1) n = ((i - 1 : Nat) : ℤ) := by
  rw [show ((i : ℤ) - 1) = ((i - 1 : Nat) : ℤ) by omega]
  exact wrapX_mid (by omega)

theorem wrapX_below {n : Nat} (h : 2 ≤ n) : wrapX ((0 : Nat) - 1 : ℤ) n = ((n - 2 : Nat) : ℤ) := by
  unfold wrapX; simp only; split_ifs <;> omega

theorem wrapX_above {n : Nat} (h : 2 ≤ n) : wrapX ((n - 1 : Nat) : ℤ) n = ((0 : Nat) : ℤ) := by
  unfold wrapX; simp only; split_ifs <;> omega

/-- From a cell that is west of the position by at most 225 degrees. -/
theorem long_east (h : Long l x) : ∀ (fuel i : Nat), i + 1 < l.length → l.getD i 0 ≤ x → x - 225 ≤ l.getD i 0 → l.length - 1 - i ≤ fuel →
    ∃ r, cSphere l x fuel i = .ok r := by
  intro fuel
  induction fuel with
  | zero => intro i hi _ _ hf; omega
  | succ fuel ih =>
    intro i hi h1 h2 hf
    have e1 : near225 (l.getD i 0) x = l.getD i 0 := near225_mid h2 (by linarith)
    rcases le_or_gt x (l.getD (i + 1) 0) with c | c
    · exact cs_found _ i (by rw [e1]; exact h1) (by rw [e1, next0 h hi]; exact c)
    · have hi2 : i + 1 + 1 < l.length := by
        by_contra hn
        have e : i + 1 = l.length - 1 := by omega
        have := h.hi
        rw [e] at c
        linarith
      rw [cs_east fuel i (by rw [e1, next0 h hi]; exact c), wrapX_mid hi2]
      have := h.pos hi
      exact ih (i + 1) hi2 c.le (by linarith) (by omega)

/-- From a cell that is east of the position by at most 225 degrees. -/
theorem long_west (h : Long l x) : ∀ (fuel i : Nat), i + 1 < l.length → x ≤ l.getD (i + 1) 0 → l.getD i 0 ≤ x + 225 → i ≤ fuel →
    ∃ r, cSphere l x fuel i = .ok r := by
  intro fuel
  induction fuel with
  | zero =>
    intro i hi h1 h2 hf
    obtain rfl : i = 0 := by omega
    have := h.width 0 hi
    have := h.lo
    have e1 : near225 (l.getD 0 0) x = l.getD 0 0 := near225_mid (by linarith) (by linarith)
    exact cs_found _ 0 (by rw [e1]; exact h.lo) (by rw [e1, next0 h hi]; exact h1)
  | succ fuel ih =>
    intro i hi h1 h2 hf
    have := h.width i hi
    have hp := h.pos hi
    have e1 : near225 (l.getD i 0) x = l.getD i 0 := near225_mid (by linarith) h2
    rcases le_or_gt (l.getD i 0) x with c | c
    · exact cs_found _ i (by rw [e1]; exact c) (by rw [e1, next0 h hi]; exact h1)
    · have h0 : 0 < i := by
        rcases Nat.eq_zero_or_pos i with rfl | h0
        · have := h.lo; linarith
        · exact h0
      have hp' := h.pos (i := i - 1) (by omega)
      rw [Nat.sub_add_cancel h0] at hp'
      rw [cs_west fuel i (by rw [e1]; exact c) (by rw [e1, next0 h hi]; linarith), wrapX_pred hi h0]
      exact ih (i - 1) (by omega) (by rw [Nat.sub_add_cancel h0]; exact c.le) (by linarith) (by omega)

/-- From any cell within 225 degrees. -/
theorem long_near (h : Long l x) (fuel i : Nat) (hi : i + 1 < l.length) (h1 : x - 225 ≤ l.getD i 0) (h2 : l.getD i 0 ≤ x + 225) (hf : l.length ≤ fuel) :
    ∃ r, cSphere l x fuel i = .ok r := by
  rcases le_or_gt (l.getD i 0) x with c | c
  · exact long_east h fuel i hi c h1 (by omega)
  · have := h.pos hi
    exact long_west h fuel i hi (by linarith) h2 (by omega)

/-- From a cell far in the west, which counts as one turn further east. -/
theorem long_far_west (h : Long l x) : ∀ (fuel i : Nat), i + 1 < l.length → l.getD i 0 < x - 225 → x ≤ l.getD (i + 1) 0 + 360 → i + 1 + l.length ≤ fuel →
    ∃ r, cSphere l x fuel i = .ok r := by
  intro fuel
  induction fuel with
  | zero => intro i hi _ _ hf; omega
  | succ fuel ih =>
    intro i hi h1 h2 hf
    have hp := h.pos hi
    have e1 : near225 (l.getD i 0) x = l.getD i 0 + 360 := near225_lo h1
    rcases le_or_gt (l.getD i 0 + 360) x with c | c
    · exact cs_found _ i (by rw [e1]; exact c) (by rw [e1, next1 h hi]; exact h2)
    · have hw := cs_west (l := l) fuel i (by rw [e1]; exact c) (by rw [e1, next1 h hi]; linarith)
      rcases Nat.eq_zero_or_pos i with rfl | h0
      · rw [hw, wrapX_below h.len]
        have hs := h.span
        have hh := h.hi
        have hl := h.len
        have w1 := h.width (l.length - 2) (by omega)
        have p1 := h.pos (i := l.length - 2) (by omega)
        rw [show l.length - 2 + 1 = l.length - 1 by omega] at w1 p1
        exact long_near h fuel _ (by omega) (by linarith) (by linarith) (by omega)
      · have hp' := h.pos (i := i - 1) (by omega)
        rw [Nat.sub_add_cancel h0] at hp'
        rw [hw, wrapX_pred hi h0]
        exact ih (i - 1) (by omega) (by linarith) (by rw [Nat.sub_add_cancel h0]; exact c.le) (by omega)

theorem long_farther_west (h : Long l x) : ∀ (fuel i : Nat), i + 1 < l.length → l.getD i 0 + 360 ≤ x → l.length - i ≤ fuel →
    ∃ r, cSphere l x fuel i = .ok r := by
  intro fuel
  induction fuel with
  | zero => intro i hi _ hf; omega
  | succ fuel ih =>
    intro i hi h1 hf
    have e1 : near225 (l.getD i 0) x = l.getD i 0 + 360 := near225_lo (by linarith)
    rcases le_or_gt x (l.getD (i + 1) 0 + 360) with c | c
    · exact cs_found _ i (by rw [e1]; exact h1) (by rw [e1, next1 h hi]; exact c)
    · have hi2 : i + 1 + 1 < l.length := by
        by_contra hn
        have e : i + 1 = l.length - 1 := by omega
        have := h.hi
        rw [e] at c
        linarith
      rw [cs_east fuel i (by rw [e1, next1 h hi]; exact c), wrapX_mid hi2]
      exact ih (i + 1) hi2 c.le (by omega)

/-- From a cell far in the east, which counts as one turn further west. -/
theorem long_far_east (h : Long l x) : ∀ (fuel i : Nat), i + 1 < l.length → x + 225 < l.getD i 0 → l.getD i 0 - 360 ≤ x → l.length - i + l.length ≤ fuel →
    ∃ r, cSphere l x fuel i = .ok r := by
  intro fuel
  induction fuel with
  | zero => intro i hi _ _ hf; omega
  | succ fuel ih =>
    intro i hi h1 h2 hf
    have hp := h.pos hi
    have e1 : near225 (l.getD i 0) x = l.getD i 0 - 360 := near225_hi h1
    rcases le_or_gt x (l.getD (i + 1) 0 - 360) with c | c
    · exact cs_found _ i (by rw [e1]; exact h2) (by rw [e1, nextM h hi]; exact c)
    · have hw := cs_east (l := l) fuel i (by rw [e1, nextM h hi]; exact c)
      by_cases hi2 : i + 1 + 1 < l.length
      · rw [hw, wrapX_mid hi2]
        exact ih (i + 1) hi2 (by linarith) c.le (by omega)
      · rw [hw, show i + 1 = l.length - 1 by omega, wrapX_above h.len]
        have e : i + 1 = l.length - 1 := by omega
        have hs := h.span
        have hh := h.lo
        rw [← e] at hs
        have hl := h.len
        exact long_near h fuel 0 (by omega) (by linarith) (by linarith) (by omega)

theorem long_farther_east (h : Long l x) : ∀ (fuel i : Nat), i + 1 < l.length → x ≤ l.getD (i + 1) 0 - 360 → i ≤ fuel →
    ∃ r, cSphere l x fuel i = .ok r := by
  intro fuel
  induction fuel with
  | zero =>
    intro i hi h1 hf
    obtain rfl : i = 0 := by omega
    have := h.width 0 hi
    have := h.lo
    linarith
  | succ fuel ih =>
    intro i hi h1 hf
    have hw := h.width i hi
    have hp := h.pos hi
    have e1 : near225 (l.getD i 0) x = l.getD i 0 - 360 := near225_hi (by linarith)
    rcases le_or_gt (l.getD i 0 - 360) x with c | c
    · exact cs_found _ i (by rw [e1]; exact c) (by rw [e1, nextM h hi]; exact h1)
    · have h0 : 0 < i := by
        rcases Nat.eq_zero_or_pos i with rfl | h0
        · have := h.lo; linarith
        · exact h0
      rw [cs_west fuel i (by rw [e1]; exact c) (by rw [e1, nextM h hi]; linarith), wrapX_pred hi h0]
      exact ih (i - 1) (by omega) (by rw [Nat.sub_add_cancel h0]; exact c.le) (by omega)

/-- The search succeeds from every cell. -/
theorem long_found (h : Long l x) (fuel i : Nat) (hi : i + 1 < l.length) (hf : 2 * l.length ≤ fuel) : ∃ r, cSphere l x fuel i = .ok r := by
  have hp := h.pos hi
  rcases lt_or_ge (l.getD i 0) (x - 225) with c | c
  · rcases le_or_gt x (l.getD (i + 1) 0 + 360) with c2 | c2
    · exact long_far_west h fuel i hi c c2 (by omega)
    · exact long_farther_west h fuel i hi (by linarith) (by omega)
  · rcases lt_or_ge (x + 225) (l.getD i 0) with c2 | c2
    · rcases le_or_gt (l.getD i 0 - 360) x with c3 | c3
      · exact long_far_east h fuel i hi c2 c3 (by omega)
      · exact long_farther_east h fuel i hi (by linarith) (by omega)
    · exact long_near h fuel i hi c c2 (by omega)

end Parcels.Search
