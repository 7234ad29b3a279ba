import Verif.Model.Search
import Verif.Spec.Search
import Mathlib.Data.List.GetD
import Mathlib.Tactic.Linarith
import Mathlib.Tactic.FieldSimp
import Mathlib.Tactic.Ring

/-!
Lemmas for C24-C26.
-/

namespace Parcels.Search

/-! ### Axes -/

theorem getD_some {l : List ℚ} {n : Nat} (h : n < l.length) : l[n]? = some (l.getD n 0) := by
  rw [List.getD_eq_getElem l 0 h, List.getElem?_eq_getElem h]

theorem inc_lt {l : List ℚ} (h : Increasing l) {i j : Nat} (hij : i < j) (hj : j < l.length) :
    l.getD i 0 < l.getD j 0 := by
  rw [List.getD_eq_getElem l 0 (by omega), List.getD_eq_getElem l 0 hj]
  exact List.pairwise_iff_getElem.mp h i j (by omega) hj hij

theorem inc_le {l : List ℚ} (h : Increasing l) {i j : Nat} (hij : i ≤ j) (hj : j < l.length) :
    l.getD i 0 ≤ l.getD j 0 := by
  rcases Nat.lt_or_ge i j with h1 | h1
  · exact le_of_lt (inc_lt h h1 hj)
  · have : i = j := by omega
    rw [this]

theorem headD_getD (l : List ℚ) : l.headD 0 = l.getD 0 0 := by cases l <;> rfl

theorem getLastD_getD (l : List ℚ) : l.getLastD 0 = l.getD (l.length - 1) 0 := by
  rcases l with _ | ⟨a, l⟩
  · rfl
  · rw [List.getLastD_eq_getLast?, List.getLast?_eq_getElem?, List.getD_eq_getElem?_getD]

theorem pyGet_nat {l : List ℚ} {n : Nat} (h : n < l.length) : pyGet l (n : ℤ) = some (l.getD n 0) := by
  unfold pyGet
  rw [if_neg (by omega)]
  simpa using getD_some h

theorem rel_nat {l : List ℚ} {x : ℚ} {n : Nat} (h : n + 1 < l.length) :
    rel l x (n : ℤ) = some ((x - l.getD n 0) / (l.getD (n + 1) 0 - l.getD n 0)) := by
  unfold rel
  rw [pyGet_nat (by omega)]
  have := pyGet_nat (l := l) (n := n + 1) h
  rw [show ((n : ℤ) + 1) = ((n + 1 : Nat) : ℤ) by push_cast; ring, this]

/-- The relative coordinate in a cell that contains x. -/
theorem rel_bounds {a b x : ℚ} (hab : a < b) (h1 : a ≤ x) (h2 : x ≤ b) :
    0 ≤ (x - a) / (b - a) ∧ (x - a) / (b - a) ≤ 1 ∧ x = (1 - (x - a) / (b - a)) * a + (x - a) / (b - a) * b := by
  have hd : 0 < b - a := by linarith
  refine ⟨div_nonneg (by linarith) hd.le, by rw [div_le_one hd]; linarith, ?_⟩
  field_simp
  ring

theorem rel_bounds_dec {a b x : ℚ} (hab : b < a) (h1 : x ≤ a) (h2 : b ≤ x) :
    0 ≤ (x - a) / (b - a) ∧ (x - a) / (b - a) ≤ 1 ∧ x = (1 - (x - a) / (b - a)) * a + (x - a) / (b - a) * b := by
  have hd : b - a < 0 := by linarith
  refine ⟨div_nonneg_of_nonpos (by linarith) hd.le, by rw [div_le_one_of_neg hd]; linarith, ?_⟩
  have : b - a ≠ 0 := ne_of_lt hd
  field_simp
  ring

theorem locates_of_cell {l : List ℚ} (h : Increasing l) {x : ℚ} {n : Nat} (hn : n + 1 < l.length)
    (h1 : l.getD n 0 ≤ x) (h2 : x ≤ l.getD (n + 1) 0) :
    Locates l x n ((x - l.getD n 0) / (l.getD (n + 1) 0 - l.getD n 0)) := by
  obtain ⟨a1, a2, a3⟩ := rel_bounds (inc_lt h (Nat.lt_succ_self n) hn) h1 h2
  exact ⟨n, _, _, rfl, getD_some (by omega), getD_some hn, a1, a2, a3⟩

theorem dec_gt {l : List ℚ} (h : Decreasing l) {i j : Nat} (hij : i < j) (hj : j < l.length) :
    l.getD j 0 < l.getD i 0 := by
  rw [List.getD_eq_getElem l 0 hj, List.getD_eq_getElem l 0 (show i < l.length by omega)]
  exact List.pairwise_iff_getElem.mp h i j (by omega) hj hij

theorem dec_ge {l : List ℚ} (h : Decreasing l) {i j : Nat} (hij : i ≤ j) (hj : j < l.length) :
    l.getD j 0 ≤ l.getD i 0 := by
  rcases Nat.lt_or_ge i j with h1 | h1
  · exact le_of_lt (dec_gt h h1 hj)
  · have : i = j := by omega
    rw [this]

theorem locates_of_cell_dec {l : List ℚ} (h : Decreasing l) {x : ℚ} {n : Nat} (hn : n + 1 < l.length)
    (h1 : x ≤ l.getD n 0) (h2 : l.getD (n + 1) 0 ≤ x) :
    Locates l x n ((x - l.getD n 0) / (l.getD (n + 1) 0 - l.getD n 0)) := by
  obtain ⟨a1, a2, a3⟩ := rel_bounds_dec (dec_gt h (Nat.lt_succ_self n) hn) h1 h2
  exact ⟨n, _, _, rfl, getD_some (by omega), getD_some hn, a1, a2, a3⟩

/-- findIdx: the first element with the property. -/
theorem findIdx_spec (l : List ℚ) (p : ℚ → Bool) (hex : ∃ v ∈ l, p v = true) :
    l.findIdx p < l.length ∧ p (l.getD (l.findIdx p) 0) = true ∧
    ∀ i, i < l.findIdx p → p (l.getD i 0) = false := by
  have h1 : l.findIdx p < l.length := by
    rw [List.findIdx_lt_length]
    obtain ⟨v, hv, hp⟩ := hex
    exact ⟨v, hv, hp⟩
  refine ⟨h1, ?_, ?_⟩
  · rw [List.getD_eq_getElem l 0 h1]; exact List.findIdx_getElem
  · intro i hi
    rw [List.getD_eq_getElem l 0 (by omega)]
    have := List.not_of_lt_findIdx hi
    simpa using this

/-! ### The search along one axis -/

theorem guess_found {l : List ℚ} (h : Increasing l) (hl : 2 ≤ l.length) {x : ℚ}
    (h1 : l.getD 0 0 ≤ x) (h2 : x ≤ l.getD (l.length - 1) 0) :
    ∃ n : Nat, n + 1 < l.length ∧ l.getD n 0 ≤ x ∧ x ≤ l.getD (n + 1) 0 ∧ guess l x = (n : ℤ) := by
  have hlast : l.getD (l.length - 1) 0 ∈ l := by
    rw [List.getD_eq_getElem l 0 (by omega)]; exact List.getElem_mem _
  have hnall : (l.all fun v => decide (v < x)) = false := by
    rw [Bool.eq_false_iff]
    intro hall
    rw [List.all_eq_true] at hall
    have := hall _ hlast
    simp only [decide_eq_true_eq] at this
    linarith
  unfold guess
  rw [if_neg (by rw [hnall]; simp)]
  by_cases hany : (l.any fun v => decide (v < x)) = true
  · rw [if_pos hany]
    obtain ⟨k1, k2, k3⟩ := findIdx_spec l (fun v => !decide (v < x)) ⟨_, hlast, by simpa using h2⟩
    generalize l.findIdx (fun v => !decide (v < x)) = k at k1 k2 k3 ⊢
    have hk : k ≠ 0 := by
      rintro rfl
      rw [List.any_eq_true] at hany
      obtain ⟨v, hv, hvx⟩ := hany
      obtain ⟨i, hi, rfl⟩ := List.getElem_of_mem hv
      have := inc_le h (Nat.zero_le i) hi
      rw [List.getD_eq_getElem l 0 hi] at this
      simp only [decide_eq_true_eq] at hvx
      simp only [Bool.not_eq_true', decide_eq_false_iff_not, not_lt] at k2
      linarith
    refine ⟨k - 1, by omega, ?_, ?_, by omega⟩
    · have := k3 (k - 1) (by omega)
      simp only [Bool.not_eq_false', decide_eq_true_eq] at this
      exact this.le
    · rw [Nat.sub_add_cancel (by omega)]
      simpa using k2
  · rw [if_neg hany]
    refine ⟨0, by omega, h1, ?_, rfl⟩
    have h0 : x ≤ l.getD 0 0 := by
      by_contra hh
      apply hany
      rw [List.any_eq_true]
      refine ⟨l.getD 0 0, ?_, by simpa using hh⟩
      rw [List.getD_eq_getElem l 0 (by omega)]; exact List.getElem_mem _
    exact le_trans h0 (inc_le h (by omega) (by omega))

theorem axisSearch_found {l : List ℚ} (h : Increasing l) (hl : 2 ≤ l.length) {x : ℚ}
    (h1 : l.getD 0 0 ≤ x) (h2 : x ≤ l.getD (l.length - 1) 0) :
    ∃ n : Nat, n + 1 < l.length ∧ l.getD n 0 ≤ x ∧ x ≤ l.getD (n + 1) 0 ∧
      axisSearch l x = some ((n : ℤ), (x - l.getD n 0) / (l.getD (n + 1) 0 - l.getD n 0)) := by
  obtain ⟨n, hn, ha, hb, hg⟩ := guess_found h hl h1 h2
  refine ⟨n, hn, ha, hb, ?_⟩
  unfold axisSearch
  rw [hg, rel_nat hn]
  obtain ⟨r1, r2, _⟩ := rel_bounds (inc_lt h (Nat.lt_succ_self n) hn) ha hb
  simp only
  rw [if_neg (not_lt.mpr r1), if_neg (not_lt.mpr r2)]

/-! ### The C walk -/

theorem cUp_spec (lt : ℚ → ℚ → Bool) (l : List ℚ) (x : ℚ) : ∀ (f i : Nat), i ≤ l.length - 1 → l.length - 1 - i ≤ f →
    i ≤ cUp lt l x f i ∧ cUp lt l x f i ≤ l.length - 1 ∧
    (cUp lt l x f i < l.length - 1 → lt (l.getD (cUp lt l x f i + 1) 0) x = false) ∧
    (i < cUp lt l x f i → lt (l.getD (cUp lt l x f i) 0) x = true) := by
  intro f
  induction f with
  | zero => intro i hi hf; simp only [cUp]; exact ⟨le_refl _, hi, by omega, by omega⟩
  | succ f ih =>
    intro i hi hf
    simp only [cUp]
    by_cases h1 : i < l.length - 1
    · rw [if_pos h1]
      rcases h2 : lt (l.getD (i + 1) 0) x with _ | _
      · simp only [cond_false]
        exact ⟨le_refl _, hi, fun _ => h2, by omega⟩
      · simp only [cond_true]
        obtain ⟨a, b, c, d⟩ := ih (i + 1) (by omega) (by omega)
        refine ⟨by omega, b, c, ?_⟩
        intro _
        rcases Nat.lt_or_ge (i + 1) (cUp lt l x f (i + 1)) with hh | hh
        · exact d hh
        · have : cUp lt l x f (i + 1) = i + 1 := by omega
          rw [this]; exact h2
    · rw [if_neg h1]
      exact ⟨le_refl _, hi, by omega, by omega⟩

theorem cDown_spec (lt : ℚ → ℚ → Bool) (l : List ℚ) (x : ℚ) : ∀ i : Nat,
    cDown lt l x i ≤ i ∧ (0 < cDown lt l x i → lt x (l.getD (cDown lt l x i) 0) = false) ∧
    (cDown lt l x i < i → lt x (l.getD (cDown lt l x i + 1) 0) = true) := by
  intro i
  induction i with
  | zero => simp [cDown]
  | succ i ih =>
    simp only [cDown]
    rcases h : lt x (l.getD (i + 1) 0) with _ | _
    · simp only [cond_false]
      exact ⟨le_refl _, fun _ => h, by omega⟩
    · simp only [cond_true]
      obtain ⟨a, b, c⟩ := ih
      refine ⟨by omega, b, ?_⟩
      intro _
      rcases Nat.lt_or_ge (cDown lt l x i) i with hh | hh
      · exact c hh
      · have : cDown lt l x i = i := by omega
        rw [this]; exact h

/-- Where the two C loops end: `lt` is the order of the axis. -/
theorem cWalk_spec {lt : ℚ → ℚ → Bool} {l : List ℚ} (hl : 2 ≤ l.length) {x : ℚ} (start : Nat)
    (hs : start ≤ l.length - 1) (hfirst : lt x (l.getD 0 0) = false)
    (hmono : ∀ i, i + 1 < l.length → lt (l.getD i 0) (l.getD (i + 1) 0) = true)
    (htrans : ∀ a b c, lt a b = true → lt b c = true → lt a c = true)
    (hirr : ∀ a, lt a a = false) :
    cWalk lt l x start ≤ l.length - 1 ∧ lt x (l.getD (cWalk lt l x start) 0) = false ∧
    (cWalk lt l x start < l.length - 1 → lt (l.getD (cWalk lt l x start + 1) 0) x = false) ∧
    (start < l.length - 1 → lt (l.getD (l.length - 1) 0) x = false → cWalk lt l x start < l.length - 1) := by
  obtain ⟨u1, u2, u3, u4⟩ := cUp_spec lt l x l.length start hs (by omega)
  unfold cWalk
  generalize cUp lt l x l.length start = u at *
  obtain ⟨d1, d2, d3⟩ := cDown_spec lt l x u
  generalize cDown lt l x u = d at *
  refine ⟨by omega, ?_, ?_, ?_⟩
  · rcases Nat.eq_zero_or_pos d with h | h
    · rw [h]; exact hfirst
    · exact d2 h
  · intro hd
    rcases Nat.lt_or_ge d u with h | h
    · have h3 := d3 h
      rw [Bool.eq_false_iff]
      intro h4
      have := htrans _ _ _ h4 h3
      rw [hirr] at this; cases this
    · have : d = u := by omega
      subst this
      exact u3 hd
  · intro hst hlast
    rcases Nat.lt_or_ge d u with h | h
    · omega
    · have hdu : d = u := by omega
      rcases Nat.lt_or_ge start u with hh | hh
      · have h4 := u4 hh
        by_contra hcon
        have : u = l.length - 1 := by omega
        rw [this, hlast] at h4; cases h4
      · omega

/-! ### Range -/

theorem foldl_min_le : ∀ (l : List ℚ) (a : ℚ), l.foldl min a ≤ a := by
  intro l
  induction l with
  | nil => intro a; exact le_refl _
  | cons b l ih => intro a; exact le_trans (ih _) (min_le_left _ _)

theorem foldl_min_eq : ∀ (l : List ℚ) (a : ℚ), (∀ v ∈ l, a ≤ v) → l.foldl min a = a := by
  intro l
  induction l with
  | nil => intro a _; rfl
  | cons b l ih =>
    intro a h
    rw [List.foldl_cons, min_eq_left (h b (by simp))]
    exact ih a (fun v hv => h v (by simp [hv]))

theorem minL_inc {l : List ℚ} (h : Increasing l) : minL l = l.getD 0 0 := by
  unfold minL
  rw [headD_getD]
  apply foldl_min_eq
  intro v hv
  obtain ⟨i, hi, rfl⟩ := List.getElem_of_mem hv
  have := inc_le h (Nat.zero_le i) hi
  rwa [List.getD_eq_getElem l 0 hi] at this

theorem foldl_max_inc : ∀ (l : List ℚ) (a : ℚ), Increasing (a :: l) →
    l.foldl max a = (a :: l).getD ((a :: l).length - 1) 0 := by
  intro l
  induction l with
  | nil => intro a _; rfl
  | cons b l ih =>
    intro a h
    unfold Increasing at h
    rw [List.pairwise_cons] at h
    rw [List.foldl_cons, max_eq_right (h.1 b (by simp)).le, ih b h.2]
    rfl

theorem maxL_inc {l : List ℚ} (h : Increasing l) : maxL l = l.getD (l.length - 1) 0 := by
  unfold maxL
  rcases l with _ | ⟨a, l⟩
  · rfl
  · rw [List.foldl_cons, List.headD_cons, max_self]
    exact foldl_max_inc l a h

theorem inRange_inc {l : List ℚ} (h : Increasing l) (hl : 2 ≤ l.length) (x : ℚ) :
    InRange l x ↔ l.getD 0 0 ≤ x ∧ x ≤ l.getD (l.length - 1) 0 := by
  constructor
  · rintro ⟨a, b, ha, hb, h1, h2⟩
    obtain ⟨i, hi, rfl⟩ := List.getElem_of_mem ha
    obtain ⟨j, hj, rfl⟩ := List.getElem_of_mem hb
    have e1 := inc_le h (Nat.zero_le i) hi
    have e2 := inc_le h (show j ≤ l.length - 1 by omega) (by omega)
    rw [List.getD_eq_getElem l 0 hi] at e1
    rw [List.getD_eq_getElem l 0 hj] at e2
    exact ⟨by linarith, by linarith⟩
  · rintro ⟨h1, h2⟩
    refine ⟨_, _, ?_, ?_, h1, h2⟩
    · rw [List.getD_eq_getElem l 0 (by omega)]; exact List.getElem_mem _
    · rw [List.getD_eq_getElem l 0 (by omega)]; exact List.getElem_mem _

/-- Two ways of locating a coordinate on an axis. -/
theorem locates_agree {l : List ℚ} (hl : Increasing l) {x : ℚ} {i j : ℤ} {r s : ℚ}
    (h1 : Locates l x i r) (h2 : Locates l x j s) :
    (i = j ∧ r = s) ∨ (j = i + 1 ∧ r = 1 ∧ s = 0) ∨ (i = j + 1 ∧ s = 1 ∧ r = 0) := by
  have mono : ∀ (n m : Nat) (a b : ℚ), n < m → l[n]? = some a → l[m]? = some b → a < b := by
    intro n m a b hnm ha hb
    obtain ⟨h1, rfl⟩ := List.getElem?_eq_some_iff.mp ha
    obtain ⟨h2, rfl⟩ := List.getElem?_eq_some_iff.mp hb
    exact List.pairwise_iff_getElem.mp hl n m h1 h2 hnm
  have main : ∀ (n m : Nat) (a b a' b' r s : ℚ), n < m → l[n]? = some a → l[n + 1]? = some b →
      l[m]? = some a' → l[m + 1]? = some b' → 0 ≤ r → r ≤ 1 → 0 ≤ s → s ≤ 1 →
      (1 - r) * a + r * b = (1 - s) * a' + s * b' → m = n + 1 ∧ r = 1 ∧ s = 0 := by
    intro n m a b a' b' r s hnm ha hb ha' hb' r0 r1 s0 s1 heq
    have hab := mono n (n + 1) a b (by omega) ha hb
    have hab' := mono m (m + 1) a' b' (by omega) ha' hb'
    have hba : b ≤ a' := by
      rcases Nat.lt_or_ge (n + 1) m with h | h
      · exact (mono (n + 1) m b a' h hb ha').le
      · have : m = n + 1 := by omega
        subst this
        rw [hb] at ha'; injection ha' with h; rw [h]
    have t1 : (1 - r) * (b - a) = 0 := by nlinarith
    have t2 : s * (b' - a') = 0 := by nlinarith
    have hr : r = 1 := by
      rcases mul_eq_zero.mp t1 with h | h <;> linarith
    have hs : s = 0 := by
      rcases mul_eq_zero.mp t2 with h | h <;> linarith
    refine ⟨?_, hr, hs⟩
    subst hr; subst hs
    by_contra hne
    have := mono (n + 1) m b a' (by omega) hb ha'
    linarith
  obtain ⟨n, a, b, rfl, ha, hb, r0, r1, hx⟩ := h1
  obtain ⟨m, a', b', rfl, ha', hb', s0, s1, hx'⟩ := h2
  rcases Nat.lt_trichotomy n m with h | h | h
  · obtain ⟨e1, e2, e3⟩ := main n m a b a' b' r s h ha hb ha' hb' r0 r1 s0 s1 (by rw [← hx, ← hx'])
    right; left; exact ⟨by rw [e1]; push_cast; rfl, e2, e3⟩
  · left
    subst h
    rw [ha] at ha'; injection ha' with e1
    rw [hb] at hb'; injection hb' with e2
    subst e1; subst e2
    refine ⟨rfl, ?_⟩
    have hab := mono n (n + 1) a b (by omega) ha hb
    have : (r - s) * (b - a) = 0 := by nlinarith [hx, hx']
    rcases mul_eq_zero.mp this with h | h
    · linarith
    · linarith
  · obtain ⟨e1, e2, e3⟩ := main m n a' b' a b s r h ha' hb' ha hb s0 s1 r0 r1 (by rw [← hx, ← hx'])
    right; right; exact ⟨by rw [e1]; push_cast; rfl, e2, e3⟩

/-! ### Depth -/

theorem zi_found_inc {d : List ℚ} (h : Increasing d) (hl : 2 ≤ d.length) {z : ℚ}
    (h1 : d.getD 0 0 ≤ z) (h2 : z ≤ d.getD (d.length - 1) 0) :
    ∃ n : Nat, n + 1 < d.length ∧ d.getD n 0 ≤ z ∧ z ≤ d.getD (n + 1) 0 ∧
      (if d.getD (d.length - 1) 0 ≤ z then (d.length : ℤ) - 2
        else if d.getD 0 0 ≤ z then ((d.findIdx fun v => !decide (v ≤ z) : Nat) : ℤ) - 1 else 0) = (n : ℤ) := by
  by_cases hz : d.getD (d.length - 1) 0 ≤ z
  · rw [if_pos hz]
    refine ⟨d.length - 2, by omega, ?_, ?_, by omega⟩
    · exact le_trans (inc_le h (by omega) (by omega)) hz
    · rw [show d.length - 2 + 1 = d.length - 1 by omega]; exact h2
  · rw [if_neg hz, if_pos h1]
    obtain ⟨k1, k2, k3⟩ := findIdx_spec d (fun v => !decide (v ≤ z)) ⟨d.getD (d.length - 1) 0, by
      rw [List.getD_eq_getElem d 0 (by omega)]; exact List.getElem_mem _, by simpa using hz⟩
    generalize d.findIdx (fun v => !decide (v ≤ z)) = k at k1 k2 k3 ⊢
    have hk : k ≠ 0 := by
      rintro rfl
      simp only [Bool.not_eq_true', decide_eq_false_iff_not, not_le] at k2
      linarith
    refine ⟨k - 1, by omega, ?_, ?_, by omega⟩
    · have := k3 (k - 1) (by omega)
      simpa using this
    · rw [Nat.sub_add_cancel (by omega)]
      simp only [Bool.not_eq_true', decide_eq_false_iff_not, not_le] at k2
      exact k2.le

theorem zi_found_dec {d : List ℚ} (h : Decreasing d) (hl : 2 ≤ d.length) {z : ℚ}
    (h1 : z ≤ d.getD 0 0) (h2 : d.getD (d.length - 1) 0 ≤ z) :
    ∃ n : Nat, n + 1 < d.length ∧ z ≤ d.getD n 0 ∧ d.getD (n + 1) 0 ≤ z ∧
      (if z ≤ d.getD (d.length - 1) 0 then (d.length : ℤ) - 2
        else if z ≤ d.getD 0 0 then ((d.findIdx fun v => !decide (z ≤ v) : Nat) : ℤ) - 1 else 0) = (n : ℤ) := by
  by_cases hz : z ≤ d.getD (d.length - 1) 0
  · rw [if_pos hz]
    refine ⟨d.length - 2, by omega, ?_, ?_, by omega⟩
    · exact le_trans hz (dec_ge h (by omega) (by omega))
    · rw [show d.length - 2 + 1 = d.length - 1 by omega]; exact h2
  · rw [if_neg hz, if_pos h1]
    obtain ⟨k1, k2, k3⟩ := findIdx_spec d (fun v => !decide (z ≤ v)) ⟨d.getD (d.length - 1) 0, by
      rw [List.getD_eq_getElem d 0 (by omega)]; exact List.getElem_mem _, by simpa using hz⟩
    generalize d.findIdx (fun v => !decide (z ≤ v)) = k at k1 k2 k3 ⊢
    have hk : k ≠ 0 := by
      rintro rfl
      simp only [Bool.not_eq_true', decide_eq_false_iff_not, not_le] at k2
      linarith
    refine ⟨k - 1, by omega, ?_, ?_, by omega⟩
    · have := k3 (k - 1) (by omega)
      simpa using this
    · rw [Nat.sub_add_cancel (by omega)]
      simp only [Bool.not_eq_true', decide_eq_false_iff_not, not_le] at k2
      exact k2.le

end Parcels.Search
