import Verif.Proofs.Search

/-!
Lemmas for C26.
-/

namespace Parcels.Search

theorem guess_cell {l : List ℚ} (h : Increasing l) (hl : 2 ≤ l.length) (x : ℚ) :
    ∃ m : Nat, guess l x = m ∧ m + 1 < l.length := by
  unfold guess
  by_cases h1 : (l.all fun v => decide (v < x)) = true
  · rw [if_pos h1]; exact ⟨l.length - 2, by omega, by omega⟩
  · rw [if_neg h1]
    by_cases h2 : (l.any fun v => decide (v < x)) = true
    · rw [if_pos h2]
      have hex : ∃ v ∈ l, (!decide (v < x)) = true := by
        by_contra hh
        push Not at hh
        apply h1
        rw [List.all_eq_true]
        intro v hv
        have := hh v hv
        simpa using this
      obtain ⟨k1, k2, _⟩ := findIdx_spec l (fun v => !decide (v < x)) hex
      generalize l.findIdx (fun v => !decide (v < x)) = k at k1 k2 ⊢
      have hk : k ≠ 0 := by
        rintro rfl
        rw [List.any_eq_true] at h2
        obtain ⟨v, hv, hvx⟩ := h2
        obtain ⟨j, hj, rfl⟩ := List.getElem_of_mem hv
        have := inc_le h (Nat.zero_le j) hj
        rw [List.getD_eq_getElem l 0 hj] at this
        simp only [Bool.not_eq_true', decide_eq_false_iff_not, not_lt] at k2
        simp only [decide_eq_true_eq] at hvx
        linarith
      exact ⟨k - 1, by omega, by omega⟩
    · rw [if_neg h2]; exact ⟨0, rfl, by omega⟩

theorem locates_of_rel {l : List ℚ} (h : Increasing l) {n : Nat} (hn : n + 1 < l.length) {x r : ℚ}
    (hr : (x - l.getD n 0) / (l.getD (n + 1) 0 - l.getD n 0) = r) (h0 : 0 ≤ r) (h1 : r ≤ 1) :
    Locates l x n r := by
  have hlt := inc_lt h (Nat.lt_succ_self n) hn
  refine ⟨n, l.getD n 0, l.getD (n + 1) 0, rfl, ?_, ?_, h0, h1, ?_⟩
  · rw [List.getD_eq_getElem l 0 (show n < l.length by omega)]; exact List.getElem?_eq_getElem _
  · rw [List.getD_eq_getElem l 0 hn]; exact List.getElem?_eq_getElem _
  · have hne : l.getD (n + 1) 0 - l.getD n 0 ≠ 0 := by linarith
    rw [div_eq_iff hne] at hr
    linarith

/-- On an increasing axis, an accepted result of the search is right. -/
theorem axisSearch_sound {l : List ℚ} (h : Increasing l) (hl : 2 ≤ l.length) {x : ℚ} {i : ℤ} {r : ℚ}
    (hs : axisSearch l x = some (i, r)) (h0 : 0 ≤ r) (h1 : r ≤ 1) : Locates l x i r := by
  obtain ⟨m, hg, hm⟩ := guess_cell h hl x
  unfold axisSearch at hs
  rw [hg, rel_nat hm] at hs
  simp only at hs
  have hlt := inc_lt h (Nat.lt_succ_self m) hm
  have hpos : 0 < l.getD (m + 1) 0 - l.getD m 0 := by linarith
  by_cases hn : (x - l.getD m 0) / (l.getD (m + 1) 0 - l.getD m 0) < 0
  · rw [if_pos hn] at hs
    rw [div_neg_iff] at hn
    have hx : x < l.getD m 0 := by
      rcases hn with ⟨_, h⟩ | ⟨h, _⟩ <;> linarith
    rcases m with _ | k
    · exfalso
      have e1 : pyGet l (((0 : Nat) : ℤ) - 1) = some (l.getD (l.length - 1) 0) := by
        unfold pyGet
        rw [if_pos (by simp), if_pos (by simp; omega)]
        have : ((l.length : ℤ) + (((0 : Nat) : ℤ) - 1)).toNat = l.length - 1 := by simp; omega
        rw [this, List.getElem?_eq_getElem (show l.length - 1 < l.length by omega),
          List.getD_eq_getElem l 0 (show l.length - 1 < l.length by omega)]
      have e2 : pyGet l (((0 : Nat) : ℤ) - 1 + 1) = some (l.getD 0 0) := pyGet_nat (n := 0) (by omega)
      unfold rel at hs
      rw [e1, e2] at hs
      simp only [Option.map_some, Option.some.injEq, Prod.mk.injEq] at hs
      obtain ⟨_, rfl⟩ := hs
      have hfl := inc_lt h (show 0 < l.length - 1 by omega) (by omega)
      rw [div_le_one_of_neg (by linarith)] at h1
      linarith
    · have e : (((k + 1 : Nat) : ℤ) - 1) = (k : Nat) := by push_cast; ring
      rw [e, rel_nat (show k + 1 < l.length by omega)] at hs
      simp only [Option.map_some, Option.some.injEq, Prod.mk.injEq] at hs
      obtain ⟨rfl, hr⟩ := hs
      exact locates_of_rel h (by omega) hr h0 h1
  · rw [if_neg hn] at hs
    by_cases hp : 1 < (x - l.getD m 0) / (l.getD (m + 1) 0 - l.getD m 0)
    · rw [if_pos hp] at hs
      have e : ((m : ℤ) + 1) = ((m + 1 : Nat) : ℤ) := by push_cast; ring
      by_cases hm2 : m + 1 + 1 < l.length
      · rw [e, rel_nat hm2] at hs
        simp only [Option.map_some, Option.some.injEq, Prod.mk.injEq] at hs
        obtain ⟨rfl, hr⟩ := hs
        exact locates_of_rel h hm2 hr h0 h1
      · exfalso
        have e2 : pyGet l ((m : ℤ) + 1 + 1) = none := by
          unfold pyGet
          rw [if_neg (by omega)]
          rw [List.getElem?_eq_none]
          omega
        unfold rel at hs
        rw [e2] at hs
        rcases hh : pyGet l ((m : ℤ) + 1) with _ | v <;> simp [hh] at hs
    · rw [if_neg hp] at hs
      simp only [Option.some.injEq, Prod.mk.injEq] at hs
      obtain ⟨rfl, hr⟩ := hs
      exact locates_of_rel h hm hr h0 h1

theorem unwrap_eastward {l U : List ℚ} (h : EastwardAxis l U) : unwrap l = U := by
  obtain ⟨A, B, rfl, rfl, _, hA, hBA, hinc, _⟩ := h
  rcases A with _ | ⟨a, A⟩
  · exact absurd rfl hA
  have hA2 : ∀ v ∈ a :: A, a ≤ v := by
    intro v hv
    rw [List.mem_cons] at hv
    rcases hv with rfl | hv
    · exact le_refl _
    · rw [List.cons_append] at hinc
      exact ((List.pairwise_cons.mp hinc).1 v (by simp [hv])).le
  unfold unwrap
  rw [List.cons_append, List.headD_cons, ← List.cons_append]
  rcases B with _ | ⟨b, B⟩
  · rw [if_pos]
    · simp
    · rw [List.all_eq_true]; intro v hv; simpa using hA2 v (by simpa using hv)
  · rw [if_neg]
    · have hk : ((a :: A) ++ b :: B).findIdx (fun v => !decide (a ≤ v)) = (a :: A).length := by
        rw [List.findIdx_append]
        have : (a :: A).findIdx (fun v => !decide (a ≤ v)) = (a :: A).length := by
          rw [List.findIdx_eq_length]
          intro v hv
          simpa using hA2 v hv
        rw [this, if_neg (by omega), List.findIdx_cons]
        have hb : ¬ a ≤ b := not_le.mpr (hBA b (by simp) a (by simp))
        simp [hb]
      rw [hk]
      simp only [List.take_left, List.drop_left]
    · rw [List.all_eq_true]
      intro hh
      have := hh b (by simp)
      simp only [decide_eq_true_eq] at this
      have := hBA b (by simp) a (by simp)
      linarith

theorem eastward_get {l U : List ℚ} (h : EastwardAxis l U) {n : Nat} {u : ℚ} (hu : U[n]? = some u) :
    l[n]? = some u ∨ l[n]? = some (u - 360) := by
  obtain ⟨A, B, rfl, rfl, _⟩ := h
  rcases Nat.lt_or_ge n A.length with hn | hn
  · left
    rw [List.getElem?_append_left hn] at hu ⊢
    exact hu
  · right
    rw [List.getElem?_append_right hn] at hu ⊢
    rw [List.getElem?_map] at hu
    rcases hb : B[n - A.length]? with _ | b
    · simp [hb] at hu
    · simp only [hb, Option.map_some, Option.some.injEq] at hu
      rw [← hu]; simp

theorem eastward_length {l U : List ℚ} (h : EastwardAxis l U) : U.length = l.length := by
  obtain ⟨A, B, rfl, rfl, _⟩ := h
  simp

/-- A result on the axis shifted by a multiple of 360 is a result modulo 360. -/
theorem locates_shift {l U : List ℚ} (h : EastwardAxis l U) {x : ℚ} {i : ℤ} {r : ℚ} (s : ℤ)
    (hl : Locates U (x + 360 * s) i r) : LocatesMod360 l x i r := by
  obtain ⟨n, a, b, rfl, ha, hb, h0, h1, hx⟩ := hl
  have hw : b - a < 180 := by
    obtain ⟨_, _, _, _, _, _, _, _, h⟩ := h; exact h n a b ha hb
  have hp : a < b := by
    obtain ⟨_, _, _, _, _, _, _, hinc, _⟩ := h
    obtain ⟨k1, rfl⟩ := List.getElem?_eq_some_iff.mp ha
    obtain ⟨k2, rfl⟩ := List.getElem?_eq_some_iff.mp hb
    exact List.pairwise_iff_getElem.mp hinc n (n + 1) k1 k2 (by omega)
  have hc : x + 360 * s = a + r * (b - a) := by rw [hx]; ring
  rcases eastward_get h ha with ea | ea <;> rcases eastward_get h hb with eb | eb
  · exact ⟨n, a, b, b - a, 0, s, rfl, ea, eb, by push_cast; ring, by linarith, by linarith, h0, h1, hc⟩
  · exact ⟨n, a, b - 360, b - a, 1, s, rfl, ea, eb, by push_cast; ring, by linarith, by linarith, h0, h1, hc⟩
  · exact ⟨n, a - 360, b, b - a, -1, s - 1, rfl, ea, eb, by push_cast; ring, by linarith, by linarith, h0, h1,
      by push_cast; linarith⟩
  · exact ⟨n, a - 360, b - 360, b - a, 0, s - 1, rfl, ea, eb, by push_cast; ring, by linarith, by linarith, h0, h1,
      by push_cast; linarith⟩

theorem increasing_sub {U : List ℚ} (h : Increasing U) : Increasing (U.map (· - 360)) := by
  unfold Increasing at *
  rw [List.pairwise_map]
  exact h.imp (fun hab => by linarith)

theorem locates_sub {U : List ℚ} {x : ℚ} {i : ℤ} {r : ℚ} (h : Locates (U.map (· - 360)) x i r) :
    Locates U (x + 360 * (1 : ℤ)) i r := by
  obtain ⟨n, a, b, rfl, ha, hb, h0, h1, hx⟩ := h
  rw [List.getElem?_map] at ha hb
  rcases ha' : U[n]? with _ | a'
  · simp [ha'] at ha
  rcases hb' : U[n + 1]? with _ | b'
  · simp [hb'] at hb
  simp only [ha', hb', Option.map_some, Option.some.injEq] at ha hb
  refine ⟨n, a', b', rfl, ha', hb', h0, h1, ?_⟩
  rw [hx, ← ha, ← hb]; push_cast; ring

/-! ### JIT -/

theorem near225_mod (v x : ℚ) : ∃ k : ℤ, near225 v x = v + 360 * k ∧ -1 ≤ k ∧ k ≤ 1 := by
  unfold near225
  simp only
  split_ifs
  · exact ⟨0, by push_cast; ring, by norm_num, by norm_num⟩
  · exact ⟨1, by push_cast; ring, by norm_num, by norm_num⟩
  · exact ⟨-1, by push_cast; ring, by norm_num, by norm_num⟩
  · exact ⟨0, by push_cast; ring, by norm_num, by norm_num⟩

theorem near180_mod (v a : ℚ) : ∃ k : ℤ, near180 v a = v + 360 * k := by
  unfold near180
  simp only
  split_ifs
  · exact ⟨0, by push_cast; ring⟩
  · exact ⟨1, by push_cast; ring⟩
  · exact ⟨-1, by push_cast; ring⟩
  · exact ⟨0, by push_cast; ring⟩

theorem near180_le (v a : ℚ) (h : v ≤ a + 540) : near180 v a ≤ a + 180 := by
  unfold near180
  simp only
  split_ifs <;> linarith

theorem wrapX_range {xi : ℤ} {n : Nat} (hn : 2 ≤ n) (h0 : -1 ≤ xi) : 0 ≤ wrapX xi n ∧ wrapX xi n + 1 < n := by
  unfold wrapX
  simp only
  split_ifs <;> omega

theorem cSphere_inv (l : List ℚ) (hl : 2 ≤ l.length) (x : ℚ) : ∀ (fuel : Nat) (xi : ℤ), 0 ≤ xi → xi + 1 < l.length →
    ∀ {i : ℤ} {a b : ℚ}, cSphere l x fuel xi = .ok (i, a, b) →
      0 ≤ i ∧ i + 1 < l.length ∧ a = near225 (l.getD i.toNat 0) x ∧ b = near180 (l.getD (i.toNat + 1) 0) a ∧
      a ≤ x ∧ x ≤ b := by
  intro fuel
  induction fuel with
  | zero =>
    intro xi h0 h1 i a b h
    unfold cSphere at h
    simp only at h
    split_ifs at h with hc
    simp only [Except.ok.injEq, Prod.mk.injEq] at h
    obtain ⟨rfl, rfl, rfl⟩ := h
    rw [not_or, not_lt, not_lt] at hc
    exact ⟨h0, h1, rfl, rfl, hc⟩
  | succ f ih =>
    intro xi h0 h1 i a b h
    unfold cSphere at h
    simp only at h
    by_cases hc : x < near225 (l.getD xi.toNat 0) x ∨
        near180 (l.getD (xi.toNat + 1) 0) (near225 (l.getD xi.toNat 0) x) < x
    · rw [if_pos hc] at h
      have hw := wrapX_range (n := l.length) hl (xi := if near180 (l.getD (xi.toNat + 1) 0)
        (near225 (l.getD xi.toNat 0) x) < x then xi + 1 else xi - 1) (by split_ifs <;> omega)
      exact ih _ hw.1 hw.2 h
    · rw [if_neg hc] at h
      simp only [Except.ok.injEq, Prod.mk.injEq] at h
      obtain ⟨rfl, rfl, rfl⟩ := h
      rw [not_or, not_lt, not_lt] at hc
      exact ⟨h0, h1, rfl, rfl, hc⟩

theorem cSphere_locates {l U : List ℚ} (hU : EastwardAxis l U) {x : ℚ} {fuel : Nat} {xi : ℤ} {i : ℤ} {a b : ℚ}
    (h : cSphere l x fuel xi = .ok (i, a, b)) (h0 : 0 ≤ xi) (h1 : xi + 1 < l.length)
    (r0 : 0 ≤ (x - a) / (b - a)) (r1 : (x - a) / (b - a) ≤ 1) :
    LocatesMod360 l x i ((x - a) / (b - a)) := by
  have hlen : 2 ≤ l.length := by obtain ⟨_, _, _, _, h, _⟩ := hU; exact h
  obtain ⟨k0, k1, ka, kb, kx, ky⟩ := cSphere_inv l hlen x fuel xi h0 h1 h
  have hn : i.toNat + 1 < l.length := by omega
  have hlU := eastward_length hU
  set n := i.toNat with hnd
  have hi : i = (n : ℤ) := by omega
  have gu1 : U[n]? = some (U.getD n 0) := by
    rw [List.getD_eq_getElem U 0 (by omega)]; exact List.getElem?_eq_getElem _
  have gu2 : U[n + 1]? = some (U.getD (n + 1) 0) := by
    rw [List.getD_eq_getElem U 0 (by omega)]; exact List.getElem?_eq_getElem _
  have gl1 : l[n]? = some (l.getD n 0) := by
    rw [List.getD_eq_getElem l 0 (by omega)]; exact List.getElem?_eq_getElem _
  have gl2 : l[n + 1]? = some (l.getD (n + 1) 0) := by
    rw [List.getD_eq_getElem l 0 (by omega)]; exact List.getElem?_eq_getElem _
  have hw : U.getD (n + 1) 0 - U.getD n 0 < 180 := by
    obtain ⟨_, _, _, _, _, _, _, _, h⟩ := hU; exact h n _ _ gu1 gu2
  have hp : U.getD n 0 < U.getD (n + 1) 0 := by
    obtain ⟨_, _, _, _, _, _, _, hinc, _⟩ := hU
    exact inc_lt hinc (Nat.lt_succ_self n) (by omega)
  -- the raw step is the unwrapped step, or one turn less
  have hstep : ∃ p : ℤ, l.getD (n + 1) 0 - l.getD n 0 = U.getD (n + 1) 0 - U.getD n 0 - 360 * p ∧ 0 ≤ p := by
    obtain ⟨A, B, rfl, rfl, _, _, _, _, _⟩ := hU
    have g : ∀ k, k < (A ++ B).length → (A ++ B.map (· + 360)).getD k 0 =
        (A ++ B).getD k 0 + (if k < A.length then 0 else 360) := by
      intro k hk
      rw [List.getD_eq_getElem _ 0 (show k < (A ++ B.map (· + 360)).length by simpa using hk),
        List.getD_eq_getElem _ 0 hk]
      split_ifs with hka
      · rw [List.getElem_append_left hka, List.getElem_append_left hka, add_zero]
      · rw [List.getElem_append_right (by omega), List.getElem_append_right (by omega), List.getElem_map]
    rw [g n (by omega), g (n + 1) hn]
    by_cases c1 : n < A.length <;> by_cases c2 : n + 1 < A.length
    · exact ⟨0, by rw [if_pos c1, if_pos c2]; push_cast; ring, le_refl _⟩
    · exact ⟨1, by rw [if_pos c1, if_neg c2]; push_cast; ring, by norm_num⟩
    · omega
    · exact ⟨0, by rw [if_neg c1, if_neg c2]; push_cast; ring, le_refl _⟩
  obtain ⟨p, hp1, hp0⟩ := hstep
  obtain ⟨ca, hca, hca1, hca2⟩ := near225_mod (l.getD n 0) x
  obtain ⟨cb, hcb⟩ := near180_mod (l.getD (n + 1) 0) a
  rw [hca] at ka
  rw [hcb] at kb
  have hp0' : (0 : ℚ) ≤ p := by exact_mod_cast hp0
  have hca1' : (-1 : ℚ) ≤ ca := by exact_mod_cast hca1
  have hle : b ≤ a + 180 := by
    rw [kb, ← hcb]
    apply near180_le
    rw [ka]
    linarith
  have hab : a ≠ b := by
    intro hab
    -- a step of the unwrapped axis is not a multiple of 360
    have e : U.getD (n + 1) 0 - U.getD n 0 = 360 * ((p + ca - cb : ℤ) : ℚ) := by
      push_cast; linarith
    rw [e] at hw
    have e2 : 0 < 360 * ((p + ca - cb : ℤ) : ℚ) := by rw [← e]; linarith
    have e3 : (0 : ℚ) < ((p + ca - cb : ℤ) : ℚ) := by linarith
    have e4 : (1 : ℚ) ≤ ((p + ca - cb : ℤ) : ℚ) := by
      have : (0 : ℤ) < p + ca - cb := by exact_mod_cast e3
      exact_mod_cast this
    linarith
  have hlt : a < b := lt_of_le_of_ne (le_trans kx ky) hab
  refine ⟨n, l.getD n 0, l.getD (n + 1) 0, b - a, cb - ca, -ca, hi, gl1, gl2, ?_, by linarith, by linarith, r0, r1, ?_⟩
  · push_cast; linarith
  · have hne : b - a ≠ 0 := by linarith
    rw [div_mul_cancel₀ _ hne]
    push_cast; linarith

theorem foldl_min_le_mem : ∀ (l : List ℚ) (a v : ℚ), v ∈ l → l.foldl min a ≤ v := by
  intro l
  induction l with
  | nil => intro a v hv; simp at hv
  | cons b l ih =>
    intro a v hv
    rw [List.foldl_cons]
    rcases List.mem_cons.mp hv with rfl | hv
    · exact le_trans (foldl_min_le l _) (min_le_right _ _)
    · exact ih _ v hv

theorem minL_le (l : List ℚ) (v : ℚ) (hv : v ∈ l) : minL l ≤ v := foldl_min_le_mem l _ v hv

theorem le_foldl_max : ∀ (l : List ℚ) (a : ℚ), a ≤ l.foldl max a := by
  intro l
  induction l with
  | nil => intro a; exact le_refl _
  | cons b l ih => intro a; exact le_trans (le_max_left _ _) (ih _)

theorem mem_le_foldl_max : ∀ (l : List ℚ) (a v : ℚ), v ∈ l → v ≤ l.foldl max a := by
  intro l
  induction l with
  | nil => intro a v hv; simp at hv
  | cons b l ih =>
    intro a v hv
    rw [List.foldl_cons]
    rcases List.mem_cons.mp hv with rfl | hv
    · exact le_trans (le_max_right _ _) (le_foldl_max l _)
    · exact ih _ v hv

theorem le_maxL (l : List ℚ) (v : ℚ) (hv : v ∈ l) : v ≤ maxL l := mem_le_foldl_max l _ v hv

end Parcels.Search
