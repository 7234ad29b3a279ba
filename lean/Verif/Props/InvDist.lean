import Verif.Props.Interp

/-!
C31: inverse-distance interpolation near land.
-/

namespace Parcels.Interp
open Parcels.Search

theorem invLoop_eq {N : Type} (onNode : ℚ → Bool) (land skip : N → Bool) (dist hit v : N → ℚ) :
    ∀ (ns : List N) (val w : ℚ), (∀ n ∈ ns, onNode (dist n) = false) →
      invLoop onNode land skip dist hit v ns val w =
        (val + ((ns.filter fun n => !skip n).map fun n => v n / dist n).sum) /
          (w + ((ns.filter fun n => !skip n).map fun n => 1 / dist n).sum) := by
  intro ns
  induction ns with
  | nil => intro val w _; simp [invLoop]
  | cons n ns ih =>
    intro val w h
    unfold invLoop
    rw [h n (by simp), cond_false]
    rcases hs : skip n with _ | _
    · rw [cond_false, ih _ _ (fun m hm => h m (by simp [hm]))]
      rw [List.filter_cons_of_pos (by simp [hs])]
      simp only [List.map_cons, List.sum_cons, add_assoc]
    · rw [cond_true, ih _ _ (fun m hm => h m (by simp [hm]))]
      rw [List.filter_cons_of_neg (by simp [hs])]

theorem closeZero_iff (x : ℚ) (hx : 0 ≤ x) : closeZero x = true ↔ x ≤ 1 / 100000000 := by
  unfold closeZero isclose
  rw [decide_eq_true_iff]
  simp [abs_of_nonneg hx]

theorem closeZero_false (x : ℚ) (hx : 0 ≤ x) : closeZero x = false ↔ 1 / 100000000 < x := by
  rw [← Bool.not_eq_true, closeZero_iff x hx, not_le]

theorem mem_nodes2 (n : Nat × Nat) : n ∈ nodes2 ↔ n.1 ≤ 1 ∧ n.2 ≤ 1 := by
  obtain ⟨j, i⟩ := n
  simp only [nodes2, List.mem_cons, Prod.mk.injEq, List.not_mem_nil, or_false]
  omega

theorem mem_nodes3 (n : Nat × Nat × Nat) : n ∈ nodes3 ↔ n.1 ≤ 1 ∧ n.2.1 ≤ 1 ∧ n.2.2 ≤ 1 := by
  obtain ⟨k, j, i⟩ := n
  simp only [nodes3, List.mem_cons, Prod.mk.injEq, List.not_mem_nil, or_false]
  omega

theorem dist2_nonneg (xsi eta : ℚ) (n : Nat × Nat) : 0 ≤ dist2 xsi eta n := by unfold dist2; positivity
theorem dist3_nonneg (xsi eta zeta : ℚ) (n : Nat × Nat × Nat) : 0 ≤ dist3 xsi eta zeta n := by
  unfold dist3; positivity

theorem sq_ge_one {a b : Nat} (h : a ≠ b) : (1 : ℚ) ≤ ((a : ℚ) - b) ^ 2 := by
  have : (1 : ℤ) ≤ ((a : ℤ) - b) ^ 2 := by
    have : (a : ℤ) - b ≠ 0 := by omega
    have := pow_pos (abs_pos.mpr this) 2
    rw [sq_abs] at this; omega
  exact_mod_cast this

theorem unit_of_locates {l : List ℚ} {x : ℚ} {i : ℤ} {r : ℚ} (h : Locates l x i r) : 0 ≤ r ∧ r ≤ 1 := by
  obtain ⟨_, _, _, _, _, _, h0, h1, _⟩ := h; exact ⟨h0, h1⟩

/-- A position on one node is far from the others. -/
theorem dist2_other {xsi eta : ℚ} {n m : Nat × Nat} (h : dist2 xsi eta n = 0) (hne : m ≠ n) : 1 ≤ dist2 xsi eta m := by
  have h1 : eta = n.1 := by
    have : (eta - n.1) ^ 2 = 0 := by unfold dist2 at h; nlinarith [sq_nonneg (eta - n.1), sq_nonneg (xsi - n.2)]
    have := pow_eq_zero_iff (two_ne_zero) |>.mp this; linarith
  have h2 : xsi = n.2 := by
    have : (xsi - n.2) ^ 2 = 0 := by unfold dist2 at h; nlinarith [sq_nonneg (eta - n.1), sq_nonneg (xsi - n.2)]
    have := pow_eq_zero_iff (two_ne_zero) |>.mp this; linarith
  unfold dist2
  have hd : m.1 ≠ n.1 ∨ m.2 ≠ n.2 := by
    by_contra hh; push Not at hh; exact hne (Prod.ext hh.1 hh.2)
  rcases hd with hd | hd
  · have := sq_ge_one (a := n.1) (b := m.1) (Ne.symm hd)
    rw [h1]; nlinarith [sq_nonneg (xsi - m.2)]
  · have := sq_ge_one (a := n.2) (b := m.2) (Ne.symm hd)
    rw [h2]; nlinarith [sq_nonneg (eta - m.1)]

theorem dist3_other {xsi eta zeta : ℚ} {n m : Nat × Nat × Nat} (h : dist3 xsi eta zeta n = 0) (hne : m ≠ n) :
    1 ≤ dist3 xsi eta zeta m := by
  have h0 : zeta = n.1 := by
    have : (zeta - n.1) ^ 2 = 0 := by
      unfold dist3 at h; nlinarith [sq_nonneg (eta - n.2.1), sq_nonneg (xsi - n.2.2), sq_nonneg (zeta - n.1)]
    have := pow_eq_zero_iff (two_ne_zero) |>.mp this; linarith
  have h1 : eta = n.2.1 := by
    have : (eta - n.2.1) ^ 2 = 0 := by
      unfold dist3 at h; nlinarith [sq_nonneg (eta - n.2.1), sq_nonneg (xsi - n.2.2), sq_nonneg (zeta - n.1)]
    have := pow_eq_zero_iff (two_ne_zero) |>.mp this; linarith
  have h2 : xsi = n.2.2 := by
    have : (xsi - n.2.2) ^ 2 = 0 := by
      unfold dist3 at h; nlinarith [sq_nonneg (eta - n.2.1), sq_nonneg (xsi - n.2.2), sq_nonneg (zeta - n.1)]
    have := pow_eq_zero_iff (two_ne_zero) |>.mp this; linarith
  unfold dist3
  have hd : m.1 ≠ n.1 ∨ m.2.1 ≠ n.2.1 ∨ m.2.2 ≠ n.2.2 := by
    by_contra hh; push Not at hh; exact hne (Prod.ext hh.1 (Prod.ext hh.2.1 hh.2.2))
  rcases hd with hd | hd | hd
  · have := sq_ge_one (a := n.1) (b := m.1) (Ne.symm hd)
    rw [h0]; nlinarith [sq_nonneg (xsi - m.2.2), sq_nonneg (eta - m.2.1)]
  · have := sq_ge_one (a := n.2.1) (b := m.2.1) (Ne.symm hd)
    rw [h1]; nlinarith [sq_nonneg (xsi - m.2.2), sq_nonneg (zeta - m.1)]
  · have := sq_ge_one (a := n.2.2) (b := m.2.2) (Ne.symm hd)
    rw [h2]; nlinarith [sq_nonneg (eta - m.2.1), sq_nonneg (zeta - m.1)]

theorem bilin_node {xsi eta : ℚ} {c : Cell2} {n : Nat × Nat} (hn : n ∈ nodes2) (h : dist2 xsi eta n = 0) :
    bilin xsi eta c = c n.1 n.2 := by
  have h1 : eta = n.1 := by
    have : (eta - n.1) ^ 2 = 0 := by unfold dist2 at h; nlinarith [sq_nonneg (eta - n.1), sq_nonneg (xsi - n.2)]
    have := pow_eq_zero_iff (two_ne_zero) |>.mp this; linarith
  have h2 : xsi = n.2 := by
    have : (xsi - n.2) ^ 2 = 0 := by unfold dist2 at h; nlinarith [sq_nonneg (eta - n.1), sq_nonneg (xsi - n.2)]
    have := pow_eq_zero_iff (two_ne_zero) |>.mp this; linarith
  rw [h1, h2]
  obtain ⟨j, i⟩ := n
  obtain ⟨hj, hi⟩ := (mem_nodes2 _).mp hn
  simp only at hj hi ⊢
  unfold bilin
  have a : j = 0 ∨ j = 1 := by omega
  have b : i = 0 ∨ i = 1 := by omega
  rcases a with rfl | rfl <;> rcases b with rfl | rfl <;> norm_num

theorem trilin_node {xsi eta zeta : ℚ} {c : Cell3} {n : Nat × Nat × Nat} (hn : n ∈ nodes3)
    (h : dist3 xsi eta zeta n = 0) : trilin xsi eta zeta c = c n.1 n.2.1 n.2.2 := by
  have h0 : zeta = n.1 := by
    have : (zeta - n.1) ^ 2 = 0 := by
      unfold dist3 at h; nlinarith [sq_nonneg (eta - n.2.1), sq_nonneg (xsi - n.2.2), sq_nonneg (zeta - n.1)]
    have := pow_eq_zero_iff (two_ne_zero) |>.mp this; linarith
  have h1 : dist2 xsi eta n.2 = 0 := by
    unfold dist3 at h; unfold dist2
    nlinarith [sq_nonneg (eta - n.2.1), sq_nonneg (xsi - n.2.2), sq_nonneg (zeta - n.1)]
  obtain ⟨hk, hj, hi⟩ := (mem_nodes3 _).mp hn
  have hn2 : n.2 ∈ nodes2 := (mem_nodes2 _).mpr ⟨hj, hi⟩
  unfold trilin
  rw [bilin_node hn2 h1, bilin_node hn2 h1, h0]
  obtain ⟨k, j, i⟩ := n
  simp only at hk ⊢
  have a : k = 0 ∨ k = 1 := by omega
  rcases a with rfl | rfl <;> norm_num

/-- A list of `m` elements of which `m` satisfy a test: all satisfy it. -/
theorem all_of_count {N : Type} (l : List N) (p : N → Bool) (h : (l.filter p).length = l.length) :
    ∀ n ∈ l, p n = true := List.length_filter_eq_length_iff.mp h

theorem none_of_count {N : Type} (l : List N) (p : N → Bool) (h : (l.filter p).length = 0) :
    ∀ n ∈ l, p n = false := by
  intro n hn
  rw [List.length_eq_zero_iff, List.filter_eq_nil_iff] at h
  simpa using h n hn

theorem count_of_all {N : Type} (l : List N) (p : N → Bool) (h : ∀ n ∈ l, p n = true) :
    (l.filter p).length = l.length := List.length_filter_eq_length_iff.mpr h

/-- The inverse-distance loop with the correct test and the correct hit meets the specification. -/
theorem loop_ignores {N : Type} (nodes : List N) (onNode : ℚ → Bool) (eps : ℚ) (land : N → Bool) (dist v : N → ℚ)
    (hon0 : onNode 0 = true) (heps0 : 0 ≤ eps) (heps1 : eps < 1)
    (hon : ∀ n, eps < dist n → onNode (dist n) = false) (hoff : ∀ n, onNode (dist n) = false → 0 < dist n)
    (hfar : ∀ n m, dist n = 0 → m ≠ n → 1 ≤ dist m) (hex : ∃ n ∈ nodes, land n = false) :
    IgnoresLand nodes land eps dist v (invLoop onNode land land dist v v nodes 0 0) := by
  have hit : ∀ n ∈ nodes, dist n = 0 → invLoop onNode land land dist v v nodes 0 0 = bif land n then 0 else v n := by
    intro n hn h0
    refine invLoop_hit _ _ _ _ _ _ nodes 0 0 n hn (by rw [h0]; exact hon0) ?_
    intro m _ hne
    exact hon m (lt_of_lt_of_le heps1 (hfar n m h0 hne))
  refine ⟨?_, ?_, ?_, ?_⟩
  · intro h
    obtain ⟨n, hn, hl⟩ := hex
    rw [h n hn] at hl; exact absurd hl (by decide)
  · intro n hn h0 hl; rw [hit n hn h0, hl]; rfl
  · intro n hn h0 hl; rw [hit n hn h0, hl]; rfl
  · intro hd hocean lo hi hv
    exact invLoop_bounds onNode land land dist v v lo hi hoff nodes 0 0 (fun n hn => hon n (hd n hn))
      (fun n hn hl => hv n hn hl) le_rfl (by simp) (by simp) (Or.inr hocean)

theorem bilin_ignores (xsi eta : ℚ) (hx : 0 ≤ xsi ∧ xsi ≤ 1) (he : 0 ≤ eta ∧ eta ≤ 1) (c : Cell2)
    (land : Nat × Nat → Bool) (eps : ℚ) (hno : ∀ n ∈ nodes2, land n = false) :
    IgnoresLand nodes2 land eps (dist2 xsi eta) (fun n => c n.1 n.2) (bilin xsi eta c) := by
  refine ⟨?_, ?_, ?_, ?_⟩
  · intro h
    have := h (0, 0) (by simp [nodes2]); rw [hno _ (by simp [nodes2])] at this; exact absurd this (by decide)
  · intro n hn h0 _; exact bilin_node hn h0
  · intro n hn _ h; rw [hno n hn] at h; exact absurd h (by decide)
  · intro _ _ lo hi hv
    have hv' : ∀ j i, j ≤ 1 → i ≤ 1 → lo ≤ c j i ∧ c j i ≤ hi := fun j i hj hi =>
      hv (j, i) ((mem_nodes2 _).mpr ⟨hj, hi⟩) (hno _ ((mem_nodes2 _).mpr ⟨hj, hi⟩))
    exact ⟨bilin_ge hx.1 hx.2 he.1 he.2 (fun j i a b => (hv' j i a b).1),
      bilin_le hx.1 hx.2 he.1 he.2 (fun j i a b => (hv' j i a b).2)⟩

theorem trilin_ignores (xsi eta zeta : ℚ) (hx : 0 ≤ xsi ∧ xsi ≤ 1) (he : 0 ≤ eta ∧ eta ≤ 1) (hz : 0 ≤ zeta ∧ zeta ≤ 1)
    (c : Cell3) (land : Nat × Nat × Nat → Bool) (eps : ℚ) (hno : ∀ n ∈ nodes3, land n = false) :
    IgnoresLand nodes3 land eps (dist3 xsi eta zeta) (fun n => c n.1 n.2.1 n.2.2) (trilin xsi eta zeta c) := by
  refine ⟨?_, ?_, ?_, ?_⟩
  · intro h
    have := h (0, 0, 0) (by simp [nodes3]); rw [hno _ (by simp [nodes3])] at this; exact absurd this (by decide)
  · intro n hn h0 _; exact trilin_node hn h0
  · intro n hn _ h; rw [hno n hn] at h; exact absurd h (by decide)
  · intro _ _ lo hi hv
    have hv' : ∀ k j i, k ≤ 1 → j ≤ 1 → i ≤ 1 → lo ≤ c k j i ∧ c k j i ≤ hi := fun k j i hk hj hi =>
      hv (k, j, i) ((mem_nodes3 _).mpr ⟨hk, hj, hi⟩) (hno _ ((mem_nodes3 _).mpr ⟨hk, hj, hi⟩))
    exact ⟨trilin_ge hx.1 hx.2 he.1 he.2 hz.1 hz.2 (fun k j i a b d => (hv' k j i a b d).1),
      trilin_le hx.1 hx.2 he.1 he.2 hz.1 hz.2 (fun k j i a b d => (hv' k j i a b d).2)⟩

theorem allLand_ignores {N : Type} (nodes : List N) (land : N → Bool) (eps : ℚ) (dist v : N → ℚ)
    (h : ∀ n ∈ nodes, land n = true) : IgnoresLand nodes land eps dist v 0 := by
  refine ⟨fun _ => rfl, ?_, fun _ _ _ _ => rfl, ?_⟩
  · intro n hn _ hl; rw [h n hn] at hl; exact absurd hl (by decide)
  · rintro _ ⟨n, hn, hl⟩; rw [h n hn] at hl; exact absurd hl (by decide)

/-- A single ocean node. -/
theorem lastOcean_mem {N : Type} (land : N → Bool) (v : N → ℚ) (ns : List N) (h : ∃ n ∈ ns, land n = false) :
    ∃ n ∈ ns, land n = false ∧ lastOcean land v ns = v n := by
  unfold lastOcean
  obtain ⟨m, hm, hl⟩ := h
  have hne : (ns.filter fun n => !land n) ≠ [] := by
    intro hh; rw [List.filter_eq_nil_iff] at hh; exact hh m hm (by simp [hl])
  obtain ⟨a, ha⟩ := Option.ne_none_iff_exists'.mp (by rwa [Ne, List.getLast?_eq_none_iff])
  have hmem := List.mem_filter.mp (List.mem_of_mem_getLast? (by rw [ha]; rfl))
  exact ⟨a, hmem.1, by simpa using hmem.2, by rw [ha]; rfl⟩

theorem count_split {N : Type} (l : List N) (p : N → Bool) :
    (l.filter p).length + (l.filter fun n => !p n).length = l.length := by
  induction l with
  | nil => rfl
  | cons a l ih => rcases h : p a with _ | _ <;> simp [List.filter_cons, h] <;> omega

/-- With all but one node on land, the one ocean value satisfies the specification, except on a land node. -/
theorem single_ignores {N : Type} (nodes : List N) (hnd : nodes.Nodup) (land : N → Bool) (eps : ℚ) (dist v : N → ℚ)
    (hc : (nodes.filter land).length + 1 = nodes.length)
    (hoff : ∀ n ∈ nodes, dist n = 0 → land n = false) :
    IgnoresLand nodes land eps dist v (lastOcean land v nodes) := by
  have h1 : (nodes.filter fun n => !land n).length = 1 := by have := count_split nodes land; omega
  obtain ⟨a, ha⟩ := List.length_eq_one_iff.mp h1
  have huniq : ∀ n ∈ nodes, land n = false → n = a := by
    intro n hn hl
    have : n ∈ nodes.filter fun n => !land n := List.mem_filter.mpr ⟨hn, by simp [hl]⟩
    rw [ha] at this; simpa using this
  have hval : lastOcean land v nodes = v a := by unfold lastOcean; rw [ha]; rfl
  have haM : a ∈ nodes ∧ land a = false := by
    have : a ∈ nodes.filter fun n => !land n := by rw [ha]; simp
    have := List.mem_filter.mp this
    exact ⟨this.1, by simpa using this.2⟩
  refine ⟨?_, ?_, ?_, ?_⟩
  · intro h; have := h a haM.1; rw [haM.2] at this; exact absurd this (by decide)
  · intro n hn _ hl; rw [hval, huniq n hn hl]
  · intro n hn h0 hl; rw [hoff n hn h0] at hl; exact absurd hl (by decide)
  · intro _ _ lo hi hv; rw [hval]; exact hv a haM.1 haM.2

/-! ### JIT -/

/-- Land for the C code: the value is zero. -/
def cLand2 (c : Cell2) : Nat × Nat → Bool := fun n => decide (c n.1 n.2 = 0)
def cLand3 (c : Cell3) : Nat × Nat × Nat → Bool := fun n => decide (c n.1 n.2.1 n.2.2 = 0)

theorem cLoop2 (xsi eta : ℚ) (c : Cell2) (hex : ∃ n ∈ nodes2, cLand2 c n = false) :
    IgnoresLand nodes2 (cLand2 c) 0 (dist2 xsi eta) (fun n => c n.1 n.2)
      (invLoop cZero (cLand2 c) (cLand2 c) (dist2 xsi eta) (fun n => c n.1 n.2) (fun n => c n.1 n.2) nodes2 0 0) :=
  loop_ignores nodes2 cZero 0 _ _ _ (by simp [cZero]) le_rfl (by norm_num)
    (fun n h => by simp [cZero, h.ne']) (fun n h => lt_of_le_of_ne (dist2_nonneg xsi eta n) (by
      simp [cZero] at h; exact fun e => h e.symm)) (fun n m h hne => dist2_other h hne) hex

theorem cLoop3 (xsi eta zeta : ℚ) (c : Cell3) (hex : ∃ n ∈ nodes3, cLand3 c n = false) :
    IgnoresLand nodes3 (cLand3 c) 0 (dist3 xsi eta zeta) (fun n => c n.1 n.2.1 n.2.2)
      (invLoop cZero (cLand3 c) (cLand3 c) (dist3 xsi eta zeta) (fun n => c n.1 n.2.1 n.2.2)
        (fun n => c n.1 n.2.1 n.2.2) nodes3 0 0) :=
  loop_ignores nodes3 cZero 0 _ _ _ (by simp [cZero]) le_rfl (by norm_num)
    (fun n h => by simp [cZero, h.ne']) (fun n h => lt_of_le_of_ne (dist3_nonneg xsi eta zeta n) (by
      simp [cZero] at h; exact fun e => h e.symm)) (fun n m h hne => dist3_other h hne) hex

theorem exists_ocean {N : Type} (l : List N) (p : N → Bool) (h : (l.filter p).length ≠ l.length) :
    ∃ n ∈ l, p n = false := by
  by_contra hh
  push Not at hh
  exact h (count_of_all l p (fun n hn => by simpa using hh n hn))

/-- C31 (JIT, 2D cell), except at a land node of a cell with exactly one ocean node. -/
theorem cInv2_ignores (xsi eta : ℚ) (hx : 0 ≤ xsi ∧ xsi ≤ 1) (he : 0 ≤ eta ∧ eta ≤ 1) (c : Cell2)
    (hone : (nodes2.filter (cLand2 c)).length = 3 → ∀ n ∈ nodes2, dist2 xsi eta n = 0 → cLand2 c n = false) :
    IgnoresLand nodes2 (cLand2 c) 0 (dist2 xsi eta) (fun n => c n.1 n.2) (cInv2 xsi eta c) := by
  have e : cInv2 xsi eta c = if (nodes2.filter (cLand2 c)).length = 0 then bilin xsi eta c
    else if (nodes2.filter (cLand2 c)).length = 3 then lastOcean (cLand2 c) (fun n => c n.1 n.2) nodes2
    else if (nodes2.filter (cLand2 c)).length = 4 then 0
    else invLoop cZero (cLand2 c) (cLand2 c) (dist2 xsi eta) (fun n => c n.1 n.2) (fun n => c n.1 n.2) nodes2 0 0 := rfl
  rw [e]
  split_ifs with h0 h3 h4
  · exact bilin_ignores xsi eta hx he c _ 0 (none_of_count _ _ h0)
  · exact single_ignores nodes2 (by decide) _ 0 _ _ (by rw [h3]; rfl) (hone h3)
  · exact allLand_ignores _ _ _ _ _ (all_of_count _ _ (by rw [h4]; rfl))
  · exact cLoop2 xsi eta c (exists_ocean _ _ (by simpa [nodes2] using h4))

theorem cInv3_ignores (xsi eta zeta : ℚ) (hx : 0 ≤ xsi ∧ xsi ≤ 1) (he : 0 ≤ eta ∧ eta ≤ 1)
    (hz : 0 ≤ zeta ∧ zeta ≤ 1) (c : Cell3)
    (hone : (nodes3.filter (cLand3 c)).length = 7 → ∀ n ∈ nodes3, dist3 xsi eta zeta n = 0 → cLand3 c n = false) :
    IgnoresLand nodes3 (cLand3 c) 0 (dist3 xsi eta zeta) (fun n => c n.1 n.2.1 n.2.2) (cInv3 xsi eta zeta c) := by
  have e : cInv3 xsi eta zeta c = if (nodes3.filter (cLand3 c)).length = 0 then trilin xsi eta zeta c
    else if (nodes3.filter (cLand3 c)).length = 7 then lastOcean (cLand3 c) (fun n => c n.1 n.2.1 n.2.2) nodes3
    else if (nodes3.filter (cLand3 c)).length = 8 then 0
    else invLoop cZero (cLand3 c) (cLand3 c) (dist3 xsi eta zeta) (fun n => c n.1 n.2.1 n.2.2)
      (fun n => c n.1 n.2.1 n.2.2) nodes3 0 0 := rfl
  rw [e]
  split_ifs with h0 h3 h4
  · exact trilin_ignores xsi eta zeta hx he hz c _ 0 (none_of_count _ _ h0)
  · exact single_ignores nodes3 (by decide) _ 0 _ _ (by rw [h3]; rfl) (hone h3)
  · exact allLand_ignores _ _ _ _ _ (all_of_count _ _ (by rw [h4]; rfl))
  · exact cLoop3 xsi eta zeta c (exists_ocean _ _ (by simpa [nodes3] using h4))

/-- C31 (JIT, 2D): for every grid, data and position there is a cell containing the position such that the sampled value
ignores the land nodes of that cell. Missing: positions on a land node when only one node of the cell is ocean. -/
theorem C31_jit_2D_partial (g : RGrid) (hg : FlatGrid g) (h2d : g.depth.length ≤ 1) (ix : Indexing) (d : Arr)
    (hfit : Fits d g) (x y z : ℚ) (xi yi zi : Nat) (hxi : xi + 1 < g.lon.length) (hyi : yi + 1 < g.lat.length)
    (hx : InRange g.lon x) (hy : InRange g.lat y) :
    ∃ (n m : Nat) (r s v : ℚ), Locates g.lon x n r ∧ Locates g.lat y m s ∧
      cSample g ix .invdist d x y z xi yi zi = .ok v ∧
      ((0 < r ∧ r < 1 ∨ 0 < s ∧ s < 1 ∨
          (nodes2.filter fun q => decide (d.v 0 (m + q.1) (n + q.2) = 0)).length ≠ 3) →
        IgnoresLand nodes2 (fun q => decide (d.v 0 (m + q.1) (n + q.2) = 0)) 0 (fun q => (s - q.1) ^ 2 + (r - q.2) ^ 2)
          (fun q => d.v 0 (m + q.1) (n + q.2)) v) := by
  obtain ⟨p, hp, h1, h2⟩ := (C24_jit g hg h2d x y z xi yi zi hxi hyi).1 ⟨hx, hy⟩
  obtain ⟨n, e1, _⟩ := locates_nat h1
  obtain ⟨m, e2, _⟩ := locates_nat h2
  rw [e1] at h1
  rw [e2] at h2
  have nx : d.nx ≠ 1 := by have := hg.lonLen; have := hfit.1; omega
  have ny : d.ny ≠ 1 := by have := hg.latLen; have := hfit.2.1; omega
  have hc : cCell2 d p.xi.toNat p.yi.toNat = fun j i => d.v 0 (m + j) (n + i) := by
    funext j i
    unfold cCell2
    rw [e1, e2, if_neg nx, if_neg ny, Int.toNat_natCast, Int.toNat_natCast]
  refine ⟨n, m, p.xsi, p.eta, cInv2 p.xsi p.eta (fun j i => d.v 0 (m + j) (n + i)), h1, h2, ?_, ?_⟩
  · unfold cSample
    rw [hp]
    simp only [if_pos h2d, cInterp2D, hc]
  · intro hcase
    have hr := unit_of_locates h1
    have hs := unit_of_locates h2
    refine cInv2_ignores p.xsi p.eta hr hs (fun j i => d.v 0 (m + j) (n + i)) ?_
    intro h3 q hq hd
    exfalso
    have k1 : p.eta = q.1 := by
      have : (p.eta - q.1) ^ 2 = 0 := by unfold dist2 at hd; nlinarith [sq_nonneg (p.eta - q.1), sq_nonneg (p.xsi - q.2)]
      have := pow_eq_zero_iff (two_ne_zero) |>.mp this; linarith
    have k2 : p.xsi = q.2 := by
      have : (p.xsi - q.2) ^ 2 = 0 := by unfold dist2 at hd; nlinarith [sq_nonneg (p.eta - q.1), sq_nonneg (p.xsi - q.2)]
      have := pow_eq_zero_iff (two_ne_zero) |>.mp this; linarith
    obtain ⟨q1, q2⟩ := (mem_nodes2 q).mp hq
    rcases hcase with ⟨ha, hb⟩ | ⟨ha, hb⟩ | hcnt
    · rw [k2] at ha hb
      have : 0 < q.2 := by exact_mod_cast ha
      have : q.2 < 1 := by exact_mod_cast hb
      omega
    · rw [k1] at ha hb
      have : 0 < q.1 := by exact_mod_cast ha
      have : q.1 < 1 := by exact_mod_cast hb
      omega
    · exact hcnt h3

/-- C31 (JIT, 3D), away from POP's lowest layer and with the same exception. -/
theorem C31_jit_3D_partial (g : RGrid) (hg : FlatGrid g) (hdep : Increasing g.depth) (h3d : 2 ≤ g.depth.length)
    (hm5 : g.mom5 = false) (ix : Indexing) (hix : ix ≠ .pop) (d : Arr) (hfit : Fits d g) (x y z : ℚ)
    (xi yi zi : Nat) (hxi : xi + 1 < g.lon.length) (hyi : yi + 1 < g.lat.length)
    (hzi : zi ≤ g.depth.length - 1) (hx : InRange g.lon x) (hy : InRange g.lat y)
    (hz1 : ¬ BeforeFirst g.depth z) (hz2 : ¬ BeyondLast g.depth z) :
    ∃ (n m k : Nat) (r s t v : ℚ), Locates g.lon x n r ∧ Locates g.lat y m s ∧ Locates g.depth z k t ∧
      cSample g ix .invdist d x y z xi yi zi = .ok v ∧
      ((nodes3.filter fun q => decide (d.v (k + q.1) (m + q.2.1) (n + q.2.2) = 0)).length ≠ 7 →
        IgnoresLand nodes3 (fun q => decide (d.v (k + q.1) (m + q.2.1) (n + q.2.2) = 0)) 0
          (fun q => (t - q.1) ^ 2 + (s - q.2.1) ^ 2 + (r - q.2.2) ^ 2)
          (fun q => d.v (k + q.1) (m + q.2.1) (n + q.2.2)) v) := by
  obtain ⟨p, hp, h1, h2, h3⟩ := (C24_jit_3D g hg (Or.inl hdep) h3d hm5 x y z xi yi zi hxi hyi hzi hx hy).2.2 hz1 hz2
  obtain ⟨n, e1, _⟩ := locates_nat h1
  obtain ⟨m, e2, _⟩ := locates_nat h2
  obtain ⟨k, e3, _⟩ := locates_nat h3
  rw [e1] at h1
  rw [e2] at h2
  rw [e3] at h3
  have nx : d.nx ≠ 1 := by have := hg.lonLen; have := hfit.1; omega
  have ny : d.ny ≠ 1 := by have := hg.latLen; have := hfit.2.1; omega
  have nz : d.nz ≠ 1 := by have := hfit.2.2; omega
  have htop : decide ((k : ℤ) = -1) = false := decide_eq_false (by omega)
  have hc : cCell3 d n m k = fun q j i => d.v (k + q) (m + j) (n + i) := by
    funext q j i
    unfold cCell3
    rw [if_neg nx, if_neg ny, if_neg nz, Int.toNat_natCast]
  refine ⟨n, m, k, p.xsi, p.eta, p.zeta, cInv3 p.xsi p.eta p.zeta (fun q j i => d.v (k + q) (m + j) (n + i)),
    h1, h2, h3, ?_, ?_⟩
  · unfold cSample
    rw [hp]
    simp only [if_neg (show ¬ g.depth.length ≤ 1 by omega), e1, e2, e3, htop, Bool.and_false, hix, decide_false,
      Bool.false_and, Bool.false_eq_true, if_false, cInterp3D, Int.toNat_natCast, hc]
  · intro hcase
    exact cInv3_ignores p.xsi p.eta p.zeta (unit_of_locates h1) (unit_of_locates h2) (unit_of_locates h3)
      (fun q j i => d.v (k + q) (m + j) (n + i)) (fun h => absurd h hcase)

/-- C31 is false in JIT mode at a land node when only one node of the cell is ocean: the ocean value is returned.
Here the particle is exactly at the land node (0, -5). -/
theorem C31_jit_land_node :
    cSample exGrid .nemo .invdist { exArr with nz := 1, v := fun _ j i => if j = 1 ∧ i = 1 then 7 else 0 } 0 (-5) 0 0 0 0
      = .ok 7 := by decide +kernel

/-! ### Scipy -/

/-- Land for the Python code: within `1e-8` of zero. -/
def Land (v : ℚ) : Bool := decide (|v| ≤ 1 / 100000000)

theorem closeZero_land (v : ℚ) : closeZero v = Land v := by
  unfold closeZero isclose Land; simp

theorem pyInv2_ignores (xsi eta : ℚ) (hx : 0 ≤ xsi ∧ xsi ≤ 1) (he : 0 ≤ eta ∧ eta ≤ 1) (c : Cell2)
    (hsym : Land (c 0 1) = Land (c 1 0)) :
    IgnoresLand nodes2 (fun n => Land (c n.1 n.2)) (1 / 100000000) (dist2 xsi eta) (fun n => c n.1 n.2)
      (pyInv2 xsi eta c) := by
  have hl : (fun n : Nat × Nat => closeZero (c n.1 n.2)) = fun n => Land (c n.1 n.2) := by
    funext n; exact closeZero_land _
  have e : pyInv2 xsi eta c = if (nodes2.filter (fun n => Land (c n.1 n.2))).length = 4 then 0
    else if 0 < (nodes2.filter (fun n => Land (c n.1 n.2))).length then
      invLoop closeZero (fun n => Land (c n.1 n.2)) (fun n => Land (c n.2 n.1)) (dist2 xsi eta) (fun n => c n.1 n.2)
        (fun n => c n.1 n.2) nodes2 0 0
    else bilin xsi eta c := by
    unfold pyInv2; simp only [closeZero_land]
  rw [e]
  split_ifs with h4 h0
  · exact allLand_ignores _ _ _ _ _ (all_of_count _ _ (by rw [h4]; rfl))
  · have hskip : invLoop closeZero (fun n => Land (c n.1 n.2)) (fun n => Land (c n.2 n.1)) (dist2 xsi eta)
        (fun n => c n.1 n.2) (fun n => c n.1 n.2) nodes2 0 0 =
      invLoop closeZero (fun n => Land (c n.1 n.2)) (fun n => Land (c n.1 n.2)) (dist2 xsi eta)
        (fun n => c n.1 n.2) (fun n => c n.1 n.2) nodes2 0 0 := by
      simp only [nodes2, invLoop, hsym]
    rw [hskip]
    exact loop_ignores nodes2 closeZero _ (fun n => Land (c n.1 n.2)) _ _ (by rw [closeZero_iff _ le_rfl]; norm_num)
      (by norm_num) (by norm_num) (fun n h => (closeZero_false _ (dist2_nonneg _ _ _)).mpr h)
      (fun n h => lt_trans (by norm_num) ((closeZero_false _ (dist2_nonneg _ _ _)).mp h))
      (fun n m h hne => dist2_other h hne) (exists_ocean _ _ (by simpa [nodes2] using h4))
  · exact bilin_ignores xsi eta hx he c _ _ (none_of_count _ _ (by omega))

/-- C31 (Scipy, 2D): for every grid, data and position there is a cell containing the position such that the sampled value
ignores the land nodes of that cell, if its north-west and south-east nodes are both land or both ocean. Missing: the
other land patterns, where it is false. -/
theorem C31_scipy_2D_partial (g : RGrid) (hg : FlatGrid g) (h2d : g.depth.length ≤ 1) (ix : Indexing) (d : Arr)
    (x y z : ℚ) (hx : InRange g.lon x) (hy : InRange g.lat y) :
    ∃ (n m : Nat) (r s v : ℚ), Locates g.lon x n r ∧ Locates g.lat y m s ∧
      sample g ix .invdist d x y z = .ok (some v) ∧
      (Land (d.v 0 m (n + 1)) = Land (d.v 0 (m + 1) n) →
        IgnoresLand nodes2 (fun q => Land (d.v 0 (m + q.1) (n + q.2))) (1 / 100000000)
          (fun q => (s - q.1) ^ 2 + (r - q.2) ^ 2) (fun q => d.v 0 (m + q.1) (n + q.2)) v) := by
  obtain ⟨p, hp, h1, h2⟩ := (C24_scipy g hg h2d x y z).1 ⟨hx, hy⟩
  obtain ⟨n, e1, _⟩ := locates_nat h1
  obtain ⟨m, e2, _⟩ := locates_nat h2
  rw [e1] at h1
  rw [e2] at h2
  have hc : pyCell2 d p = fun j i => d.v 0 (m + j) (n + i) := by
    funext j i
    unfold pyCell2 Arr.py
    rw [e1, e2, wrap_nat_add, wrap_nat_add, wrap_zero]
  refine ⟨n, m, p.xsi, p.eta, pyInv2 p.xsi p.eta (fun j i => d.v 0 (m + j) (n + i)), h1, h2, ?_, ?_⟩
  · unfold sample
    rw [hp]
    simp only [if_pos h2d, interp2D, hc]
  · intro hsym
    exact pyInv2_ignores p.xsi p.eta (unit_of_locates h1) (unit_of_locates h2)
      (fun j i => d.v 0 (m + j) (n + i)) (by simpa using hsym)

/-- C31 is false in Scipy mode for the other patterns. With ocean value 4 at three nodes and the south-east
node on land, the value at the centre of the cell is 8/3 instead of 4; with one ocean node it is 0. -/
theorem C31_scipy_2D_transposed :
    sample exGrid .nemo .invdist { exArr with nz := 1, v := fun _ j i => if j = 0 ∧ i = 1 then 0 else 4 } (1 / 2) 0 0
      = .ok (some (8 / 3)) ∧
    cSample exGrid .nemo .invdist { exArr with nz := 1, v := fun _ j i => if j = 0 ∧ i = 1 then 0 else 4 } (1 / 2) 0 0
      0 0 0 = .ok 4 ∧
    sample exGrid .nemo .invdist { exArr with nz := 1, v := fun _ j i => if j = 0 ∧ i = 1 then 4 else 0 } (1 / 2) 0 0
      = .ok (some 0) := by decide +kernel

theorem pyInv3_ignores (xsi eta zeta : ℚ) (hx : 0 ≤ xsi ∧ xsi ≤ 1) (he : 0 ≤ eta ∧ eta ≤ 1) (hz : 0 ≤ zeta ∧ zeta ≤ 1)
    (c : Cell3) (hoff : ∀ n ∈ nodes3, dist3 xsi eta zeta n = 0 → Land (c n.1 n.2.1 n.2.2) = false → n.1 = n.2.2) :
    IgnoresLand nodes3 (fun n => Land (c n.1 n.2.1 n.2.2)) (1 / 100000000) (dist3 xsi eta zeta)
      (fun n => c n.1 n.2.1 n.2.2) (pyInv3 xsi eta zeta c) := by
  have e : pyInv3 xsi eta zeta c = if (nodes3.filter (fun n => Land (c n.1 n.2.1 n.2.2))).length = 8 then 0
    else if 0 < (nodes3.filter (fun n => Land (c n.1 n.2.1 n.2.2))).length then
      invLoop closeZero (fun n => Land (c n.1 n.2.1 n.2.2)) (fun n => Land (c n.1 n.2.1 n.2.2)) (dist3 xsi eta zeta)
        (fun n => c n.2.2 n.2.1 n.1) (fun n => c n.1 n.2.1 n.2.2) nodes3 0 0
    else trilin xsi eta zeta c := by
    unfold pyInv3; simp only [closeZero_land]
  rw [e]
  split_ifs with h4 h0
  · exact allLand_ignores _ _ _ _ _ (all_of_count _ _ (by rw [h4]; rfl))
  · have hon : ∀ n, (1 : ℚ) / 100000000 < dist3 xsi eta zeta n → closeZero (dist3 xsi eta zeta n) = false :=
      fun n h => (closeZero_false _ (dist3_nonneg _ _ _ _)).mpr h
    have hit : ∀ n ∈ nodes3, dist3 xsi eta zeta n = 0 →
        invLoop closeZero (fun n => Land (c n.1 n.2.1 n.2.2)) (fun n => Land (c n.1 n.2.1 n.2.2)) (dist3 xsi eta zeta)
          (fun n => c n.2.2 n.2.1 n.1) (fun n => c n.1 n.2.1 n.2.2) nodes3 0 0 =
        bif Land (c n.1 n.2.1 n.2.2) then 0 else c n.2.2 n.2.1 n.1 := by
      intro n hn hd
      refine invLoop_hit _ _ _ _ _ _ nodes3 0 0 n hn ?_ ?_
      · rw [hd, closeZero_iff _ le_rfl]; norm_num
      · intro m _ hne
        exact hon m (lt_of_lt_of_le (by norm_num) (dist3_other hd hne))
    have hex := exists_ocean nodes3 (fun n => Land (c n.1 n.2.1 n.2.2)) (by simpa [nodes3] using h4)
    refine ⟨?_, ?_, ?_, ?_⟩
    · intro h
      obtain ⟨n, hn, hl⟩ := hex
      rw [h n hn] at hl; exact absurd hl (by decide)
    · intro n hn hd hl
      have := hoff n hn hd hl
      rw [hit n hn hd]
      rw [hl, cond_false, ← this]
    · intro n hn hd hl
      rw [hit n hn hd, hl, cond_true]
    · intro hd hocean lo hi hv
      exact invLoop_bounds closeZero _ _ (dist3 xsi eta zeta) _ _ lo hi
        (fun n h => lt_trans (by norm_num) ((closeZero_false _ (dist3_nonneg _ _ _ _)).mp h)) nodes3 0 0
        (fun n hn => hon n (hd n hn)) (fun n hn hl => hv n hn hl) le_rfl (by simp) (by simp) (Or.inr hocean)
  · exact trilin_ignores xsi eta zeta hx he hz c _ _ (none_of_count _ _ (by omega))

/-- C31 (Scipy, 3D), at every position with a longitude or depth that is not a grid value. Missing: positions exactly on
a node, where it is false. -/
theorem C31_scipy_3D_partial (g : RGrid) (hg : FlatGrid g) (hdep : Increasing g.depth) (h3d : 2 ≤ g.depth.length)
    (hm5 : g.mom5 = false) (ix : Indexing) (d : Arr) (x y z : ℚ) (hx : InRange g.lon x) (hy : InRange g.lat y)
    (hz1 : ¬ BeforeFirst g.depth z) (hz2 : ¬ BeyondLast g.depth z) :
    ∃ (n m k : Nat) (r s t v : ℚ), Locates g.lon x n r ∧ Locates g.lat y m s ∧ Locates g.depth z k t ∧
      sample g ix .invdist d x y z = .ok (some v) ∧
      ((x ∉ g.lon ∨ z ∉ g.depth) →
        IgnoresLand nodes3 (fun q => Land (d.v (k + q.1) (m + q.2.1) (n + q.2.2))) (1 / 100000000)
          (fun q => (t - q.1) ^ 2 + (s - q.2.1) ^ 2 + (r - q.2.2) ^ 2)
          (fun q => d.v (k + q.1) (m + q.2.1) (n + q.2.2)) v) := by
  obtain ⟨p, hp, h1, h2, h3⟩ := (C24_scipy_3D g hg (Or.inl hdep) h3d hm5 x y z hx hy).2.2 hz1 hz2
  obtain ⟨n, e1, _⟩ := locates_nat h1
  obtain ⟨m, e2, _⟩ := locates_nat h2
  obtain ⟨k, e3, _⟩ := locates_nat h3
  rw [e1] at h1
  rw [e2] at h2
  rw [e3] at h3
  have hc : pyCell3 d p = fun q j i => d.v (k + q) (m + j) (n + i) := by
    funext q j i
    unfold pyCell3 Arr.py
    rw [e1, e2, e3, wrap_nat_add, wrap_nat_add, wrap_nat_add]
  refine ⟨n, m, k, p.xsi, p.eta, p.zeta, pyInv3 p.xsi p.eta p.zeta (fun q j i => d.v (k + q) (m + j) (n + i)),
    h1, h2, h3, ?_, ?_⟩
  · unfold sample
    rw [hp]
    simp only [if_neg (show ¬ g.depth.length ≤ 1 by omega), interp3D, hc]
  · intro hcase
    refine pyInv3_ignores p.xsi p.eta p.zeta (unit_of_locates h1) (unit_of_locates h2) (unit_of_locates h3)
      (fun q j i => d.v (k + q) (m + j) (n + i)) ?_
    intro q hq hd _
    exfalso
    have k0 : p.zeta = q.1 := by
      have : (p.zeta - q.1) ^ 2 = 0 := by
        unfold dist3 at hd
        nlinarith [sq_nonneg (p.eta - q.2.1), sq_nonneg (p.xsi - q.2.2), sq_nonneg (p.zeta - q.1)]
      have := pow_eq_zero_iff (two_ne_zero) |>.mp this; linarith
    have k2 : p.xsi = q.2.2 := by
      have : (p.xsi - q.2.2) ^ 2 = 0 := by
        unfold dist3 at hd
        nlinarith [sq_nonneg (p.eta - q.2.1), sq_nonneg (p.xsi - q.2.2), sq_nonneg (p.zeta - q.1)]
      have := pow_eq_zero_iff (two_ne_zero) |>.mp this; linarith
    obtain ⟨q0, q1, q2⟩ := (mem_nodes3 q).mp hq
    have key : ∀ (l : List ℚ) (u rr : ℚ) (i c : Nat), Locates l u i rr → c ≤ 1 → rr = c → u ∈ l := by
      rintro l u rr i c ⟨i', a, b, _, ha, hb, _, _, hu⟩ hc1 hcc
      have : c = 0 ∨ c = 1 := by omega
      rcases this with rfl | rfl
      · have : u = a := by rw [hu, hcc]; push_cast; ring
        rw [this]; exact List.mem_of_getElem? ha
      · have : u = b := by rw [hu, hcc]; push_cast; ring
        rw [this]; exact List.mem_of_getElem? hb
    rcases hcase with hh | hh
    · exact hh (key _ _ _ _ _ h1 q2 k2)
    · exact hh (key _ _ _ _ _ h3 q0 k0)

/-- Data for the next theorem: the value is 100 k + 10 j + i, but the node (2, 1, 1) is land. -/
def holeArr : Arr := { exArr with v := fun k j i => if k = 2 ∧ j = 1 ∧ i = 1 then 0 else 100 * k + 10 * j + i }

/-- C31 is false in Scipy mode on a node in 3D: the value returned is the one with the depth and longitude index of the
node within the cell exchanged. The node at longitude 0, latitude -5, depth 30 holds 200; sampling it gives 101. -/
theorem C31_scipy_3D_node :
    holeArr.v 2 0 0 = 200 ∧ holeArr.v 1 0 1 = 101 ∧
    sample exGrid3 .nemo .invdist holeArr 0 (-5) 30 = .ok (some 101) ∧
    cSample exGrid3 .nemo .invdist holeArr 0 (-5) 30 0 0 0 = .ok 200 := by decide +kernel

/-- C31: small values count as land in Scipy mode only: a tracer of `1e-9` everywhere is sampled as 0. -/
theorem C31_scipy_small_values :
    sample exGrid .nemo .invdist { exArr with nz := 1, v := fun _ _ _ => 1 / 1000000000 } 2 0 0 = .ok (some 0) ∧
    cSample exGrid .nemo .invdist { exArr with nz := 1, v := fun _ _ _ => 1 / 1000000000 } 2 0 0 0 0 0
      = .ok (1 / 1000000000) := by decide +kernel

/-- C31: away from the nodes and with some land, the value is exactly the mean of the ocean nodes weighted by the
inverse squared distance (JIT; two to three ocean nodes in 2D). -/
theorem C31_weighted_mean (xsi eta : ℚ) (c : Cell2) (hoff : ∀ n ∈ nodes2, dist2 xsi eta n ≠ 0)
    (hland : (nodes2.filter (cLand2 c)).length = 1 ∨ (nodes2.filter (cLand2 c)).length = 2) :
    cInv2 xsi eta c = weightedMean (nodes2.filter fun n => decide (c n.1 n.2 ≠ 0))
      (fun n => (eta - n.1) ^ 2 + (xsi - n.2) ^ 2) (fun n => c n.1 n.2) := by
  have e : cInv2 xsi eta c = if (nodes2.filter (cLand2 c)).length = 0 then bilin xsi eta c
    else if (nodes2.filter (cLand2 c)).length = 3 then lastOcean (cLand2 c) (fun n => c n.1 n.2) nodes2
    else if (nodes2.filter (cLand2 c)).length = 4 then 0
    else invLoop cZero (cLand2 c) (cLand2 c) (dist2 xsi eta) (fun n => c n.1 n.2) (fun n => c n.1 n.2) nodes2 0 0 := rfl
  rw [e, if_neg (by omega), if_neg (by omega), if_neg (by omega),
    invLoop_eq _ _ _ _ _ _ nodes2 0 0 (fun n hn => by simp [cZero, hoff n hn])]
  have hf : (fun n : Nat × Nat => !cLand2 c n) = fun n => decide (c n.1 n.2 ≠ 0) := by
    funext n; simp [cLand2]
  rw [zero_add, zero_add, hf]
  rfl

example : cSample exGrid .nemo .invdist { exArr with nz := 1, v := fun _ j i => if j = 0 then 0 else i + 1 } (1 / 2) 0 0
      0 0 0 = .ok (3 / 2) ∧
    sample exGrid .nemo .invdist { exArr with nz := 1, v := fun _ j i => if j = i then 0 else i + 1 } (1 / 2) 0 0
      = .ok (some (3 / 2)) := by decide +kernel

end Parcels.Interp
