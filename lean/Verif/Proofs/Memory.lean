import Verif.Spec.Memory
import Verif.Proofs.ChunksCell
import Mathlib.Tactic.Linarith

/-!
Lemmas for C83.
-/

namespace Parcels.Memory
open Parcels.Chunks (at? Copes InMemory Data IsCell getCell chunkInfo Out)

variable {C α : Type}

theorem at_some {l : List C} {i : ℤ} (h0 : 0 ≤ i) (h1 : i < l.length) : ∃ a, at? l i = some a := by
  unfold at?
  rw [if_neg (by omega)]
  exact ⟨_, List.getElem?_eq_getElem (by omega)⟩

theorem at_last {l : List C} {a : C} (h : l.getLast? = some a) {i : ℤ} (hi : i + 1 = l.length) : at? l i = some a := by
  unfold at?
  rw [List.getLast?_eq_getElem?] at h
  rw [if_neg (by have : 0 < l.length := by { cases l <;> simp_all }; omega), ← h]
  congr 1
  omega

/-- The first loop, from -1 or later: it does not leave the array, and if the last entry is not smaller it ends before it. -/
theorem up_safe (lt : C → C → Bool) (v : List C) (x : C) : ∀ (f : Nat) (i : ℤ), -1 ≤ i → i < v.length →
    ∃ j, up lt v x f i = some j ∧ i ≤ j ∧ j < v.length ∧
      ((∀ a, at? v ((v.length : ℤ) - 1) = some a → lt a x = false) → i + 1 < v.length → j + 1 < v.length) ∧
      (f = 0 → j = i) ∧ (∀ a, f ≠ 0 → i + 1 < v.length → at? v (i + 1) = some a → lt a x = true → i < j) := by
  intro f
  induction f with
  | zero => intro i h0 h1; exact ⟨i, rfl, le_rfl, h1, fun _ h => h, fun _ => rfl, fun _ h => absurd rfl h⟩
  | succ f ih =>
    intro i h0 h1
    by_cases hc : i < (v.length : ℤ) - 1
    · obtain ⟨a, ha⟩ := at_some (l := v) (i := i + 1) (by omega) (by omega)
      cases hl : lt a x with
      | false =>
        refine ⟨i, by simp [up, hc, ha, hl], le_rfl, h1, fun _ _ => by omega, fun _ => rfl, ?_⟩
        intro b _ _ hb hlt
        rw [ha] at hb; cases hb
        rw [hl] at hlt; cases hlt
      | true =>
        obtain ⟨j, h2, h3, h4, h5, -⟩ := ih (i + 1) (by omega) (by omega)
        refine ⟨j, by simp [up, hc, ha, hl, h2], by omega, h4, ?_, fun h => absurd h (by omega), fun _ _ _ _ _ => by omega⟩
        intro hlast hi
        refine h5 hlast ?_
        by_contra hn
        have e : i + 1 = (v.length : ℤ) - 1 := by omega
        rw [e] at ha
        rw [hlast a ha] at hl; cases hl
    · exact ⟨i, by simp [up, hc], le_rfl, h1, fun _ h => h, fun _ => rfl, fun _ _ h => absurd h (by omega)⟩

theorem down_safe (lt : C → C → Bool) (v : List C) (x : C) : ∀ (f : Nat) (i : ℤ), i < v.length →
    ∃ j, down lt v x f i = some j ∧ j ≤ i ∧ (0 ≤ i → 0 ≤ j) ∧ (i < 0 → j = i) := by
  intro f
  induction f with
  | zero => intro i h1; exact ⟨i, rfl, le_rfl, id, fun _ => rfl⟩
  | succ f ih =>
    intro i h1
    by_cases hc : 0 < i
    · obtain ⟨a, ha⟩ := at_some (l := v) (i := i) (by omega) h1
      cases hl : lt x a with
      | false => exact ⟨i, by simp [down, hc, ha, hl], le_rfl, id, fun _ => rfl⟩
      | true =>
        obtain ⟨j, h2, h3, h4, -⟩ := ih (i - 1) (by omega)
        exact ⟨j, by simp [down, hc, ha, hl, h2], by omega, fun _ => h4 (by omega), fun _ => by omega⟩
    · exact ⟨i, by simp [down, hc], le_rfl, id, fun _ => rfl⟩

theorem walk_safe (lt : C → C → Bool) (v : List C) (x : C) (i : ℤ) (h0 : -1 ≤ i) (h1 : i < v.length) :
    ∃ j, walk lt v x i = some j ∧ -1 ≤ j ∧ j < v.length ∧ (0 ≤ i → 0 ≤ j) ∧
      ((∀ a, at? v ((v.length : ℤ) - 1) = some a → lt a x = false) → i + 1 < v.length → j + 1 < v.length) ∧
      (i = -1 → (∃ a, at? v 0 = some a ∧ lt a x = true) → 0 ≤ j) := by
  obtain ⟨j, h2, h3, h4, h5, -, h6⟩ := up_safe lt v x (v.length - i).toNat i h0 h1
  obtain ⟨k, g1, g2, g3, g4⟩ := down_safe lt v x j.toNat j h4
  refine ⟨k, by rw [walk, h2, Option.bind_some, g1], ?_, by omega, fun _ => g3 (by omega), fun hl hi => ?_, ?_⟩
  · by_cases h : j < 0
    · rw [g4 h]; omega
    · have := g3 (by omega); omega
  · have := h5 hl hi; omega
  · rintro rfl ⟨a, ha, hl⟩
    have hpos : 0 < v.length := by
      unfold at? at ha
      cases v
      · simp at ha
      · simp
    exact g3 (by have := h6 a (by omega) (by omega) ha hl; omega)

theorem relAt_safe (o : Ops C) (v : List C) (x : C) (i : ℤ) (h0 : 0 ≤ i) (h1 : i + 1 < v.length) : ∃ r, relAt o v x i = some r := by
  obtain ⟨a, ha⟩ := at_some (l := v) (i := i) h0 (by omega)
  obtain ⟨b, hb⟩ := at_some (l := v) (i := i + 1) (by omega) h1
  exact ⟨_, by rw [relAt, ha, Option.bind_some, hb]; rfl⟩

theorem axis_safe (o : Ops C) (v : List C) (x : C) (i : ℤ) (m : C) (hm : v.getLast? = some m) (hx : 1 < v.length → o.lt m x = false)
    (hi : 1 < v.length → 0 ≤ i ∧ i + 1 < v.length) :
    ∃ r, axis o v x i = some r ∧ (1 < v.length → 0 ≤ r.1 ∧ r.1 + 1 < v.length) ∧ (v.length = 1 → r.1 = 0) := by
  unfold axis
  split_ifs with h
  · exact ⟨_, rfl, fun hh => by omega, fun _ => rfl⟩
  · have hl : 1 < v.length := by
      have : v.length ≠ 0 := by intro e; rw [List.length_eq_zero_iff] at e; rw [e] at hm; cases hm
      omega
    obtain ⟨h0, h1⟩ := hi hl
    obtain ⟨j, w1, -, -, w4, w5, -⟩ := walk_safe o.lt v x i (by omega) (by omega)
    have hj : j + 1 < v.length := w5 (by
      intro a ha
      rw [at_last hm (by omega)] at ha
      cases ha; exact hx hl) h1
    obtain ⟨r, hr⟩ := relAt_safe o v x j (w4 h0) hj
    exact ⟨(j, r), by rw [w1, Option.bind_some, hr]; rfl, fun _ => ⟨w4 h0, hj⟩, fun hh => absurd hh h⟩

theorem nodesX_safe (o : Ops C) (v : List C) (x : C) (i : ℤ) (h0 : 0 ≤ i) (h1 : i + 1 < v.length) : ∃ r, nodesX o v x i = some r := by
  obtain ⟨a, ha⟩ := at_some (l := v) (i := i) h0 (by omega)
  obtain ⟨b, hb⟩ := at_some (l := v) (i := i + 1) (by omega) h1
  exact ⟨_, by rw [nodesX, ha, Option.bind_some, hb]; rfl⟩

theorem wrapX_range (i n : ℤ) (hn : 2 ≤ n) (h : -1 ≤ i) : 0 ≤ wrapX i n ∧ wrapX i n + 1 < n := by
  unfold wrapX
  split_ifs <;> simp only [] <;> split_ifs <;> omega

theorem sphere_safe (o : Ops C) (v : List C) (x : C) : ∀ (f : Nat) (i : ℤ), 0 ≤ i → i + 1 < v.length →
    ∃ r, sphere o v x f i = some r ∧ 0 ≤ r.1 ∧ r.1 + 1 < v.length := by
  intro f
  induction f with
  | zero =>
    intro i h0 h1
    obtain ⟨n, hn⟩ := nodesX_safe o v x i h0 h1
    rw [sphere, hn, Option.bind_some]
    by_cases hc : (o.lt x n.1 || o.lt n.2 x) = true
    · rw [if_pos hc]
      have hw := wrapX_range (if o.lt n.2 x then i + 1 else i - 1) v.length (by omega) (by split_ifs <;> omega)
      obtain ⟨m, hm⟩ := nodesX_safe o v x _ hw.1 hw.2
      exact ⟨_, by dsimp only; rw [hm]; rfl, hw⟩
    · rw [if_neg hc]; exact ⟨_, rfl, h0, h1⟩
  | succ f ih =>
    intro i h0 h1
    obtain ⟨n, hn⟩ := nodesX_safe o v x i h0 h1
    rw [sphere, hn, Option.bind_some]
    by_cases hc : (o.lt x n.1 || o.lt n.2 x) = true
    · rw [if_pos hc]
      have hw := wrapX_range (if o.lt n.2 x then i + 1 else i - 1) v.length (by omega) (by split_ifs <;> omega)
      exact ih _ hw.1 hw.2
    · rw [if_neg hc]; exact ⟨_, rfl, h0, h1⟩

theorem finish_safe (o : Ops C) (v : List C) (z : C) (j : ℤ) (h0 : 0 ≤ j) (h1 : j + 1 < v.length) :
    ∃ r, finish o v z j = some (j, .ok r) := by
  obtain ⟨r, hr⟩ := relAt_safe o v z j h0 h1
  refine ⟨r, ?_⟩
  unfold finish
  rw [if_neg (by omega)]
  dsimp only
  rw [hr]; rfl

/-- The vertical search. -/
theorem vertical_safe (o : Ops C) (v : List C) (mom5 : Bool) (z : C) (i : ℤ) (hv : 2 ≤ v.length) (h1 : i + 1 < v.length)
    (h0 : 0 ≤ i ∨ i = -1 ∧ ∃ a, at? v 0 = some a ∧ (o.lt a z = true ∨ o.lt z a = true)) :
    ∃ r, vertical o v mom5 z i = some r ∧ -1 ≤ r.1 ∧ r.1 + 1 < v.length ∧ (mom5 = false → 0 ≤ i → 0 ≤ r.1) ∧
      (∀ q, r.2 = .ok q → 0 ≤ r.1 ∨ (r.1 = -1 ∧ mom5 = true)) := by
  obtain ⟨last, hlast⟩ := at_some (l := v) (i := (v.length : ℤ) - 1) (by omega) (by omega)
  obtain ⟨first, hfirst⟩ := at_some (l := v) (i := 0) (by omega) (by omega)
  obtain ⟨second, hsecond⟩ := at_some (l := v) (i := 1) (by omega) (by omega)
  have hi : -1 ≤ i := by omega
  have stop : ∀ e : Err, ∃ r, (some (i, Except.error e) : Option (ℤ × Except Err C)) = some r ∧ -1 ≤ r.1 ∧ r.1 + 1 < v.length ∧
      (mom5 = false → 0 ≤ i → 0 ≤ r.1) ∧ (∀ q, r.2 = .ok q → 0 ≤ r.1 ∨ (r.1 = -1 ∧ mom5 = true)) :=
    fun e => ⟨_, rfl, hi, h1, fun _ h => h, fun _ h => by cases h⟩
  have go : ∀ lt : C → C → Bool, lt last z = false → (i = -1 → lt first z = true) → ∃ r, ((walk lt v z i).bind fun j => finish o v z j) = some r ∧
      -1 ≤ r.1 ∧ r.1 + 1 < v.length ∧ (mom5 = false → 0 ≤ i → 0 ≤ r.1) ∧ (∀ q, r.2 = .ok q → 0 ≤ r.1 ∨ (r.1 = -1 ∧ mom5 = true)) := by
    intro lt hl hf
    obtain ⟨j, w1, -, -, w4, w5, w6⟩ := walk_safe lt v z i hi (by omega)
    have hj1 : j + 1 < v.length := w5 (by intro a ha; rw [hlast] at ha; cases ha; exact hl) h1
    have hj0 : 0 ≤ j := by
      rcases h0 with h | ⟨h, -⟩
      · exact w4 h
      · exact w6 h ⟨first, hfirst, hf h⟩
    obtain ⟨r, hr⟩ := finish_safe o v z j hj0 hj1
    exact ⟨_, by rw [w1, Option.bind_some, hr], by dsimp only; omega, hj1, fun _ _ => hj0, fun _ _ => .inl hj0⟩
  have strict : i = -1 → o.lt first z = true ∨ o.lt z first = true := by
    intro h
    rcases h0 with h' | ⟨-, a, ha, hh⟩
    · omega
    · rw [hfirst] at ha; cases ha; exact hh
  unfold vertical
  rw [hlast, Option.bind_some, hfirst, Option.bind_some]
  split_ifs with c1 c2 c3 c4 c5 c6
  · rw [hsecond, Option.bind_some]
    split_ifs
    · refine ⟨_, rfl, by dsimp only; omega, by dsimp only; omega, ?_, fun _ _ => .inr ⟨rfl, ?_⟩⟩
      · intro hm; rw [hm, Bool.and_false] at c2; cases c2
      · exact (Bool.and_eq_true _ _ ▸ c2).2
    · exact stop _
  · exact stop _
  · exact stop _
  · exact go o.lt (by simpa using c4) (fun h => by
      rcases strict h with hh | hh
      · exact hh
      · exact absurd hh c3)
  · exact stop _
  · exact stop _
  · exact go (fun a b => o.lt b a) (by simpa using c6) (fun h => by
      rcases strict h with hh | hh
      · exact absurd hh c5
      · exact hh)

theorem mapM_safe {A B : Type} (f : A → Option B) : ∀ l : List A, (∀ a ∈ l, ∃ b, f a = some b) → ∃ l', l.mapM f = some l' ∧ l'.length = l.length := by
  intro l
  induction l with
  | nil => intro _; exact ⟨[], rfl, rfl⟩
  | cons a l ih =>
    intro h
    obtain ⟨b, hb⟩ := h a List.mem_cons_self
    obtain ⟨l', h1, h2⟩ := ih fun x hx => h x (List.mem_cons_of_mem _ hx)
    exact ⟨b :: l', by rw [List.mapM_cons, hb, h1]; rfl, by simp [h2]⟩

theorem depthAt_safe (g : Grid C) (hg : Complete g) (hs : g.s = true) (t k j i : ℤ) (ht : 0 ≤ t ∧ t < g.time.length) (hk : 0 ≤ k ∧ k < g.zdim)
    (hj : 0 ≤ j ∧ j < g.lat.length) (hi : 0 ≤ i ∧ i < g.lon.length) : ∃ a, depthAt g t k j i = some a := by
  unfold depthAt
  rw [if_pos ⟨ht.1, ht.2, hk.1, hk.2, hj.1, hj.2, hi.1, hi.2⟩]
  obtain ⟨-, -, hd⟩ := hg.depthS hs
  obtain ⟨T, hT0, hT1, hT2⟩ : ∃ T : ℤ, (if g.z4d then t else 0) = T ∧ 0 ≤ T ∧ T + 1 ≤ ((if g.z4d then g.time.length else 1 : Nat) : ℤ) := by
    cases g.z4d
    · exact ⟨0, by simp, le_rfl, by simp⟩
    · exact ⟨t, by simp, ht.1, by have := ht.2; simp; omega⟩
  rw [hT0]
  have e1 : 0 ≤ T * g.zdim + k := by have := mul_nonneg hT1 (Int.natCast_nonneg g.zdim); linarith [hk.1]
  have e2 : T * g.zdim + k + 1 ≤ ((if g.z4d then g.time.length else 1 : Nat) : ℤ) * g.zdim := by
    have := mul_le_mul_of_nonneg_right hT2 (Int.natCast_nonneg g.zdim)
    linarith [hk.2]
  have e3 : 0 ≤ (T * g.zdim + k) * g.lat.length + j := by have := mul_nonneg e1 (Int.natCast_nonneg g.lat.length); linarith [hj.1]
  have e4 : (T * g.zdim + k) * g.lat.length + j + 1 ≤ ((if g.z4d then g.time.length else 1 : Nat) : ℤ) * g.zdim * g.lat.length := by
    have := mul_le_mul_of_nonneg_right e2 (Int.natCast_nonneg g.lat.length)
    linarith [hj.2]
  apply at_some
  · have := mul_nonneg e3 (Int.natCast_nonneg g.lon.length); linarith [hi.1]
  · rw [hd]
    have := mul_le_mul_of_nonneg_right e4 (Int.natCast_nonneg g.lon.length)
    push_cast at this ⊢
    linarith [hi.2]

theorem cornersAt_safe (o : Ops C) (g : Grid C) (hg : Complete g) (hs : g.s = true) (xi yi t k : ℤ) (xsi eta : C) (ht : 0 ≤ t ∧ t < g.time.length)
    (hk : 0 ≤ k ∧ k < g.zdim) (hy : 0 ≤ yi ∧ yi + 1 < g.lat.length) (hx : 0 ≤ xi ∧ xi + 1 < g.lon.length) :
    ∃ a, cornersAt o g xi yi t k xsi eta = some a := by
  obtain ⟨a, ha⟩ := depthAt_safe g hg hs t k yi xi ht hk ⟨hy.1, by omega⟩ ⟨hx.1, by omega⟩
  obtain ⟨b, hb⟩ := depthAt_safe g hg hs t k yi (xi + 1) ht hk ⟨hy.1, by omega⟩ ⟨by omega, hx.2⟩
  obtain ⟨c, hc⟩ := depthAt_safe g hg hs t k (yi + 1) (xi + 1) ht hk ⟨by omega, hy.2⟩ ⟨by omega, hx.2⟩
  obtain ⟨d, hd⟩ := depthAt_safe g hg hs t k (yi + 1) xi ht hk ⟨by omega, hy.2⟩ ⟨hx.1, by omega⟩
  exact ⟨_, by rw [cornersAt, ha, Option.bind_some, hb, Option.bind_some, hc, Option.bind_some, hd]; rfl⟩

theorem column_safe (o : Ops C) (g : Grid C) (hg : Complete g) (hs : g.s = true) (bgrid : Bool) (ix : Idx) (xsi eta time t0 t1 : C)
    (ht : 0 ≤ ix.ti ∧ ix.ti < g.time.length) (hy : 0 ≤ ix.yi ∧ ix.yi + 1 < g.lat.length) (hx : 0 ≤ ix.xi ∧ ix.xi + 1 < g.lon.length) :
    ∃ v, column o g bgrid ix xsi eta time t0 t1 = some v ∧ v.length = g.zdim := by
  unfold column
  dsimp only
  obtain ⟨v, h1, h2⟩ := mapM_safe (fun (k : Nat) =>
    if g.z4d then
      (cornersAt o g ix.xi ix.yi ix.ti k (if bgrid then o.one else xsi) (if bgrid then o.one else eta)).bind fun a =>
        (cornersAt o g ix.xi ix.yi (if ix.ti < (g.time.length : ℤ) - 1 then ix.ti + 1 else ix.ti) k (if bgrid then o.one else xsi)
          (if bgrid then o.one else eta)).map fun b => o.tmix a b time t0 t1
    else cornersAt o g ix.xi ix.yi ix.ti k (if bgrid then o.one else xsi) (if bgrid then o.one else eta)) (List.range g.zdim) (by
      intro k hk
      have hk' := List.mem_range.mp hk
      obtain ⟨a, ha⟩ := cornersAt_safe o g hg hs ix.xi ix.yi ix.ti k (if bgrid then o.one else xsi) (if bgrid then o.one else eta) ht
        ⟨by omega, by omega⟩ hy hx
      by_cases hz : g.z4d = true
      · rw [if_pos hz]
        obtain ⟨b, hb⟩ := cornersAt_safe o g hg hs ix.xi ix.yi (if ix.ti < (g.time.length : ℤ) - 1 then ix.ti + 1 else ix.ti) k
          (if bgrid then o.one else xsi) (if bgrid then o.one else eta) (by split_ifs <;> omega) ⟨by omega, by omega⟩ hy hx
        exact ⟨_, by rw [ha, Option.bind_some, hb]; rfl⟩
      · rw [if_neg hz]; exact ⟨a, ha⟩)
  exact ⟨v, h1, by rw [h2, List.length_range]⟩

/-- Like `InRange`, but the level may be -1. -/
structure Loose (g : Grid C) (ix : Idx) : Prop where
  x : 1 < g.lon.length → 0 ≤ ix.xi ∧ ix.xi + 1 < g.lon.length
  y : 1 < g.lat.length → 0 ≤ ix.yi ∧ ix.yi + 1 < g.lat.length
  z : 1 < g.zdim → -1 ≤ ix.zi ∧ ix.zi + 1 < g.zdim
  t : ix.ti < g.time.length

/-- The level is not -1, or the position is not at the first level. -/
def LevelOk (o : Ops C) (g : Grid C) (z : C) (zi : ℤ) : Prop :=
  1 < g.zdim → 0 ≤ zi ∨ (g.s = false ∧ ∃ a, at? g.depth 0 = some a ∧ (o.lt a z = true ∨ o.lt z a = true))

/-- Indices of a cell. -/
structure Cell (g : Grid C) (ixg : Indexing) (ix : Idx) : Prop where
  x : 0 ≤ ix.xi ∧ (ix.xi + 1 < g.lon.length ∨ g.lon.length = 1 ∧ ix.xi = 0)
  y : 0 ≤ ix.yi ∧ (ix.yi + 1 < g.lat.length ∨ g.lat.length = 1 ∧ ix.yi = 0)
  z : 1 < g.zdim → (0 ≤ ix.zi ∨ ix.zi = -1 ∧ ixg = .mom5) ∧ ix.zi + 1 < g.zdim

theorem searchX_safe (o : Ops C) (g : Grid C) (hg : Complete g) (hc : g.curv = none) (x : C) (i : ℤ)
    (hx : ¬ (g.zonalPeriodic = false ∧ 1 < g.lon.length ∧ (o.lt x g.lonMin || o.lt g.lonMax x) = true))
    (hi : 1 < g.lon.length → 0 ≤ i ∧ i + 1 < g.lon.length) :
    ∃ r, searchX o g x i = some r ∧ 0 ≤ r.1 ∧ (r.1 + 1 < g.lon.length ∨ g.lon.length = 1 ∧ r.1 = 0) := by
  unfold searchX
  split_ifs with h1 h2
  · exact ⟨_, rfl, le_rfl, .inr ⟨h1, rfl⟩⟩
  · have hl : 1 < g.lon.length := by
      have : g.lon.length ≠ 0 := by intro e; rw [List.length_eq_zero_iff] at e; have := hg.lonMax hc; rw [e] at this; cases this
      omega
    obtain ⟨r, e, r0, r1⟩ := sphere_safe o g.lon x 10000 i (hi hl).1 (hi hl).2
    exact ⟨r, e, r0, .inl r1⟩
  · have hp : g.zonalPeriodic = false := by
      cases h : g.zonalPeriodic
      · rfl
      · exact absurd (hg.noHalo hc h) h2
    obtain ⟨r, e, r0, r1⟩ := axis_safe o g.lon x i g.lonMax (hg.lonMax hc) (by
      intro hl
      by_contra hn
      exact hx ⟨hp, hl, by simp [Bool.eq_true_of_not_eq_false hn]⟩) hi
    have hl : 1 < g.lon.length := by
      have : g.lon.length ≠ 0 := by intro e; rw [List.length_eq_zero_iff] at e; have := hg.lonMax hc; rw [e] at this; cases this
      omega
    exact ⟨_, by rw [e]; rfl, (r0 hl).1, .inl (r0 hl).2⟩

theorem searchZ_safe (o : Ops C) (g : Grid C) (hg : Complete g) (ixg : Indexing) (bgrid : Bool) (z : C) (ix : Idx) (xsi eta time t0 t1 : C)
    (hx : 0 ≤ ix.xi ∧ (ix.xi + 1 < g.lon.length ∨ g.lon.length = 1 ∧ ix.xi = 0)) (hy : 0 ≤ ix.yi ∧ (ix.yi + 1 < g.lat.length ∨ g.lat.length = 1 ∧ ix.yi = 0))
    (hz : 1 < g.zdim → -1 ≤ ix.zi ∧ ix.zi + 1 < g.zdim) (ht : 0 ≤ ix.ti ∧ ix.ti < g.time.length) (hl : LevelOk o g z ix.zi) :
    ∃ r, searchZ o g ixg bgrid z ix xsi eta time t0 t1 = some r ∧ (1 < g.zdim → -1 ≤ r.1 ∧ r.1 + 1 < g.zdim) ∧ (ixg ≠ .mom5 → 1 < g.zdim → 0 ≤ ix.zi → 0 ≤ r.1) ∧
      (∀ q, r.2 = .ok q → 1 < g.zdim → 0 ≤ r.1 ∨ r.1 = -1 ∧ ixg = .mom5) := by
  unfold searchZ
  split_ifs with h1 h2
  · obtain ⟨d1, d2, -⟩ := hg.depthS h2
    obtain ⟨v, e, hv⟩ := column_safe o g hg h2 bgrid ix xsi eta time t0 t1 ht ⟨hy.1, by omega⟩ ⟨hx.1, by omega⟩
    have h0 : 0 ≤ ix.zi := by
      rcases hl h1 with h | ⟨h, -⟩
      · exact h
      · rw [h2] at h; cases h
    obtain ⟨r, e2, -, r2, r3, r4⟩ := vertical_safe o v false z ix.zi (by omega) (by have := (hz h1).2; omega) (.inl h0)
    refine ⟨r, by rw [e, Option.bind_some, e2], fun _ => ⟨by have := r3 rfl h0; omega, by omega⟩, fun _ _ _ => r3 rfl h0, fun q _ _ => .inl (r3 rfl h0)⟩
  · have hs : g.s = false := by simpa using h2
    have hd := hg.depthZ hs
    obtain ⟨r, e2, r1, r2, r3, r4⟩ := vertical_safe o g.depth (decide (ixg = .mom5)) z ix.zi (by omega) (by have := (hz h1).2; omega) (by
      rcases hl h1 with h | ⟨-, h⟩
      · exact .inl h
      · rcases lt_or_ge ix.zi 0 with h' | h'
        · exact .inr ⟨by have := (hz h1).1; omega, h⟩
        · exact .inl h')
    refine ⟨r, e2, fun _ => ⟨r1, by omega⟩, fun hm _ h0 => r3 (by simpa using hm) h0, fun q hq _ => ?_⟩
    rcases r4 q hq with h | ⟨h, h'⟩
    · exact .inl h
    · exact .inr ⟨h, of_decide_eq_true h'⟩
  · exact ⟨_, rfl, fun h => absurd h h1, fun _ h => absurd h h1, fun _ _ h => absurd h h1⟩

theorem searchRect_safe (o : Ops C) (g : Grid C) (hg : Complete g) (hc : g.curv = none) (ixg : Indexing) (bgrid : Bool) (x y z time t0 t1 : C) (ix : Idx) (h : Loose g ix)
    (ht : 0 ≤ ix.ti) (hl : LevelOk o g z ix.zi) :
    ∃ r, searchRect o g ixg bgrid x y z time t0 t1 ix = some r ∧ Loose g r.1 ∧ r.1.ti = ix.ti ∧ (ixg ≠ .mom5 → 1 < g.zdim → 0 ≤ ix.zi → 0 ≤ r.1.zi) ∧
      (∀ q, r.2 = .ok q → Cell g ixg r.1) := by
  unfold searchRect
  by_cases hx : g.zonalPeriodic = false ∧ 1 < g.lon.length ∧ (o.lt x g.lonMin || o.lt g.lonMax x) = true
  · rw [if_pos hx]
    exact ⟨_, rfl, h, rfl, fun _ _ hh => hh, fun _ hh => by cases hh⟩
  rw [if_neg hx]
  by_cases hy : 1 < g.lat.length ∧ (o.lt y g.latMin || o.lt g.latMax y) = true
  · rw [if_pos hy]
    exact ⟨_, rfl, h, rfl, fun _ _ hh => hh, fun _ hh => by cases hh⟩
  rw [if_neg hy]
  obtain ⟨rx, ex, x0, x1⟩ := searchX_safe o g hg hc x ix.xi hx h.x
  rw [ex, Option.bind_some]
  dsimp only
  cases hxs : rx.2 with
  | none =>
    dsimp only
    exact ⟨_, rfl, ⟨fun hh => ⟨x0, by dsimp only; omega⟩, h.y, h.z, h.t⟩, rfl, fun _ _ hh => hh, fun _ hh => by cases hh⟩
  | some xsi =>
    dsimp only
    obtain ⟨ry, ey, y0, y1⟩ := axis_safe o g.lat y ix.yi g.latMax (hg.latMax hc) (by
      intro hl
      by_contra hn
      exact hy ⟨hl, by simp [Bool.eq_true_of_not_eq_false hn]⟩) h.y
    have hylen : g.lat.length ≠ 0 := by intro e; rw [List.length_eq_zero_iff] at e; have := hg.latMax hc; rw [e] at this; cases this
    have yc : 0 ≤ ry.1 ∧ (ry.1 + 1 < g.lat.length ∨ g.lat.length = 1 ∧ ry.1 = 0) := by
      by_cases h1 : g.lat.length = 1
      · exact ⟨by rw [y1 h1], .inr ⟨h1, y1 h1⟩⟩
      · exact ⟨(y0 (by omega)).1, .inl (y0 (by omega)).2⟩
    rw [ey, Option.bind_some]
    obtain ⟨rz, ez, z0, z1, z2⟩ := searchZ_safe o g hg ixg bgrid z { ix with xi := rx.1, yi := ry.1 } xsi ry.2 time t0 t1 ⟨x0, x1⟩ yc h.z ⟨ht, h.t⟩ hl
    rw [ez, Option.bind_some]
    have loose : Loose g { ix with xi := rx.1, yi := ry.1, zi := rz.1 } := ⟨fun hh => ⟨x0, by dsimp only; omega⟩, y0, z0, h.t⟩
    cases hzs : rz.2 with
    | error e =>
      dsimp only
      exact ⟨_, rfl, loose, rfl, z1, fun _ hh => by cases hh⟩
    | ok zeta =>
      dsimp only
      split_ifs
      · exact ⟨_, rfl, loose, rfl, z1, fun _ hh => by cases hh⟩
      · exact ⟨_, rfl, loose, rfl, z1, fun _ _ => ⟨⟨x0, x1⟩, yc, fun h1 => ⟨z2 zeta hzs h1, (z0 h1).2⟩⟩⟩

theorem node2_safe (g : Grid C) (v : List C) (hv : v.length = g.lat.length * g.lon.length) (j i : ℤ) (hj : 0 ≤ j ∧ j < g.lat.length) (hi : 0 ≤ i ∧ i < g.lon.length) :
    ∃ a, node2 g v j i = some a := by
  obtain ⟨j, rfl⟩ := Int.eq_ofNat_of_zero_le hj.1
  obtain ⟨i, rfl⟩ := Int.eq_ofNat_of_zero_le hi.1
  refine at_some (by positivity) ?_
  rw [hv]
  have h1 : (j + 1) * g.lon.length ≤ g.lat.length * g.lon.length := Nat.mul_le_mul_right _ (by omega)
  rw [Nat.add_mul] at h1
  have h2 : i < g.lon.length := by omega
  have : j * g.lon.length + i < g.lat.length * g.lon.length := by omega
  exact_mod_cast this

theorem corners2_safe (g : Grid C) (v : List C) (hv : v.length = g.lat.length * g.lon.length) (xi yi : ℤ) (hx : 0 ≤ xi ∧ xi + 1 < g.lon.length)
    (hy : 0 ≤ yi ∧ yi + 1 < g.lat.length) : ∃ l, corners2 g v xi yi = some l := by
  obtain ⟨l, h, -⟩ := mapM_safe (id : Option C → Option C) [node2 g v yi xi, node2 g v yi (xi + 1), node2 g v (yi + 1) (xi + 1), node2 g v (yi + 1) xi] (by
    intro a ha
    simp only [List.mem_cons, List.not_mem_nil, or_false] at ha
    rcases ha with rfl | rfl | rfl | rfl <;> exact node2_safe g v hv _ _ ⟨by omega, by omega⟩ ⟨by omega, by omega⟩)
  exact ⟨l, h⟩

theorem reconnect_range (n m : ℤ) (h2 : 2 ≤ n) (h3 : 2 ≤ m) (xi yi : ℤ) :
    (0 ≤ (Curvilinear.reconnect n m false xi yi).1 ∧ (Curvilinear.reconnect n m false xi yi).1 + 1 < n) ∧
      (0 ≤ (Curvilinear.reconnect n m false xi yi).2 ∧ (Curvilinear.reconnect n m false xi yi).2 + 1 < m) := by
  unfold Curvilinear.reconnect
  simp only [cond_false]
  have h1 : ∀ a : ℤ, 0 ≤ (if (if a < 0 then 0 else a) > n - 2 then n - 2 else (if a < 0 then 0 else a)) ∧
      (if (if a < 0 then 0 else a) > n - 2 then n - 2 else (if a < 0 then 0 else a)) + 1 < n := by
    intro a
    by_cases h : a < 0
    · rw [if_pos h]; split_ifs <;> omega
    · rw [if_neg h]; split_ifs <;> omega
  by_cases hy : (if yi < 0 then 0 else yi) > m - 2
  · rw [if_pos hy]
    exact ⟨h1 xi, by dsimp only; omega, by dsimp only; omega⟩
  · rw [if_neg hy]
    refine ⟨h1 xi, ?_⟩
    dsimp only
    split_ifs at hy ⊢ <;> omega

theorem moveCell_range (o : Ops C) (g : Grid C) (hs : g.spherical = false) (h2 : 2 ≤ g.lon.length) (h3 : 2 ≤ g.lat.length) (xsi eta : C) (xi yi : ℤ) :
    (0 ≤ (moveCell o g xsi eta xi yi).1 ∧ (moveCell o g xsi eta xi yi).1 + 1 < g.lon.length) ∧
      (0 ≤ (moveCell o g xsi eta xi yi).2 ∧ (moveCell o g xsi eta xi yi).2 + 1 < g.lat.length) := by
  unfold moveCell
  rw [hs]
  exact reconnect_range _ _ (by omega) (by omega) _ _

theorem curvLoop_safe (o : Ops C) (g : Grid C) (lons lats : List C) (hs : g.spherical = false) (h2 : 2 ≤ g.lon.length) (h3 : 2 ≤ g.lat.length)
    (hlon : lons.length = g.lat.length * g.lon.length) (hlat : lats.length = g.lat.length * g.lon.length) (x y : C) : ∀ (f : Nat) (xi yi : ℤ) (xsi eta : C),
    (0 ≤ xi ∧ xi + 1 < g.lon.length) → (0 ≤ yi ∧ yi + 1 < g.lat.length) →
    ∃ r, curvLoop o g lons lats x y f xi yi xsi eta = some r ∧ (0 ≤ r.1.1 ∧ r.1.1 + 1 < g.lon.length) ∧ (0 ≤ r.1.2 ∧ r.1.2 + 1 < g.lat.length) := by
  intro f
  induction f with
  | zero =>
    intro xi yi xsi eta hx hy
    obtain ⟨px, ex⟩ := corners2_safe g lons hlon xi yi hx hy
    obtain ⟨py, ey⟩ := corners2_safe g lats hlat xi yi hx hy
    rw [curvLoop]
    by_cases hc : searching o xsi eta = true
    · rw [if_pos hc, ex, Option.bind_some, ey, Option.bind_some]
      dsimp only
      split_ifs
      · exact ⟨_, rfl, hx, hy⟩
      · exact ⟨_, rfl, hx, hy⟩
      · exact ⟨_, rfl, moveCell_range o g hs h2 h3 _ _ xi yi⟩
    · rw [if_neg hc]
      exact ⟨_, rfl, hx, hy⟩
  | succ f ih =>
    intro xi yi xsi eta hx hy
    obtain ⟨px, ex⟩ := corners2_safe g lons hlon xi yi hx hy
    obtain ⟨py, ey⟩ := corners2_safe g lats hlat xi yi hx hy
    rw [curvLoop]
    by_cases hc : searching o xsi eta = true
    · rw [if_pos hc, ex, Option.bind_some, ey, Option.bind_some]
      dsimp only
      split_ifs
      · exact ⟨_, rfl, hx, hy⟩
      · exact ⟨_, rfl, hx, hy⟩
      · have := moveCell_range o g hs h2 h3 (o.solve g.spherical x y px py xsi eta).1 (o.solve g.spherical x y px py xsi eta).2 xi yi
        exact ih _ _ _ _ this.1 this.2
    · rw [if_neg hc]
      exact ⟨_, rfl, hx, hy⟩

theorem mapM_none {A B : Type} (f : A → Option B) : ∀ l : List A, (∃ a ∈ l, f a = none) → l.mapM f = none := by
  intro l
  induction l with
  | nil => rintro ⟨a, h, -⟩; cases h
  | cons b l ih =>
    rintro ⟨a, h, e⟩
    rw [List.mapM_cons]
    rcases List.mem_cons.mp h with rfl | h
    · rw [e]; rfl
    · rw [ih ⟨a, h, e⟩]
      cases f b <;> rfl

theorem curvLoop_outside (o : Ops C) (g : Grid C) (lons lats : List C) (hlon : lons.length = g.lat.length * g.lon.length) (x y : C) (f : Nat) (xi yi : ℤ) (xsi eta : C)
    (hs : searching o xsi eta = true) (hx : 0 ≤ xi) (hy : yi + 1 = g.lat.length) : curvLoop o g lons lats x y f xi yi xsi eta = none := by
  have h : corners2 g lons xi yi = none := by
    refine mapM_none _ _ ⟨node2 g lons (yi + 1) xi, by simp, ?_⟩
    unfold node2 at?
    rw [hy]
    obtain ⟨i, rfl⟩ := Int.eq_ofNat_of_zero_le hx
    rw [if_neg (not_lt.mpr (by positivity))]
    refine List.getElem?_eq_none ?_
    rw [hlon]
    have : ((g.lat.length : ℤ) * g.lon.length + Int.ofNat i).toNat = g.lat.length * g.lon.length + i := by
      have : (g.lat.length : ℤ) * g.lon.length + Int.ofNat i = ((g.lat.length * g.lon.length + i : Nat) : ℤ) := by push_cast; rfl
      rw [this]; rfl
    omega
  cases f <;> rw [curvLoop, if_pos hs, h] <;> rfl

theorem rangeX_safe (o : Ops C) (g : Grid C) (lons : List C) (h2 : 2 ≤ g.lon.length) (h3 : 2 ≤ g.lat.length)
    (hlon : lons.length = g.lat.length * g.lon.length) (x : C) : ∃ b, rangeX o g lons x = some b := by
  unfold rangeX
  split_ifs
  · obtain ⟨a, ha⟩ := node2_safe g lons hlon 0 0 ⟨le_rfl, by omega⟩ ⟨le_rfl, by omega⟩
    obtain ⟨b, hb⟩ := node2_safe g lons hlon 0 ((g.lon.length : ℤ) - 1) ⟨le_rfl, by omega⟩ ⟨by omega, by omega⟩
    exact ⟨_, by rw [ha, Option.bind_some, hb]; rfl⟩
  · exact ⟨_, rfl⟩

theorem searchCurv_safe (o : Ops C) (g : Grid C) (hg : Complete g) (v : List C × List C) (hc : g.curv = some v) (ixg : Indexing) (bgrid : Bool) (x y z time t0 t1 : C) (ix : Idx)
    (h : Loose g ix) (ht : 0 ≤ ix.ti) (hl : LevelOk o g z ix.zi) :
    ∃ r, searchCurv o g v.1 v.2 ixg bgrid x y z time t0 t1 ix = some r ∧ Loose g r.1 ∧ r.1.ti = ix.ti ∧ (ixg ≠ .mom5 → 1 < g.zdim → 0 ≤ ix.zi → 0 ≤ r.1.zi) ∧
      (∀ q, r.2 = .ok q → Cell g ixg r.1) := by
  obtain ⟨hs, h2, h3, hlon, hlat⟩ := hg.nodes v hc
  unfold searchCurv
  obtain ⟨out, eo⟩ := rangeX_safe o g v.1 h2 h3 hlon x
  rw [eo, Option.bind_some]
  by_cases ho : (out || o.lt y g.latMin || o.lt g.latMax y) = true
  · rw [if_pos ho]
    exact ⟨_, rfl, h, rfl, fun _ _ hh => hh, fun _ hh => by cases hh⟩
  rw [if_neg ho]
  obtain ⟨r, e, rx, ry⟩ := curvLoop_safe o g v.1 v.2 hs h2 h3 hlon hlat x y 1000000 ix.xi ix.yi o.start o.start (h.x h2) (h.y h3)
  rw [e, Option.bind_some]
  dsimp only
  have loose : Loose g { ix with xi := r.1.1, yi := r.1.2 } := ⟨fun _ => rx, fun _ => ry, h.z, h.t⟩
  cases hr : r.2 with
  | none => exact ⟨_, rfl, loose, rfl, fun _ _ hh => hh, fun _ hh => by cases hh⟩
  | some p =>
    dsimp only
    by_cases hn : (o.isNan p.1 || o.isNan p.2) = true
    · rw [if_pos hn]
      exact ⟨_, rfl, loose, rfl, fun _ _ hh => hh, fun _ hh => by cases hh⟩
    rw [if_neg hn]
    obtain ⟨rz, ez, z0, z1, z2⟩ := searchZ_safe o g hg ixg bgrid z { ix with xi := r.1.1, yi := r.1.2 } (clamp o p.1) (clamp o p.2) time t0 t1 ⟨rx.1, .inl rx.2⟩
      ⟨ry.1, .inl ry.2⟩ h.z ⟨ht, h.t⟩ hl
    rw [ez, Option.bind_some]
    have loose : Loose g { ix with xi := r.1.1, yi := r.1.2, zi := rz.1 } := ⟨fun _ => rx, fun _ => ry, z0, h.t⟩
    cases hzs : rz.2 with
    | error e => exact ⟨_, rfl, loose, rfl, z1, fun _ hh => by cases hh⟩
    | ok zeta =>
      dsimp only
      split_ifs
      · exact ⟨_, rfl, loose, rfl, z1, fun _ hh => by cases hh⟩
      · exact ⟨_, rfl, loose, rfl, z1, fun _ _ => ⟨⟨rx.1, .inl rx.2⟩, ⟨ry.1, .inl ry.2⟩, fun h1 => ⟨z2 zeta hzs h1, (z0 h1).2⟩⟩⟩

theorem searchIndices_safe (o : Ops C) (g : Grid C) (hg : Complete g) (ixg : Indexing) (bgrid : Bool) (x y z time t0 t1 : C) (ix : Idx) (h : Loose g ix)
    (ht : 0 ≤ ix.ti) (hl : LevelOk o g z ix.zi) :
    ∃ r, searchIndices o g ixg bgrid x y z time t0 t1 ix = some r ∧ Loose g r.1 ∧ r.1.ti = ix.ti ∧ (ixg ≠ .mom5 → 1 < g.zdim → 0 ≤ ix.zi → 0 ≤ r.1.zi) ∧
      (∀ q, r.2 = .ok q → Cell g ixg r.1) := by
  unfold searchIndices
  cases hc : g.curv with
  | none => exact searchRect_safe o g hg hc ixg bgrid x y z time t0 t1 ix h ht hl
  | some v => exact searchCurv_safe o g hg v hc ixg bgrid x y z time t0 t1 ix h ht hl

theorem timeIndex_safe (o : Ops C) (tv : List C) (htv : tv ≠ []) (periodic : Bool) : ∀ (f : Nat) (t : C) (ti : ℤ), ti < tv.length →
    ∃ r, timeIndex o tv periodic f t ti = some r ∧ r.1 < tv.length ∧ (∀ q, r.2 = .ok q → 0 ≤ r.1) := by
  have hpos : 0 < tv.length := List.length_pos_of_ne_nil htv
  intro f
  induction f with
  | zero => intro t ti h; exact ⟨_, rfl, h, fun _ hh => by cases hh⟩
  | succ f ih =>
    intro t ti h
    have loops : ∀ (t : C) (ti : ℤ), 0 ≤ ti → ti < tv.length → ∃ r, ((walk o.lt tv t ti).map fun j => (j, (.ok t : Except Err C))) = some r ∧
        r.1 < tv.length ∧ (∀ q, r.2 = .ok q → 0 ≤ r.1) := by
      intro t ti h0 h1
      obtain ⟨j, e, -, j1, j0, -⟩ := walk_safe o.lt tv t ti (by omega) h1
      exact ⟨_, by rw [e]; rfl, j1, fun _ _ => j0 h0⟩
    have go : ∀ (t : C) (ti : ℤ), ti < tv.length → ∃ r, ((timeIndex o tv periodic f t ti).bind fun p => match p.2 with
        | .error e => some (p.1, .error e)
        | .ok t => (walk o.lt tv t p.1).map fun j => (j, (.ok t : Except Err C))) = some r ∧ r.1 < tv.length ∧ (∀ q, r.2 = .ok q → 0 ≤ r.1) := by
      intro t ti h1
      obtain ⟨r, e, r1, r0⟩ := ih t ti h1
      rw [e, Option.bind_some]
      cases hr : r.2 with
      | error e => exact ⟨_, rfl, r1, fun _ hh => by cases hh⟩
      | ok t' => exact loops t' r.1 (r0 t' hr) r1
    rw [timeIndex]
    dsimp only
    have hti : 0 ≤ (if ti < 0 then 0 else ti) ∧ (if ti < 0 then 0 else ti) < (tv.length : ℤ) := by split_ifs <;> omega
    cases periodic with
    | false => exact loops t _ hti.1 hti.2
    | true =>
      obtain ⟨a, ha⟩ := at_some (l := tv) (i := 0) le_rfl (by omega)
      obtain ⟨b, hb⟩ := at_some (l := tv) (i := (tv.length : ℤ) - 1) (by omega) (by omega)
      rw [if_pos rfl, ha, Option.bind_some]
      by_cases h1 : o.lt t a = true
      · rw [if_pos h1]; exact go _ _ (by omega)
      · rw [if_neg h1, hb, Option.bind_some]
        by_cases h2 : o.lt b t = true
        · rw [if_pos h2]; exact go _ _ (by omega)
        · rw [if_neg h2]; exact loops t _ hti.1 hti.2

theorem locate_safe (o : Ops C) (g : Grid C) (hg : Complete g) (f : Fld α) (ixg : Indexing) (bgrid : Bool) (depth : Nat) (x y z t : C) (ix : Idx) (h : Loose g ix)
    (hl : LevelOk o g z ix.zi) :
    ∃ r, locate o g f ixg bgrid depth x y z t ix = some r ∧ Loose g r.1 ∧ (ixg ≠ .mom5 → 1 < g.zdim → 0 ≤ ix.zi → 0 ≤ r.1.zi) ∧
      (∀ p, r.2 = .ok p → Cell g ixg r.1 ∧ 0 ≤ r.1.ti ∧ (p.two = true → r.1.ti + 1 < g.time.length)) := by
  have hpos : 0 < g.time.length := List.length_pos_of_ne_nil hg.time
  obtain ⟨a, ha⟩ := at_some (l := g.time) (i := 0) le_rfl (by omega)
  obtain ⟨b, hb⟩ := at_some (l := g.time) (i := (g.time.length : ℤ) - 1) (by omega) (by omega)
  unfold locate
  obtain ⟨early, he⟩ : ∃ early, (if f.periodic = false ∧ f.extrapolate = false then
    (at? g.time 0).bind fun a => if o.lt t a then some true else (at? g.time ((g.time.length : ℤ) - 1)).map fun b => o.lt b t
   else some false) = some early := by
    split_ifs
    · rw [ha, Option.bind_some]
      split_ifs
      · exact ⟨_, rfl⟩
      · exact ⟨_, by rw [hb]; rfl⟩
    · exact ⟨_, rfl⟩
  rw [he, Option.bind_some]
  cases early with
  | true => exact ⟨_, rfl, h, fun _ _ hh => hh, fun _ hh => by cases hh⟩
  | false =>
    rw [if_neg (by simp)]
    obtain ⟨rt, et, t1, t0⟩ := timeIndex_safe o g.time hg.time f.periodic depth t ix.ti h.t
    rw [et, Option.bind_some]
    dsimp only
    cases hr : rt.2 with
    | error e => exact ⟨_, rfl, ⟨h.x, h.y, h.z, t1⟩, fun _ _ hh => hh, fun _ hh => by cases hh⟩
    | ok t' =>
      dsimp only
      have ht0 := t0 t' hr
      obtain ⟨c, hc⟩ := at_some (l := g.time) (i := rt.1) ht0 t1
      rw [hc, Option.bind_some]
      obtain ⟨d, hd⟩ : ∃ d, (if (decide (rt.1 < (g.time.length : ℤ) - 1) && o.lt c t') = true then at? g.time (rt.1 + 1) else some c) = some d := by
        split_ifs with h2
        · rw [Bool.and_eq_true, decide_eq_true_eq] at h2
          exact at_some (by omega) (by omega)
        · exact ⟨_, rfl⟩
      rw [hd, Option.bind_some]
      obtain ⟨rs, es, s1, s2, s3, s4⟩ := searchIndices_safe o g hg ixg bgrid x y z
        (if (decide (rt.1 < (g.time.length : ℤ) - 1) && o.lt c t') = true then t' else c) c d { ix with ti := rt.1 } ⟨h.x, h.y, h.z, t1⟩ ht0 hl
      rw [es, Option.bind_some]
      cases hq : rs.2 with
      | error e => exact ⟨_, rfl, s1, s3, fun _ hh => by cases hh⟩
      | ok p =>
        refine ⟨_, rfl, s1, s3, ?_⟩
        intro q hq'
        cases hq'
        refine ⟨s4 p hq, by dsimp only; rw [s2]; exact ht0, ?_⟩
        dsimp only
        rw [s2, Bool.and_eq_true, decide_eq_true_eq]
        dsimp only
        omega

theorem cell_safe (g : Grid C) (hg : Complete g) (f : Fld α) (d : Data α) (hf : On g f d) (xi yi zi ti : ℤ) (two : Bool)
    (hx : 0 ≤ xi ∧ (xi + 1 < g.lon.length ∨ g.lon.length = 1 ∧ xi = 0)) (hy : 0 ≤ yi ∧ (yi + 1 < g.lat.length ∨ g.lat.length = 1 ∧ yi = 0))
    (hz : 1 < g.zdim → 0 ≤ zi ∧ zi + 1 < g.zdim) (ht : 0 ≤ ti ∧ ti < g.time.length) (h2 : two = true → ti + 1 < g.time.length) :
    (∃ l, cell g f xi yi zi ti two = .rep l) ∨ ∃ l c, cell g f xi yi zi ti two = .ok l c ∧ Chunks.Touched f.load l := by
  have key : ∀ idx : List Nat, IsCell f.axes idx →
      (∃ l, getCell (chunkInfo f.axes) f.chunks f.load (idx.map fun (n : Nat) => (n : ℤ)) ti (!two) = .rep l) ∨
      ∃ l c, getCell (chunkInfo f.axes) f.chunks f.load (idx.map fun (n : Nat) => (n : ℤ)) ti (!two) = .ok l c ∧ Chunks.Touched f.load l := by
    intro idx hidx
    obtain ⟨n, rfl⟩ := Int.eq_ofNat_of_zero_le ht.1
    have := Chunks.getCell_right hf.copes hidx d f.load f.chunks hf.memory n (!two) (by
      rw [hf.times]
      cases two
      · simpa using ht.2
      · have := h2 rfl; simp; omega)
    rcases this with ⟨l, e, ht, -⟩ | ⟨l, -, -, e, -⟩
    · exact .inr ⟨l, _, e, ht⟩
    · exact .inl ⟨l, e⟩
  have hd := hf.dims
  unfold cell
  obtain ⟨i, rfl⟩ := Int.eq_ofNat_of_zero_le hx.1
  obtain ⟨j, rfl⟩ := Int.eq_ofNat_of_zero_le hy.1
  split_ifs with h1
  · rw [if_pos h1] at hd
    refine key [j, i] ?_
    unfold IsCell
    rcases hax : f.axes with _ | ⟨a, _ | ⟨b, _ | ⟨c, r⟩⟩⟩ <;> rw [hax] at hd <;> simp at hd
    refine .cons ?_ (.cons ?_ .nil)
    · rw [hd.1]; omega
    · rw [hd.2]; omega
  · rw [if_neg h1] at hd
    obtain ⟨z0, z1⟩ := hz (by have := hg.zdim; omega)
    obtain ⟨k, rfl⟩ := Int.eq_ofNat_of_zero_le z0
    refine key [k, j, i] ?_
    unfold IsCell
    rcases hax : f.axes with _ | ⟨a, _ | ⟨b, _ | ⟨c, _ | ⟨e, r⟩⟩⟩⟩ <;> rw [hax] at hd <;> simp at hd
    refine .cons ?_ (.cons ?_ (.cons ?_ .nil))
    · rw [hd.1]; omega
    · rw [hd.2.1]; omega
    · rw [hd.2.2]; omega

theorem level_range (g : Grid C) (hg : Complete g) (ixg : Indexing) (ix : Idx) (h : Cell g ixg ix) (hp : ixg = .pop → g.zdim ≠ 2) :
    1 < g.zdim → 0 ≤ level g ixg ix.zi ∧ level g ixg ix.zi + 1 < g.zdim := by
  intro h1
  obtain ⟨h2, h3⟩ := h.z h1
  unfold level
  split_ifs with a b
  · omega
  · have := hp b.1
    rcases h2 with h2 | ⟨-, h2⟩
    · omega
    · rw [b.1] at h2; cases h2
  · rcases h2 with h2 | ⟨h2, h4⟩
    · omega
    · exact absurd ⟨h4, h2⟩ a

theorem sample_safe (o : Ops C) (g : Grid C) (hg : Complete g) (f : Fld α) (d : Data α) (hf : On g f d) (ixg : Indexing) (bgrid : Bool) (depth : Nat) (x y z t : C)
    (ix : Idx) (h : Loose g ix) (hl : LevelOk o g z ix.zi) (hp : ixg = .pop → g.zdim ≠ 2) :
    ∃ r, sample o g f ixg bgrid depth x y z t ix = some r ∧ Loose g r.1 ∧ (ixg ≠ .mom5 → 1 < g.zdim → 0 ≤ ix.zi → 0 ≤ r.1.zi) := by
  obtain ⟨r, e, r1, r2, r3⟩ := locate_safe o g hg f ixg bgrid depth x y z t ix h hl
  unfold sample
  rw [e, Option.bind_some]
  cases hr : r.2 with
  | error e => exact ⟨_, rfl, r1, r2⟩
  | ok p =>
    obtain ⟨c, t0, t1⟩ := r3 p hr
    dsimp only
    rcases cell_safe g hg f d hf r.1.xi r.1.yi (level g ixg r.1.zi) r.1.ti p.two c.x c.y (level_range g hg ixg r.1 c hp) ⟨t0, r1.t⟩ t1 with ⟨l, e⟩ | ⟨l, a, e, -⟩
    · rw [e]; exact ⟨_, rfl, r1, r2⟩
    · rw [e]; exact ⟨_, rfl, r1, r2⟩

theorem afterLoad_on {g : Grid C} {f : Fld α} {d : Data α} (h : On g f d) (shared : Bool) {l l' : List Nat} (ht : Chunks.Touched l l')
    (hs : shared = true → l = f.load) : On g (afterLoad f shared l') d := by
  unfold afterLoad
  split_ifs with hsh
  · rw [hs hsh] at ht
    exact ⟨h.copes, h.memory.touch ht, h.dims, h.times⟩
  · exact h

theorem corners_safe (g : Grid C) (hg : Complete g) (xi yi : ℤ) (hx : 0 ≤ xi ∧ xi + 1 < g.lon.length) (hy : 0 ≤ yi ∧ yi + 1 < g.lat.length) : ∃ l, corners g xi yi = some l := by
  unfold corners
  cases hc : g.curv with
  | some v =>
    obtain ⟨-, -, -, hlon, hlat⟩ := hg.nodes v hc
    obtain ⟨px, ex⟩ := corners2_safe g v.1 hlon xi yi hx hy
    obtain ⟨py, ey⟩ := corners2_safe g v.2 hlat xi yi hx hy
    exact ⟨px ++ py, by dsimp only; rw [ex, Option.bind_some, ey]; rfl⟩
  | none =>
  obtain ⟨l, h, -⟩ := mapM_safe (id : Option C → Option C) [at? g.lon xi, at? g.lon (xi + 1), at? g.lat yi, at? g.lat (yi + 1)] (by
    intro a ha
    simp only [List.mem_cons, List.not_mem_nil, or_false] at ha
    rcases ha with rfl | rfl | rfl | rfl
    · exact at_some hx.1 (by omega)
    · exact at_some (by omega) hx.2
    · exact at_some hy.1 (by omega)
    · exact at_some (by omega) hy.2)
  exact ⟨l, h⟩

theorem cellDepths_safe (g : Grid C) (hg : Complete g) (hs : g.s = true) (ix : Idx) (t : ℤ) (ht : 0 ≤ t ∧ t < g.time.length)
    (hx : 0 ≤ ix.xi ∧ ix.xi + 1 < g.lon.length) (hy : 0 ≤ ix.yi ∧ ix.yi + 1 < g.lat.length) (hz : 0 ≤ ix.zi ∧ ix.zi + 1 < g.zdim) :
    ∃ l, cellDepths g ix t = some l := by
  have key : ∀ k j i : ℤ, (0 ≤ k ∧ k < g.zdim) → (0 ≤ j ∧ j < g.lat.length) → (0 ≤ i ∧ i < g.lon.length) → ∃ a, id (depthAt g t k j i) = some a :=
    fun k j i hk hj hi => depthAt_safe g hg hs t k j i ht hk hj hi
  obtain ⟨l, h, -⟩ := mapM_safe (id : Option C → Option C) _ (by
    intro a ha
    simp only [List.mem_cons, List.not_mem_nil, or_false] at ha
    rcases ha with rfl | rfl | rfl | rfl | rfl | rfl | rfl | rfl <;> refine key _ _ _ ?_ ?_ ?_ <;> constructor <;> omega : ∀ a ∈
      [depthAt g t ix.zi ix.yi ix.xi, depthAt g t ix.zi ix.yi (ix.xi + 1), depthAt g t ix.zi (ix.yi + 1) (ix.xi + 1), depthAt g t ix.zi (ix.yi + 1) ix.xi,
       depthAt g t (ix.zi + 1) ix.yi ix.xi, depthAt g t (ix.zi + 1) ix.yi (ix.xi + 1), depthAt g t (ix.zi + 1) (ix.yi + 1) (ix.xi + 1),
       depthAt g t (ix.zi + 1) (ix.yi + 1) ix.xi], ∃ b, id a = some b)
  exact ⟨l, h⟩

theorem Cell.inside {g : Grid C} {ixg : Indexing} {ix : Idx} (h : Cell g ixg ix) (h2 : 2 ≤ g.lon.length) (h3 : 2 ≤ g.lat.length) :
    (0 ≤ ix.xi ∧ ix.xi + 1 < g.lon.length) ∧ (0 ≤ ix.yi ∧ ix.yi + 1 < g.lat.length) := by
  have := h.x
  have := h.y
  omega

theorem sampleUV_safe (o : Ops C) (g : Grid C) (hg : Complete g) (u v : Fld α) (du dv : Data α) (hu : On g u du) (hv : On g v dv) (shared : Bool)
    (hsh : shared = true → u.load = v.load) (h2 : 2 ≤ g.lon.length) (h3 : 2 ≤ g.lat.length) (depth : Nat) (x y z t : C)
    (ix : Idx) (h : Loose g ix) (hl : LevelOk o g z ix.zi) :
    ∃ r, sampleUV o g u v shared .nemo depth x y z t ix = some r ∧ Loose g r.1 ∧ (1 < g.zdim → 0 ≤ ix.zi → 0 ≤ r.1.zi) := by
  obtain ⟨r, e, r1, r2, r3⟩ := locate_safe o g hg u .nemo false depth x y z t ix h hl
  have r2 := r2 (by decide)
  unfold sampleUV
  rw [e, Option.bind_some]
  dsimp only
  cases hr : r.2 with
  | error e => exact ⟨_, rfl, r1, r2⟩
  | ok p =>
    obtain ⟨c, t0, t1⟩ := r3 p hr
    dsimp only
    rw [if_neg (by decide), if_neg (by decide)]
    simp only [sub_zero]
    have hz : 1 < g.zdim → 0 ≤ r.1.zi ∧ r.1.zi + 1 < g.zdim := by
      intro h1
      obtain ⟨a, b⟩ := c.z h1
      rcases a with a | ⟨-, a⟩
      · exact ⟨a, b⟩
      · cases a
    rcases cell_safe g hg u du hu r.1.xi r.1.yi r.1.zi r.1.ti p.two c.x c.y hz ⟨t0, r1.t⟩ t1 with ⟨l, e⟩ | ⟨l, a, e, ht⟩
    · rw [e]; exact ⟨_, rfl, r1, r2⟩
    · rw [e]
      dsimp only
      rcases cell_safe g hg _ dv (afterLoad_on hv shared ht hsh) r.1.xi r.1.yi r.1.zi r.1.ti p.two c.x c.y hz ⟨t0, r1.t⟩ t1 with ⟨l, e⟩ | ⟨l, a, e, ht⟩
      · rw [e]; exact ⟨_, rfl, r1, r2⟩
      · rw [e]
        dsimp only
        obtain ⟨hx, hy⟩ := c.inside h2 h3
        obtain ⟨l, e⟩ := corners_safe g hg r.1.xi r.1.yi hx hy
        rw [e]
        exact ⟨_, rfl, r1, r2⟩

theorem afterLoad_load {f : Fld α} {shared : Bool} {l : List Nat} (h : shared = true) : (afterLoad f shared l).load = l := by
  rw [afterLoad, if_pos h]

theorem sampleUVW_safe (o : Ops C) (g : Grid C) (hg : Complete g) (hs : g.s = true) (hz2 : 2 ≤ g.zdim) (u v w : Fld α) (du dv dw : Data α) (hu : On g u du)
    (hv : On g v dv) (hw : On g w dw) (shared : Bool) (hsh : shared = true → u.load = v.load ∧ u.load = w.load) (ixg : Indexing) (hm : ixg ≠ .mom5) (depth : Nat)
    (x y z t : C) (ix : Idx) (h : Loose g ix) (hl : LevelOk o g z ix.zi) :
    ∃ r, sampleUVW o g u v w shared ixg depth x y z t ix = some r ∧ Loose g r.1 ∧ (1 < g.zdim → 0 ≤ ix.zi → 0 ≤ r.1.zi) := by
  obtain ⟨r, e, r1, r2, r3⟩ := locate_safe o g hg u ixg false depth x y z t ix h hl
  have r2 := r2 hm
  unfold sampleUVW
  rw [e, Option.bind_some]
  cases hr : r.2 with
  | error e => exact ⟨_, rfl, r1, r2⟩
  | ok p =>
    obtain ⟨c, t0, t1⟩ := r3 p hr
    dsimp only
    rw [if_neg (by omega)]
    have hz : 1 < g.zdim → 0 ≤ r.1.zi ∧ r.1.zi + 1 < g.zdim := by
      intro h1
      obtain ⟨a, b⟩ := c.z h1
      rcases a with a | ⟨-, a⟩
      · exact ⟨a, b⟩
      · exact absurd a hm
    rcases cell_safe g hg u du hu r.1.xi r.1.yi r.1.zi r.1.ti p.two c.x c.y hz ⟨t0, r1.t⟩ t1 with ⟨l, e⟩ | ⟨l, a, e, ht⟩
    · rw [e]; exact ⟨_, rfl, r1, r2⟩
    · rw [e]
      dsimp only
      rcases cell_safe g hg _ dv (afterLoad_on hv shared ht fun hh => (hsh hh).1) r.1.xi r.1.yi r.1.zi r.1.ti p.two c.x c.y hz ⟨t0, r1.t⟩ t1 with
        ⟨l', e⟩ | ⟨l', a, e, ht'⟩
      · rw [e]; exact ⟨_, rfl, r1, r2⟩
      · rw [e]
        dsimp only
        have hw' : On g (afterLoad w shared l') dw := by
          unfold afterLoad
          split_ifs with hh
          · rw [afterLoad_load hh] at ht'
            have := Chunks.touched_trans ht ht'
            rw [(hsh hh).2] at this
            exact ⟨hw.copes, hw.memory.touch this, hw.dims, hw.times⟩
          · exact hw
        rcases cell_safe g hg _ dw hw' r.1.xi r.1.yi r.1.zi r.1.ti p.two c.x c.y hz ⟨t0, r1.t⟩ t1 with ⟨l'', e⟩ | ⟨l'', a, e, -⟩
        · rw [e]; exact ⟨_, rfl, r1, r2⟩
        · rw [e]
          dsimp only
          obtain ⟨d1, d2, -⟩ := hg.depthS hs
          obtain ⟨hx, hy⟩ := c.inside d1 d2
          obtain ⟨l, e⟩ := corners_safe g hg r.1.xi r.1.yi hx hy
          rw [e, Option.bind_some]
          obtain ⟨l, e⟩ := cellDepths_safe g hg hs r.1 r.1.ti ⟨t0, r1.t⟩ hx hy (hz (by omega))
          rw [e, Option.bind_some]
          by_cases htwo : p.two = true
          · obtain ⟨l, e⟩ := cellDepths_safe g hg hs r.1 (r.1.ti + 1) ⟨by omega, t1 htwo⟩ hx hy (hz (by omega))
            rw [if_pos htwo, e]
            exact ⟨_, rfl, r1, r2⟩
          · rw [if_neg htwo]
            exact ⟨_, rfl, r1, r2⟩

theorem InRange.loose {g : Grid C} {ix : Idx} (h : InRange g ix) : Loose g ix := ⟨h.x, h.y, fun h1 => ⟨by have := (h.z h1).1; omega, (h.z h1).2⟩, h.t⟩

theorem run_safe (o : Ops C) (g : Grid C) (hg : Complete g) (ixg : Indexing) (depth : Nat) (q : Req C α) (hq : q.On g) (hm : q.Meant g ixg) (ix : Idx)
    (h : Loose g ix) (hl : LevelOk o g q.depth ix.zi) :
    ∃ r, q.run o g ixg depth ix = some r ∧ Loose g r ∧ (ixg ≠ .mom5 → 1 < g.zdim → 0 ≤ ix.zi → 0 ≤ r.zi) := by
  cases q with
  | field f d bgrid x y z t =>
    obtain ⟨r, e, r1, r2⟩ := sample_safe o g hg f d hq ixg bgrid depth x y z t ix h hl hm
    exact ⟨r.1, by rw [Req.run, e]; rfl, r1, r2⟩
  | velocity u v du dv shared x y z t =>
    obtain ⟨rfl, h2, h3⟩ := hm
    obtain ⟨r, e, r1, r2⟩ := sampleUV_safe o g hg u v du dv hq.1 hq.2.1 shared (fun hs => (hq.2.2 hs).2) h2 h3 depth x y z t ix h hl
    exact ⟨r.1, by rw [Req.run, e]; rfl, r1, fun _ => r2⟩
  | velocity3 u v w du dv dw shared x y z t =>
    obtain ⟨hm, hs, hz⟩ := hm
    obtain ⟨r, e, r1, r2⟩ := sampleUVW_safe o g hg hs hz u v w du dv dw hq.1 hq.2.1 hq.2.2.1 shared (fun hs => ⟨(hq.2.2.2 hs).2.1, (hq.2.2.2 hs).2.2.2⟩) ixg hm
      depth x y z t ix h hl
    exact ⟨r.1, by rw [Req.run, e]; rfl, r1, fun _ => r2⟩

end Parcels.Memory
