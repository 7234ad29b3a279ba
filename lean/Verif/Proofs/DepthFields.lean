import Verif.Spec.DepthFields
import Verif.Props.TimeChunk

namespace Parcels.DepthFields
open Parcels.TimeChunk Parcels.Search

theorem grid_modify (S : FSet) (k k' : Nat) (f : GridS → GridS) :
    (S.modify k f).grid k' = if k = k' ∧ k' < S.grids.length then f (S.grid k') else S.grid k' := by
  unfold FSet.modify FSet.grid
  dsimp only
  rw [List.getD_eq_getElem?_getD, List.getD_eq_getElem?_getD, List.getElem?_modify]
  rcases Nat.lt_or_ge k' S.grids.length with h | h
  · rw [List.getElem?_eq_getElem h]
    by_cases hk : k = k' <;> simp [hk, h]
  · rw [List.getElem?_eq_none h]
    have : ¬ (k = k' ∧ k' < S.grids.length) := by omega
    simp [this]

/-- Same fields, and for every grid the same times and the same slot. -/
structure Same (S S' : FSet) : Prop where
  fields : S'.fields = S.fields
  len : S'.grids.length = S.grids.length
  times : ∀ k, (S'.grid k).times = (S.grid k).times
  src : ∀ k, (S'.grid k).src = (S.grid k).src

theorem Same.rfl (S : FSet) : Same S S := ⟨Eq.refl _, Eq.refl _, fun _ => Eq.refl _, fun _ => Eq.refl _⟩

theorem Same.trans {S S' S'' : FSet} (h : Same S S') (h' : Same S' S'') : Same S S'' :=
  ⟨h'.fields.trans h.fields, h'.len.trans h.len, fun k => (h'.times k).trans (h.times k), fun k => (h'.src k).trans (h.src k)⟩

theorem Same.field {S S' : FSet} (h : Same S S') (i : Nat) : S'.field i = S.field i := by
  unfold FSet.field; rw [h.fields]

theorem Same.data {S S' : FSet} (h : Same S S') (j : Nat) : S'.data j = S.data j := by
  unfold FSet.data; rw [h.field, h.times]

theorem Same.series {S S' : FSet} (h : Same S S') (j : Nat) : S'.series j = S.series j := by
  unfold FSet.series; rw [h.field, h.times]

/-- What `copyDepth` stores. -/
def stored (S : FSet) (j : Nat) : Depth := match S.data j with | some l => .snaps j l | none => .noNumbers

theorem stored_same {S S' : FSet} (h : Same S S') (j : Nat) : stored S' j = stored S j := by
  unfold stored; rw [h.data]

theorem copy_grid (S : FSet) (k j k' : Nat) : (S.copyDepth k j).grid k' =
    if k = k' ∧ k' < S.grids.length then { S.grid k' with depth := stored S j } else S.grid k' := by
  unfold FSet.copyDepth; rw [grid_modify]; rfl

theorem copy_same (S : FSet) (k j : Nat) : Same S (S.copyDepth k j) := by
  refine ⟨rfl, by simp [FSet.copyDepth, FSet.modify], fun k' => ?_, fun k' => ?_⟩ <;>
  · rw [copy_grid]
    split_ifs <;> rfl

/-- The loop at the end of `computeTimeChunk`. -/
theorem depthLoop_ok {S0 : FSet} : ∀ {L : List FieldS} {S S' : FSet}, Same S0 S → S.depthLoop L = some S' →
    Same S0 S' ∧ ∀ k, k < S0.grids.length →
      ((∃ f ∈ L, f.files = true ∧ f.grid = k ∧ (S0.grid k).times.isDeferred = true) →
        ∀ j, (S0.grid k).src = .field j → (S'.grid k).depth = stored S0 j) ∧
      ((∀ f ∈ L, f.grid = k → f.files = false) ∨ (S0.grid k).src = .none ∨ (S0.grid k).times.isDeferred = false →
        (S'.grid k).depth = (S.grid k).depth) ∧
      ((S'.grid k).depth = (S.grid k).depth ∨ ∃ j, (S0.grid k).src = .field j ∧ (S'.grid k).depth = stored S0 j)
  | [], S, S', hS, h => by
    simp only [FSet.depthLoop, Option.some.injEq] at h
    subst h
    refine ⟨hS, fun k _ => ⟨by simp, fun _ => rfl, Or.inl rfl⟩⟩
  | f :: L, S, S', hS, h => by
    unfold FSet.depthLoop at h
    by_cases c : f.files = false ∨ (S.grid f.grid).times.isDeferred = false
    · rw [if_pos c] at h
      obtain ⟨h1, h2⟩ := depthLoop_ok hS h
      refine ⟨h1, fun k hk => ⟨?_, ?_, (h2 k hk).2.2⟩⟩
      · rintro ⟨g, hg, e1, e2, e3⟩ j hj
        rcases List.mem_cons.mp hg with rfl | hg
        · exfalso
          rw [hS.times, e2] at c
          rcases c with c | c
          · rw [c] at e1; cases e1
          · rw [c] at e3; cases e3
        · exact (h2 k hk).1 ⟨g, hg, e1, e2, e3⟩ j hj
      · rintro (e | e)
        · exact (h2 k hk).2.1 (Or.inl fun g hg => e g (List.mem_cons_of_mem _ hg))
        · exact (h2 k hk).2.1 (Or.inr e)
    · rw [if_neg c] at h
      push Not at c
      cases hs : (S.grid f.grid).src with
      | none =>
        rw [hs] at h
        obtain ⟨h1, h2⟩ := depthLoop_ok hS h
        refine ⟨h1, fun k hk => ⟨?_, ?_, (h2 k hk).2.2⟩⟩
        · rintro ⟨g, hg, e1, e2, e3⟩ j hj
          rcases List.mem_cons.mp hg with rfl | hg
          · rw [hS.src, e2, hj] at hs; cases hs
          · exact (h2 k hk).1 ⟨g, hg, e1, e2, e3⟩ j hj
        · rintro (e | e)
          · exact (h2 k hk).2.1 (Or.inl fun g hg => e g (List.mem_cons_of_mem _ hg))
          · exact (h2 k hk).2.1 (Or.inr e)
      | notYetSet => rw [hs] at h; cases h
      | field j =>
        rw [hs] at h
        dsimp only at h
        have hS' := hS.trans (copy_same S f.grid j)
        have hst : stored S j = stored S0 j := stored_same hS j
        have hsrc : (S0.grid f.grid).src = .field j := by rw [← hS.src]; exact hs
        obtain ⟨h1, h2⟩ := depthLoop_ok hS' h
        have dep : ∀ k, k < S0.grids.length → ((S.copyDepth f.grid j).grid k).depth = if f.grid = k then stored S0 j else (S.grid k).depth := by
          intro k hk
          rw [copy_grid]
          by_cases e : f.grid = k
          · rw [if_pos ⟨e, by rw [hS.len]; exact hk⟩, if_pos e, hst]
          · rw [if_neg (fun c => e c.1), if_neg e]
        refine ⟨h1, fun k hk => ⟨?_, ?_, ?_⟩⟩
        · intro hex j' hj'
          by_cases e : f.grid = k
          · subst e
            rw [hsrc] at hj'
            injection hj' with hj'
            subst hj'
            rcases (h2 f.grid hk).2.2 with e | ⟨j'', e1, e2⟩
            · rw [e, dep _ hk, if_pos rfl]
            · rw [hsrc] at e1
              injection e1 with e1
              rw [e2, e1]
          · obtain ⟨g, hg, e1, e2, e3⟩ := hex
            rcases List.mem_cons.mp hg with rfl | hg
            · exact absurd e2 e
            · exact (h2 k hk).1 ⟨g, hg, e1, e2, e3⟩ j' hj'
        · intro hno
          have e : f.grid ≠ k := by
            rintro rfl
            rcases hno with e | e | e
            · exact c.1 (e f (by simp) rfl)
            · rw [hsrc] at e; cases e
            · exact c.2 (by rw [hS.times]; exact e)
          have := (h2 k hk).2.1 (by
            rcases hno with e | e
            · exact Or.inl fun g hg => e g (List.mem_cons_of_mem _ hg)
            · exact Or.inr e)
          rw [this, dep _ hk, if_neg e]
        · rcases (h2 k hk).2.2 with e | e
          · rw [dep _ hk] at e
            split_ifs at e with e'
            · subst e'; exact Or.inr ⟨j, hsrc, e⟩
            · exact Or.inl e
          · exact Or.inr e

/-- The loop at the end of `check_complete`. -/
theorem completeLoop_ok {S0 : FSet} : ∀ {L : List FieldS} {S S' : FSet}, Same S0 S → S.completeLoop L = some S' →
    Same S0 S' ∧ ∀ k, k < S0.grids.length →
      ((∃ f ∈ L, f.files = true ∧ f.grid = k ∧ (S0.grid k).times.isDeferred = false) →
        ∀ j, (S0.grid k).src = .field j → (S'.grid k).depth = stored S0 j) ∧
      ((∀ f ∈ L, f.grid = k → f.files = false) ∨ (S0.grid k).src = .none ∨ (S0.grid k).times.isDeferred = true →
        (S'.grid k).depth = (S.grid k).depth) ∧
      ((S'.grid k).depth = (S.grid k).depth ∨ ∃ j, (S0.grid k).src = .field j ∧ (S'.grid k).depth = stored S0 j)
  | [], S, S', hS, h => by
    simp only [FSet.completeLoop, Option.some.injEq] at h
    subst h
    refine ⟨hS, fun k _ => ⟨by simp, fun _ => rfl, Or.inl rfl⟩⟩
  | f :: L, S, S', hS, h => by
    unfold FSet.completeLoop at h
    have skip : S.completeLoop L = some S' → (f.files = false ∨ (S0.grid f.grid).src = .none ∨ (S0.grid f.grid).times.isDeferred = true) →
        Same S0 S' ∧ ∀ k, k < S0.grids.length →
          ((∃ g ∈ f :: L, g.files = true ∧ g.grid = k ∧ (S0.grid k).times.isDeferred = false) →
            ∀ j, (S0.grid k).src = .field j → (S'.grid k).depth = stored S0 j) ∧
          ((∀ g ∈ f :: L, g.grid = k → g.files = false) ∨ (S0.grid k).src = .none ∨ (S0.grid k).times.isDeferred = true →
            (S'.grid k).depth = (S.grid k).depth) ∧
          ((S'.grid k).depth = (S.grid k).depth ∨ ∃ j, (S0.grid k).src = .field j ∧ (S'.grid k).depth = stored S0 j) := by
      intro h c
      obtain ⟨h1, h2⟩ := completeLoop_ok hS h
      refine ⟨h1, fun k hk => ⟨?_, ?_, (h2 k hk).2.2⟩⟩
      · rintro ⟨g, hg, e1, e2, e3⟩ j hj
        rcases List.mem_cons.mp hg with rfl | hg
        · exfalso
          subst e2
          rcases c with c | c | c
          · rw [c] at e1; cases e1
          · rw [c] at hj; cases hj
          · rw [c] at e3; cases e3
        · exact (h2 k hk).1 ⟨g, hg, e1, e2, e3⟩ j hj
      · rintro (e | e)
        · exact (h2 k hk).2.1 (Or.inl fun g hg => e g (List.mem_cons_of_mem _ hg))
        · exact (h2 k hk).2.1 (Or.inr e)
    by_cases c : f.files = false
    · rw [if_pos c] at h
      exact skip h (Or.inl c)
    · rw [if_neg c] at h
      cases hs : (S.grid f.grid).src with
      | none => rw [hs] at h; exact skip h (Or.inr (Or.inl (by rw [← hS.src]; exact hs)))
      | notYetSet => rw [hs] at h; cases h
      | field j =>
        rw [hs] at h
        dsimp only at h
        by_cases c' : (S.grid f.grid).times.isDeferred = true
        · rw [if_pos c'] at h
          exact skip h (Or.inr (Or.inr (by rw [← hS.times]; exact c')))
        rw [if_neg c'] at h
        have hS' := hS.trans (copy_same S f.grid j)
        have hst : stored S j = stored S0 j := stored_same hS j
        have hsrc : (S0.grid f.grid).src = .field j := by rw [← hS.src]; exact hs
        obtain ⟨h1, h2⟩ := completeLoop_ok hS' h
        have dep : ∀ k, k < S0.grids.length → ((S.copyDepth f.grid j).grid k).depth = if f.grid = k then stored S0 j else (S.grid k).depth := by
          intro k hk
          rw [copy_grid]
          by_cases e : f.grid = k
          · rw [if_pos ⟨e, by rw [hS.len]; exact hk⟩, if_pos e, hst]
          · rw [if_neg (fun c => e c.1), if_neg e]
        refine ⟨h1, fun k hk => ⟨?_, ?_, ?_⟩⟩
        · intro hex j' hj'
          by_cases e : f.grid = k
          · subst e
            rw [hsrc] at hj'
            injection hj' with hj'
            subst hj'
            rcases (h2 f.grid hk).2.2 with e | ⟨j'', e1, e2⟩
            · rw [e, dep _ hk, if_pos rfl]
            · rw [hsrc] at e1
              injection e1 with e1
              rw [e2, e1]
          · obtain ⟨g, hg, e1, e2, e3⟩ := hex
            rcases List.mem_cons.mp hg with rfl | hg
            · exact absurd e2 e
            · exact (h2 k hk).1 ⟨g, hg, e1, e2, e3⟩ j' hj'
        · intro hno
          have e : f.grid ≠ k := by
            rintro rfl
            rcases hno with e | e | e
            · exact c (e f (by simp) rfl)
            · rw [hsrc] at e; cases e
            · exact c' (by rw [hS.times]; exact e)
          have := (h2 k hk).2.1 (by
            rcases hno with e | e
            · exact Or.inl fun g hg => e g (List.mem_cons_of_mem _ hg)
            · exact Or.inr e)
          rw [this, dep _ hk, if_neg e]
        · rcases (h2 k hk).2.2 with e | e
          · rw [dep _ hk] at e
            split_ifs at e with e'
            · subst e'; exact Or.inr ⟨j, hsrc, e⟩
            · exact Or.inl e
          · exact Or.inr e

/-- Loading: every grid is as before, or holds what `gridChunk` loads. -/
theorem loadGrids_ok {t : ℚ} {s : ℤ} : ∀ {gs gs' : List GridS}, loadGrids t s gs = some gs' → gs'.length = gs.length ∧
    ∀ (k : Nat) (g : GridS), gs[k]? = some g → ∃ g' : GridS, gs'[k]? = some g' ∧ g'.src = g.src ∧ g'.depth = g.depth ∧
      ((∃ T, g.times = .all T ∧ g'.times = .all T) ∨
        ∃ fl d d' nx, g.times = .deferred fl d ∧ gridChunk fl d t s = .ok (d', nx) ∧ g'.times = .deferred fl d')
  | [], gs', h => by
    simp only [loadGrids, Option.some.injEq] at h
    subst h
    exact ⟨rfl, fun k g hk => by simp at hk⟩
  | g :: gs, gs', h => by
    unfold loadGrids at h
    cases ht : g.times with
    | all T =>
      rw [ht] at h
      dsimp only at h
      obtain ⟨r, hr, rfl⟩ := Option.map_eq_some_iff.mp h
      obtain ⟨h1, h2⟩ := loadGrids_ok hr
      refine ⟨by simp [h1], fun k x hk => ?_⟩
      cases k with
      | zero => simp at hk; subst hk; exact ⟨g, rfl, rfl, rfl, Or.inl ⟨T, ht, ht⟩⟩
      | succ k => simpa using h2 k x (by simpa using hk)
    | deferred fl d =>
      rw [ht] at h
      dsimp only at h
      cases hc : gridChunk fl d t s with
      | error e => rw [hc] at h; cases h
      | ok q =>
        obtain ⟨d', nx⟩ := q
        rw [hc] at h
        dsimp only at h
        split_ifs at h
        obtain ⟨r, hr, rfl⟩ := Option.map_eq_some_iff.mp h
        obtain ⟨h1, h2⟩ := loadGrids_ok hr
        refine ⟨by simp [h1], fun k x hk => ?_⟩
        cases k with
        | zero =>
          simp at hk; subst hk
          exact ⟨{ g with times := .deferred fl d' }, rfl, rfl, rfl, Or.inr ⟨fl, d, d', nx, ht, hc, rfl⟩⟩
        | succ k => simpa using h2 k x (by simpa using hk)

/-- What a request does to grid `k`. -/
theorem load_grid {t : ℚ} {s : ℤ} {S : FSet} {gs : List GridS} (h : loadGrids t s S.grids = some gs) {k : Nat} (hk : k < S.grids.length) :
    let g := S.grid k
    let g' := (FSet.mk S.fields gs).grid k
    g'.src = g.src ∧ g'.depth = g.depth ∧ ((∃ T, g.times = .all T ∧ g'.times = .all T) ∨
        ∃ fl d d' nx, g.times = .deferred fl d ∧ gridChunk fl d t s = .ok (d', nx) ∧ g'.times = .deferred fl d') := by
  obtain ⟨_, h2⟩ := loadGrids_ok h
  obtain ⟨g', h3, h4⟩ := h2 k _ (List.getElem?_eq_getElem hk)
  have e1 : S.grid k = S.grids[k] := by unfold FSet.grid; rw [List.getD_eq_getElem?_getD, List.getElem?_eq_getElem hk]; rfl
  have e2 : (FSet.mk S.fields gs).grid k = g' := by unfold FSet.grid; rw [List.getD_eq_getElem?_getD, h3]; rfl
  dsimp only
  rw [e1, e2]
  exact h4

theorem right_forward_unique {T : List ℚ} (hT : Increasing T) {i i' : Nat} {t : ℚ} (hi : i + 1 < T.length) (hi' : i' + 1 < T.length)
    (h : RightForward T i t) (h' : RightForward T i' t) : i = i' := by
  have inc : ∀ a b, a < b → b < T.length → T.getD a 0 < T.getD b 0 := by
    intro a b hab hb
    rw [List.getD_eq_getElem?_getD, List.getD_eq_getElem?_getD, List.getElem?_eq_getElem hb, List.getElem?_eq_getElem (by omega : a < T.length)]
    exact List.pairwise_iff_getElem.mp hT _ _ _ hb hab
  have inc' : ∀ a b, a ≤ b → b < T.length → T.getD a 0 ≤ T.getD b 0 := by
    intro a b hab hb
    rcases Nat.lt_or_ge a b with h | h
    · exact (inc a b h hb).le
    · have : a = b := by omega
      rw [this]
  by_contra hne
  have main : ∀ a b, a < b → b + 1 < T.length → RightForward T a t → RightForward T b t → False := by
    intro a b hab hb ha hb'
    have h1 : t < T.getD b 0 ∨ (a + 2 = T.length) := by
      rcases ha with ⟨_, h⟩ | ⟨_, h⟩ | ⟨h, _⟩
      · exact Or.inl (lt_of_lt_of_le h (inc' _ _ (by omega) (by omega)))
      · exact Or.inl (lt_of_lt_of_le h (inc' _ _ (by omega) (by omega)))
      · exact Or.inr h
    rcases h1 with h1 | h1
    · rcases hb' with ⟨h, _⟩ | ⟨h, _⟩ | ⟨h, h3⟩
      · linarith
      · omega
      · have := inc' b (T.length - 1) (by omega) (by omega); linarith
    · omega
  rcases Nat.lt_or_gt_of_ne hne with h1 | h1
  · exact main _ _ h1 hi' h h'
  · exact main _ _ h1 hi h' h

theorem right_backward_unique {T : List ℚ} (hT : Increasing T) {i i' : Nat} {t : ℚ} (hi : i + 1 < T.length) (hi' : i' + 1 < T.length)
    (h : RightBackward T i t) (h' : RightBackward T i' t) : i = i' := by
  have inc : ∀ a b, a < b → b < T.length → T.getD a 0 < T.getD b 0 := by
    intro a b hab hb
    rw [List.getD_eq_getElem?_getD, List.getD_eq_getElem?_getD, List.getElem?_eq_getElem hb, List.getElem?_eq_getElem (by omega : a < T.length)]
    exact List.pairwise_iff_getElem.mp hT _ _ _ hb hab
  have inc' : ∀ a b, a ≤ b → b < T.length → T.getD a 0 ≤ T.getD b 0 := by
    intro a b hab hb
    rcases Nat.lt_or_ge a b with h | h
    · exact (inc a b h hb).le
    · have : a = b := by omega
      rw [this]
  by_contra hne
  have main : ∀ a b, a < b → b + 1 < T.length → RightBackward T a t → RightBackward T b t → False := by
    intro a b hab hb ha hb'
    have h1 : t ≤ T.getD b 0 ∨ (a + 2 = T.length) := by
      rcases ha with ⟨_, h⟩ | ⟨_, h⟩ | ⟨h, _⟩
      · exact Or.inl (le_trans h (inc' _ _ (by omega) (by omega)))
      · exact Or.inl (le_trans h (inc' _ _ (by omega) (by omega)))
      · exact Or.inr h
    rcases h1 with h1 | h1
    · rcases hb' with ⟨h, _⟩ | ⟨h, _⟩ | ⟨h, h3⟩
      · linarith
      · omega
      · have := inc b (T.length - 1) (by omega) (by omega); linarith
    · omega
  rcases Nat.lt_or_gt_of_ne hne with h1 | h1
  · exact main _ _ h1 hi' h h'
  · exact main _ _ h1 hi h' h

/-- After a request, the depths of the grid of `i` are the snapshots of `j` that are in memory. -/
theorem request_stored {S S' : FSet} {t : ℚ} {s : ℤ} {i j : Nat} (hu : Uses S i j) (h : S.request t s = some S')
    (hd : (S.grid (S.field i).grid).times.isDeferred = true) :
    ∃ gs, loadGrids t s S.grids = some gs ∧ Same (FSet.mk S.fields gs) S' ∧
      (S'.grid (S'.field i).grid).depth = stored (FSet.mk S.fields gs) j := by
  unfold FSet.request at h
  cases hl : loadGrids t s S.grids with
  | none => rw [hl] at h; cases h
  | some gs =>
    rw [hl] at h
    dsimp only at h
    obtain ⟨h1, h2⟩ := depthLoop_ok (Same.rfl _) h
    refine ⟨gs, rfl, h1, ?_⟩
    have hlen : gs.length = S.grids.length := (loadGrids_ok hl).1
    obtain ⟨l1, -, l3⟩ := load_grid hl hu.gi
    have hf : S'.field i = S.field i := h1.field i
    rw [hf]
    refine (h2 (S.field i).grid (by simpa [hlen] using hu.gi)).1 ⟨S.field i, ?_, hu.filesI, rfl, ?_⟩ j (l1.trans hu.src)
    · unfold FSet.field
      rw [List.getD_eq_getElem?_getD, List.getElem?_eq_getElem hu.fi]
      exact List.getElem_mem _
    · rcases l3 with ⟨T, e, _⟩ | ⟨fl, d, d', nx, _, _, e⟩
      · rw [e] at hd; cases hd
      · rw [e]; rfl

end Parcels.DepthFields
