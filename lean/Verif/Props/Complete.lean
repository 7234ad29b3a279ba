import Verif.Spec.Complete
import Mathlib.Tactic.Tauto
import Mathlib.Data.List.Zip

/-!
C82: which velocities a FieldSet accepts, and the vector fields it makes of them.
-/

namespace Parcels.Complete

theorem pair_iff (u v : VF) (hs : u.indexing = .mitgcm → u.gtype ≠ .curvS) : (checkVel u v none && checkVector u v none) = true ↔ Pair u v := by
  constructor
  · intro h
    rw [Bool.and_eq_true] at h
    obtain ⟨h1, h2⟩ := h
    unfold checkVel at h1
    unfold checkVector at h2
    split_ifs at h1 with c1 c2 c3 c4 c5 c6
    refine ⟨by tauto, ?_, by tauto, c4, ?_, ?_⟩
    · intro hc
      rw [if_pos hc] at h2
      simp only [Bool.and_true, Bool.and_eq_true, decide_eq_true_eq] at h2
      tauto
    · by_contra hne
      exact c6 (Or.inl fun h => hne h.symm)
    · intro hm
      have := hs hm
      cases hg : u.gtype <;> simp_all
  · intro h
    have h1 : checkVel u v none = true := by
      unfold checkVel
      rw [if_neg (by have := h.cgrid; tauto), if_neg (by have := h.land; tauto), if_neg (by have := h.dims; tauto), if_neg h.known, if_neg, if_neg]
      · rintro (hn | ⟨x, hx, -⟩)
        · exact hn h.same.symm
        · cases hx
      · rintro ⟨hm, hg⟩
        rcases h.mitgcm hm with h' | h' <;> rw [h'] at hg <;> simp at hg
    have h2 : checkVector u v none = true := by
      unfold checkVector
      split_ifs with hc
      · simp [h.cgrid.mp hc, (h.dims hc).2.2.2.2]
      · rfl
    rw [h1, h2]; rfl

theorem triple_iff (u v w : VF) (hs : u.indexing = .mitgcm → u.gtype ≠ .curvS) :
    (checkVel u v (some w) && checkVector u v none && checkVector u v (some w)) = true ↔ Pair u v ∧ Vertical u w := by
  have key : checkVel u v (some w) = (checkVel u v none && decide (u.indexing = w.indexing)) := by
    unfold checkVel
    by_cases hw : u.indexing = w.indexing
    · simp [hw]
    · have : ¬ w.indexing = u.indexing := fun h => hw h.symm
      simp [hw, this]
  have key2 : (checkVector u v none && checkVector u v (some w)) = true ↔
      checkVector u v none = true ∧ (u.method = .cgrid → w.method = .cgrid ∧ u.grid = w.grid) := by
    unfold checkVector
    by_cases hc : u.method = .cgrid
    · simp [hc]
    · simp [hc]
  rw [Bool.and_assoc, Bool.and_eq_true, key2, key, Bool.and_eq_true, decide_eq_true_eq, ← pair_iff u v hs, Bool.and_eq_true]
  constructor
  · rintro ⟨⟨h1, h2⟩, h3, h4⟩; exact ⟨⟨h1, h3⟩, h2, h4⟩
  · rintro ⟨⟨h1, h3⟩, h2, h4⟩; exact ⟨⟨h1, h2⟩, h3, h4⟩

theorem all_pairs (l : List (VF × VF)) (hs : ∀ t ∈ l, t.1.indexing = .mitgcm → t.1.gtype ≠ .curvS) :
    ((l.all fun t => checkVel t.1 t.2 none) && l.all fun t => checkVector t.1 t.2 none) = true ↔ ∀ t ∈ l, Pair t.1 t.2 := by
  rw [Bool.and_eq_true, List.all_eq_true, List.all_eq_true, ← forall₂_and]
  refine forall₂_congr fun t ht => ?_
  rw [← pair_iff t.1 t.2 (hs t ht), Bool.and_eq_true]

theorem all_triples (l : List (VF × VF × VF)) (hs : ∀ t ∈ l, t.1.indexing = .mitgcm → t.1.gtype ≠ .curvS) :
    ((l.all fun t => checkVel t.1 t.2.1 (some t.2.2)) && ((l.map fun t => (t.1, t.2.1)).all fun t => checkVector t.1 t.2 none) &&
      l.all fun t => checkVector t.1 t.2.1 (some t.2.2)) = true ↔ ∀ t ∈ l, Pair t.1 t.2.1 ∧ Vertical t.1 t.2.2 := by
  rw [Bool.and_eq_true, Bool.and_eq_true, List.all_map, List.all_eq_true, List.all_eq_true, List.all_eq_true, ← forall₂_and, ← forall₂_and]
  refine forall₂_congr fun t ht => ?_
  rw [← triple_iff t.1 t.2.1 t.2.2 (hs t ht), Bool.and_eq_true, Bool.and_eq_true]
  rfl

theorem zip_self {α β : Type} (l : List (α × β)) : (l.map (·.1)).zip (l.map (·.2)) = l := by
  induction l with
  | nil => rfl
  | cons a l ih => simp [ih]

/-- C82, without W: if U and V are of one kind and have equally many components, the FieldSet is accepted exactly if the components go together pairwise, and `UV` then is of that kind
and has these pairs in this order. Missing: MITgcm indexing on a curvilinear grid with s-levels, and sums or nests that do not match in kind or number, see below. -/
theorem C82_pairs_partial (k : Kind) (l : List (VF × VF)) (hl : l ≠ []) (U V : Vel) (hU : U.Is k (l.map (·.1))) (hV : V.Is k (l.map (·.2)))
    (hs : ∀ t ∈ l, t.1.indexing = .mitgcm → t.1.gtype ≠ .curvS) :
    ((∀ t ∈ l, Pair t.1 t.2) → checkComplete U V none = some ⟨k, l, none⟩) ∧ (¬ (∀ t ∈ l, Pair t.1 t.2) → checkComplete U V none = none) := by
  have key : checkComplete U V none =
      if ((l.all fun t => checkVel t.1 t.2 none) && l.all fun t => checkVector t.1 t.2 none) = true then some ⟨k, l, none⟩ else none := by
    cases k <;> cases U <;> cases V <;> simp only [Vel.Is] at hU hV
    · obtain ⟨t, rfl⟩ : ∃ t, l = [t] := List.length_eq_one_iff.mp (by simpa using congrArg List.length hU)
      simp only [List.map_cons, List.map_nil, List.cons.injEq, and_true] at hU hV
      subst hU hV
      simp [checkComplete, Vel.truthy, singleCase]
    · subst hU hV
      have : (l.map (·.1)).isEmpty = false ∧ (l.map (·.2)).isEmpty = false := by cases l <;> simp_all
      simp only [checkComplete, Vel.truthy, this.1, this.2, listCase, Vel.iter, Option.bind_some, list2, zip_self]
      rfl
    · subst hU hV
      have : (l.map (·.1)).isEmpty = false ∧ (l.map (·.2)).isEmpty = false := by cases l <;> simp_all
      simp only [checkComplete, Vel.truthy, this.1, this.2, listCase, Vel.iter, Option.bind_some, list2, zip_self]
      rfl
  rw [key]
  exact ⟨fun h => if_pos ((all_pairs l hs).mpr h), fun h => if_neg fun hh => h ((all_pairs l hs).mp hh)⟩

/-- C82, with W: the same for `UVW`; `UV` is made of U and V alone. Missing: as for `C82_pairs_partial`. -/
theorem C82_triples_partial (k : Kind) (l : List (VF × VF × VF)) (hl : l ≠ []) (U V W : Vel) (hU : U.Is k (l.map (·.1))) (hV : V.Is k (l.map (·.2.1)))
    (hW : W.Is k (l.map (·.2.2))) (hs : ∀ t ∈ l, t.1.indexing = .mitgcm → t.1.gtype ≠ .curvS) :
    ((∀ t ∈ l, Pair t.1 t.2.1 ∧ Vertical t.1 t.2.2) → checkComplete U V (some W) = some ⟨k, l.map fun t => (t.1, t.2.1), some l⟩) ∧
    (¬ (∀ t ∈ l, Pair t.1 t.2.1 ∧ Vertical t.1 t.2.2) → checkComplete U V (some W) = none) := by
  have z3 : (l.map (·.1)).zip ((l.map (·.2.1)).zip (l.map (·.2.2))) = l := by
    have h1 : (l.map (·.2.1)).zip (l.map (·.2.2)) = l.map (·.2) := by
      have := zip_self (l.map (·.2))
      rwa [List.map_map, List.map_map] at this
    rw [h1]; exact zip_self l
  have z2 : (l.map (·.1)).zip (l.map (·.2.1)) = l.map fun t => (t.1, t.2.1) := by
    have := zip_self (l.map fun t => (t.1, t.2.1))
    rwa [List.map_map, List.map_map] at this
  have key : checkComplete U V (some W) =
      if ((l.all fun t => checkVel t.1 t.2.1 (some t.2.2)) && ((l.map fun t => (t.1, t.2.1)).all fun t => checkVector t.1 t.2 none) &&
        l.all fun t => checkVector t.1 t.2.1 (some t.2.2)) = true then some ⟨k, l.map fun t => (t.1, t.2.1), some l⟩ else none := by
    cases k <;> cases U <;> cases V <;> cases W <;> simp only [Vel.Is] at hU hV hW
    · obtain ⟨t, rfl⟩ : ∃ t, l = [t] := List.length_eq_one_iff.mp (by simpa using congrArg List.length hU)
      simp only [List.map_cons, List.map_nil, List.cons.injEq, and_true] at hU hV hW
      subst hU hV hW
      simp [checkComplete, Vel.truthy, singleCase]
    · subst hU hV hW
      have : (l.map (·.1)).isEmpty = false ∧ (l.map (·.2.1)).isEmpty = false := by cases l <;> simp_all
      simp only [checkComplete, Vel.truthy, this.1, this.2, listCase, Vel.iter, Option.bind_some, list3, z3, z2]
      rfl
    · subst hU hV hW
      have : (l.map (·.1)).isEmpty = false ∧ (l.map (·.2.1)).isEmpty = false := by cases l <;> simp_all
      simp only [checkComplete, Vel.truthy, this.1, this.2, listCase, Vel.iter, Option.bind_some, list3, z3, z2]
      rfl
  rw [key]
  exact ⟨fun h => if_pos ((all_triples l hs).mpr h), fun h => if_neg fun hh => h ((all_triples l hs).mp hh)⟩

/-- C82: sums and nests without components are refused, for U and for V. -/
theorem C82_empty (U V : Vel) (W : Option Vel) (k : Kind) (h : U.Is k [] ∨ V.Is k []) : checkComplete U V W = none := by
  have : (U.truthy && V.truthy) = false := by
    rcases h with h | h
    · cases U <;> cases k <;> simp_all [Vel.Is, Vel.truthy]
    · cases V <;> cases k <;> simp_all [Vel.Is, Vel.truthy]
  unfold checkComplete
  rw [this]
  rfl

/-- An empty sum, and one with components. -/
example : Vel.Is (.summed []) .summed [] ∧ ¬ Vel.Is (.summed [(⟨.other, .nemo, .rectZ, 5, 4, 0, 0⟩ : VF)]) .summed [] := by simp [Vel.Is]

/-- C82: a summed velocity of an accepted FieldSet is the sum of the components of U, of V and of W, if there are equally many. Missing: other numbers of components,
see `C82_dropped_fails`. -/
theorem C82_sum_partial {K : Type} [AddMonoid K] (s : VF → K) (us vs ws : List VF) (h1 : us.length = vs.length) (h2 : us.length = ws.length) (r : Vectors)
    (h : checkComplete (.summed us) (.summed vs) (some (.summed ws)) = some r) :
    r.kind = .summed ∧ sumUV s r.uv = ((us.map s).sum, (vs.map s).sum) ∧
    ∃ m, r.uvw = some m ∧ sumUVW s m = ((us.map s).sum, (vs.map s).sum, (ws.map s).sum) := by
  unfold checkComplete at h
  split_ifs at h
  simp only [listCase, Vel.iter, Option.bind_some, list3] at h
  split_ifs at h
  cases h
  have a1 : (us.zip vs).map Prod.fst = us := List.map_fst_zip h1.le
  have a2 : (us.zip vs).map Prod.snd = vs := List.map_snd_zip h1.ge
  have b0 : (vs.zip ws).length = us.length := by rw [List.length_zip]; omega
  have b1 : (us.zip (vs.zip ws)).map Prod.fst = us := List.map_fst_zip b0.ge
  have b2 : (us.zip (vs.zip ws)).map Prod.snd = vs.zip ws := List.map_snd_zip b0.le
  have c1 : (vs.zip ws).map Prod.fst = vs := List.map_fst_zip (by omega)
  have c2 : (vs.zip ws).map Prod.snd = ws := List.map_snd_zip (by omega)
  refine ⟨rfl, ?_, _, rfl, ?_⟩
  · unfold sumUV
    rw [show ((us.zip vs).map fun p => s p.1) = ((us.zip vs).map Prod.fst).map s from List.map_map.symm,
      show ((us.zip vs).map fun p => s p.2) = ((us.zip vs).map Prod.snd).map s from List.map_map.symm, a1, a2]
  · unfold sumUVW
    rw [show ((us.zip (vs.zip ws)).map fun p => s p.1) = ((us.zip (vs.zip ws)).map Prod.fst).map s from List.map_map.symm,
      show ((us.zip (vs.zip ws)).map fun p => s p.2.1) = (((us.zip (vs.zip ws)).map Prod.snd).map Prod.fst).map s by rw [List.map_map, List.map_map]; rfl,
      show ((us.zip (vs.zip ws)).map fun p => s p.2.2) = (((us.zip (vs.zip ws)).map Prod.snd).map Prod.snd).map s by rw [List.map_map, List.map_map]; rfl,
      b1, b2, c1, c2]

/-- A field for the examples. -/
def ex (m : Method) (ix : Indexing) (g : GType) (grid tag : Nat) : VF := ⟨m, ix, g, 5, 4, grid, tag⟩

/-- Two datasets, one on a C-grid: the hypotheses of `C82_triples_partial`, and the components go together. -/
example : let l := [(ex .cgrid .nemo .curvZ 0 0, ex .cgrid .nemo .curvZ 0 1, ex .cgrid .nemo .curvZ 0 2),
      (ex .other .mitgcm .rectZ 1 3, ex .other .mitgcm .rectZ 2 4, ex .other .mitgcm .rectZ 3 5)]
    l ≠ [] ∧ (∀ t ∈ l, t.1.indexing = .mitgcm → t.1.gtype ≠ .curvS) ∧
    checkComplete (.nested (l.map (·.1))) (.nested (l.map (·.2.1))) (some (.nested (l.map (·.2.2)))) =
      some ⟨.nested, l.map fun t => (t.1, t.2.1), some l⟩ := by decide

/-- C82 fails for sums with different numbers of components: with U and V from two datasets and W from one of them, the FieldSet is accepted, but for three-dimensional advection the
horizontal velocities of the second dataset are ignored, while `UV` has them. -/
theorem C82_dropped_fails (s : VF → Int) (u0 u1 v0 v1 w0 : VF) (h0 : Pair u0 v0) (h1 : Pair u1 v1) (hw : Vertical u0 w0) (hs : s u1 ≠ 0) :
    ∃ r m, checkComplete (.summed [u0, u1]) (.summed [v0, v1]) (some (.summed [w0])) = some r ∧ r.uvw = some m ∧
      sumUV s r.uv = (s u0 + s u1, s v0 + s v1) ∧ sumUVW s m = (s u0, s v0, s w0) ∧ s u0 ≠ s u0 + s u1 := by
  have n0 : u0.indexing = .mitgcm → u0.gtype ≠ .curvS := by
    intro hm hg
    rcases h0.mitgcm hm with h | h <;> rw [h] at hg <;> cases hg
  have n1 : u1.indexing = .mitgcm → u1.gtype ≠ .curvS := by
    intro hm hg
    rcases h1.mitgcm hm with h | h <;> rw [h] at hg <;> cases hg
  have e0 := (triple_iff u0 v0 w0 n0).mpr ⟨h0, hw⟩
  have e1 := (pair_iff u1 v1 n1).mpr h1
  simp only [Bool.and_eq_true] at e0 e1
  refine ⟨⟨.summed, [(u0, v0), (u1, v1)], some [(u0, v0, w0)]⟩, [(u0, v0, w0)], ?_, rfl, by simp [sumUV], by simp [sumUVW], by omega⟩
  simp [checkComplete, Vel.truthy, listCase, Vel.iter, list3, e0.1.1, e0.1.2, e0.2, e1.2]

/-- Such fields. -/
example : Pair (ex .other .nemo .rectZ 0 0) (ex .other .nemo .rectZ 0 1) ∧ Vertical (ex .other .nemo .rectZ 0 0) (ex .other .nemo .rectZ 0 2) := by
  refine ⟨⟨by decide, by decide, by decide, by decide, by decide, by decide⟩, ⟨by decide, by decide⟩⟩

/-- C82 fails also in the checks: the second components of U and V, which have different indexing, are accepted if W has one component only. -/
theorem C82_unchecked_fails : ∃ u0 u1 v0 v1 w0 : VF, ¬ Pair u1 v1 ∧
    checkComplete (.nested [u0, u1]) (.nested [v0, v1]) (some (.nested [w0])) = some ⟨.nested, [(u0, v0), (u1, v1)], some [(u0, v0, w0)]⟩ := by
  refine ⟨ex .other .nemo .rectZ 0 0, ex .other .nemo .rectZ 1 1, ex .other .nemo .rectZ 0 2, ex .other .mitgcm .rectZ 1 3, ex .other .nemo .rectZ 0 4, ?_, by decide⟩
  intro h
  exact absurd h.same (by decide)

/-- C82 fails for MITgcm indexing on curvilinear grids with s-levels: they are accepted, although the indexing is not implemented for curvilinear grids. -/
theorem C82_mitgcm_fails (u v : VF) (hm : u.indexing = .mitgcm) (hv : v.indexing = .mitgcm) (hg : u.gtype = .curvS) (hu : u.method = .other) (hv' : v.method = .other) :
    ¬ Pair u v ∧ checkComplete (.single u) (.single v) none = some ⟨.single, [(u, v)], none⟩ := by
  constructor
  · intro h
    rcases h.mitgcm hm with h | h <;> rw [h] at hg <;> cases hg
  · simp [checkComplete, Vel.truthy, singleCase, checkVel, checkVector, hm, hv, hg, hu, hv']

/-- C82 fails for mixed kinds: with a summed U and a nested V, the components of V are summed. A single W with a summed or nested U and V is an exception. -/
theorem C82_mixed_fails (s : VF → Int) (u0 u1 v0 v1 w : VF) (h0 : Pair u0 v0) (h1 : Pair u1 v1) :
    (∃ r, checkComplete (.summed [u0, u1]) (.nested [v0, v1]) none = some r ∧ r.kind = .summed ∧ sumUV s r.uv = (s u0 + s u1, s v0 + s v1)) ∧
    checkComplete (.summed [u0, u1]) (.summed [v0, v1]) (some (.single w)) = none := by
  have n0 : u0.indexing = .mitgcm → u0.gtype ≠ .curvS := by
    intro hm hg
    rcases h0.mitgcm hm with h | h <;> rw [h] at hg <;> cases hg
  have n1 : u1.indexing = .mitgcm → u1.gtype ≠ .curvS := by
    intro hm hg
    rcases h1.mitgcm hm with h | h <;> rw [h] at hg <;> cases hg
  have e0 := (pair_iff u0 v0 n0).mpr h0
  have e1 := (pair_iff u1 v1 n1).mpr h1
  simp only [Bool.and_eq_true] at e0 e1
  refine ⟨⟨⟨.summed, [(u0, v0), (u1, v1)], none⟩, ?_, rfl, by simp [sumUV]⟩, rfl⟩
  simp [checkComplete, Vel.truthy, listCase, Vel.iter, list2, e0.1, e0.2, e1.1, e1.2]

end Parcels.Complete
