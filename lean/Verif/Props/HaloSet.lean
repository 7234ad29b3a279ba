import Verif.Proofs.HaloSet

/-!
C72: `FieldSet.add_periodic_halo` extends every field of the FieldSet so that the value at each node of its extended grid is that of the node
a whole number of periods away. The vocabulary is in Verif/Spec/HaloSet.lean. Proved if each direction is extended once at most, every field
that is loaded at once is an attribute of the FieldSet under one name, all axes have two nodes at least, and, for fields loaded later, the
sizes of all calls are the same. Each of these conditions is needed: the theorems ending in `_fails` say what happens without it.
-/

namespace Parcels.HaloSet
open Parcels.Halo

/-- **C72 (partial).** The calls do not fail, and every field continues its original periodically on a grid that has grown by the sizes of the
calls at both ends. -/
theorem C72_continues_partial (s : FSet) (n : Nat) (calls : List (Bool × Bool × Nat)) (fresh : s.Fresh n) (plain : s.Plain)
    (zonal1 : (calls.filter fun c => c.1).length ≤ 1) (meridional1 : (calls.filter fun c => c.2.1).length ≤ 1)
    (sizes : ∀ c ∈ calls, 1 ≤ c.2.2 ∧ c.2.2 ≤ n) :
    ∃ s', addHalos calls s = some s' ∧ ∀ (i : Nat) (f : HField), s.fields[i]? = some f →
      (f.deferred = true → ∀ c ∈ calls, ∀ c' ∈ calls, c.2.2 = c'.2.2) →
      ∃ g g' d', s.grids[f.grid]? = some g ∧ s'.grids[f.grid]? = some g' ∧ dataOf s' i = some d' ∧
        g'.lon.length = g.lon.length + 2 * total calls (fun c => c.1) ∧ g'.lat.length = g.lat.length + 2 * total calls (fun c => c.2.1) ∧
        Continues g.lon g.lat f.data g'.lon g'.lat d' := by
  have h := addHalos_ext fresh plain calls none none (by simpa using zonal1) (by simpa using meridional1)
  rw [extS_none fresh] at h
  refine ⟨_, h, ?_⟩
  intro i f hi hd
  obtain ⟨g, g1, g2⟩ := fresh.fits f (List.mem_of_getElem? hi)
  obtain ⟨sx, sy, sx', sy'⟩ := fresh.size g (List.mem_of_getElem? g1)
  have z1 := sizeAfter_once (fun c => c.1) calls none (by simpa using zonal1)
  have m1 := sizeAfter_once (fun c => c.2.1) calls none (by simpa using meridional1)
  have hz : ∀ k, sizeAfter (fun c => c.1) calls none = some k → 1 ≤ k ∧ k ≤ g.lon.length := by
    intro k hk
    rcases z1.2 k hk with h | ⟨c, c1, _, rfl⟩
    · cases h
    · exact ⟨(sizes c c1).1, (sizes c c1).2.trans sx'⟩
  have hm : ∀ k, sizeAfter (fun c => c.2.1) calls none = some k → 1 ≤ k ∧ k ≤ g.lat.length := by
    intro k hk
    rcases m1.2 k hk with h | ⟨c, c1, _, rfl⟩
    · cases h
    · exact ⟨(sizes c c1).1, (sizes c c1).2.trans sy'⟩
  refine ⟨g, extG (sizeAfter (fun c => c.1) calls none) (sizeAfter (fun c => c.2.1) calls none) g,
    extD (sizeAfter (fun c => c.1) calls none) (sizeAfter (fun c => c.2.1) calls none) f.data, g1, ?_, ?_, ?_, ?_, ?_⟩
  · simp [extS, g1]
  · cases hf : f.deferred with
    | false => simp [dataOf, extS, hi, put, hf]
    | true =>
      have he := hd hf
      simp only [dataOf, extS, List.getElem?_map, hi, Option.map_some, Option.bind_some, put, hf, if_true, g1]
      apply loadedHalo_ext g2 hz hm
      intro a b ha hb
      rcases z1.2 a ha with h | ⟨c, c1, _, rfl⟩
      · cases h
      rcases m1.2 b hb with h | ⟨c', c2, _, rfl⟩
      · cases h
      exact he c c1 c' c2
  · show (extAxis _ g.lon).length = _
    rw [extAxis_length hz, z1.1]; rfl
  · show (extAxis _ g.lat).length = _
    rw [extAxis_length hm, m1.1]; rfl
  · exact continues_ext g2 _ _ sx sy hz hm

/-- Two fields on one grid, one loaded at once and one later. -/
def two : FSet :=
  { attrs := [.field 0, .field 1]
    fields := [⟨0, false, [[1, 2, 3], [4, 5, 6]]⟩, ⟨0, true, [[7, 8, 9], [10, 11, 12]]⟩]
    grids := [⟨[0, 1, 2], [0, 5], 0, 0⟩] }

/-- Non-vacuity. -/
theorem two_fresh : two.Fresh 2 := by
  refine ⟨?_, ?_, ?_⟩
  · intro f hf
    simp only [two, List.mem_cons, List.not_mem_nil, or_false] at hf
    rcases hf with rfl | rfl <;> exact ⟨_, rfl, rfl, by decide⟩
  · intro g hg
    simp only [two, List.mem_cons, List.not_mem_nil, or_false] at hg
    subst hg; exact ⟨rfl, rfl⟩
  · intro g hg
    simp only [two, List.mem_cons, List.not_mem_nil, or_false] at hg
    subst hg; simp

/-- Non-vacuity. -/
theorem two_plain : two.Plain := by
  refine ⟨by simp [two], ?_, ?_⟩
  · intro i f hi hf
    match i with
    | 0 => simp [two]
    | 1 => simp [two]
    | i + 2 => simp [two] at hi
  · intro i hi
    simp only [two, List.mem_cons, Attr.field.injEq, List.not_mem_nil, or_false] at hi
    rcases hi with rfl | rfl <;> simp [two]

example : ∃ s', addHalos [(true, false, 1), (false, true, 1)] two = some s' ∧
    dataOf s' 0 = some [[6, 4, 5, 6, 4], [3, 1, 2, 3, 1], [6, 4, 5, 6, 4], [3, 1, 2, 3, 1]] ∧
    dataOf s' 1 = some [[12, 10, 11, 12, 10], [9, 7, 8, 9, 7], [12, 10, 11, 12, 10], [9, 7, 8, 9, 7]] :=
  ⟨_, rfl, by decide +kernel, by decide +kernel⟩

example := C72_continues_partial two 2 [(true, false, 1), (false, true, 1)] two_fresh two_plain (by decide) (by decide) (by decide)

/-- One grid of three by two nodes, one field. -/
def one (attrs : List Attr) (deferred : Bool) : FSet :=
  { attrs := attrs, fields := [⟨0, deferred, [[1, 2, 3], [4, 5, 6]]⟩], grids := [⟨[0, 1, 2], [0, 5], 0, 0⟩] }

/-- **C72 fails** for the members of summed and nested fields that are loaded at once: whatever their number and place, their data stay as they
were, and so no longer fit their grids as soon as a halo is added. -/
theorem C72_summed_fails (s s' : FSet) (n : Nat) (fresh : s.Fresh n) (z m : Bool) (h : Nat) (hh : 1 ≤ h) (hn : h ≤ n) (zm : z = true ∨ m = true)
    (run : addHalo z m h s = some s') (i : Nat) (f : HField) (hi : s.fields[i]? = some f) (atOnce : f.deferred = false) (member : Attr.field i ∉ s.attrs) :
    dataOf s' i = some f.data ∧ ∃ g', s'.grids[f.grid]? = some g' ∧ ¬ Fits g'.lon g'.lat f.data := by
  unfold addHalo at run
  simp only [Option.bind_eq_some_iff, Option.some.injEq] at run
  obtain ⟨grids, hg, fields, hf, rfl⟩ := run
  have keep : ∀ (as : List Attr) (fs fs' : List HField), Attr.field i ∉ as → allAttrs z m h grids as fs = some fs' → fs'[i]? = fs[i]? := by
    intro as
    induction as with
    | nil => intro fs fs' _ e; simp only [allAttrs, Option.some.injEq] at e; rw [e]
    | cons a as ih =>
      intro fs fs' hn e
      simp only [allAttrs, Option.bind_eq_some_iff] at e
      obtain ⟨fs1, e1, e2⟩ := e
      rw [ih fs1 fs' (fun hc => hn (List.mem_cons_of_mem _ hc)) e2]
      cases a with
      | list l => simp only [oneAttr, Option.some.injEq] at e1; rw [e1]
      | field k =>
        have hk : k ≠ i := fun e => hn (e ▸ List.mem_cons_self)
        simp only [oneAttr, Option.bind_eq_some_iff] at e1
        obtain ⟨f1, _, e1⟩ := e1
        split_ifs at e1
        · injection e1 with e1; rw [e1]
        · simp only [Option.bind_eq_some_iff, Option.some.injEq] at e1
          obtain ⟨g, _, d, _, rfl⟩ := e1
          rw [List.getElem?_set_ne hk]
  have e1 := keep s.attrs s.fields fields member hf
  refine ⟨by simp [dataOf, e1, hi, atOnce], ?_⟩
  obtain ⟨g, g1, g2⟩ := fresh.fits f (List.mem_of_getElem? hi)
  have gm := List.mem_of_getElem? g1
  obtain ⟨sx, sy, sx', sy'⟩ := fresh.size g gm
  have key := mapM_some (gridHalo z m h) (extG (after z h none) (after m h none)) s.grids (by
    intro a ha
    have := gridHalo_ext (z := z) (m := m) (h := h) (hz := none) (hm := none) (g := a) (fun _ => rfl) (fun _ => rfl) (fresh.size a ha).1 (fresh.size a ha).2.1
    rwa [extG_none (fresh.none a ha)] at this)
  rw [key] at hg
  injection hg with hg
  refine ⟨extG (after z h none) (after m h none) g, by simp [← hg, g1], ?_⟩
  rintro ⟨c1, c2⟩
  have lenx : ∀ k, after z h none = some k → 1 ≤ k ∧ k ≤ g.lon.length := by
    intro k hk
    simp only [after] at hk
    split_ifs at hk
    injection hk with hk; omega
  have leny : ∀ k, after m h none = some k → 1 ≤ k ∧ k ≤ g.lat.length := by
    intro k hk
    simp only [after] at hk
    split_ifs at hk
    injection hk with hk; omega
  simp only [extG] at c1 c2
  rw [extAxis_length leny, g2.1] at c1
  rw [extAxis_length lenx] at c2
  rcases zm with rfl | rfl
  · cases hd : f.data with
    | nil =>
      have := g2.1
      rw [hd] at this
      simp at this; omega
    | cons r rest =>
      have hr : r ∈ f.data := by rw [hd]; exact List.mem_cons_self
      have a := c2 r hr
      rw [g2.2 r hr] at a
      simp [after] at a; omega
  · simp [after] at c1; omega

/-- A summed field of one member: zonal halo of one node. -/
example : ∃ s', addHalo true false 1 (one [.list [0]] false) = some s' ∧ dataOf s' 0 = some [[1, 2, 3], [4, 5, 6]] ∧
    s'.grids[0]?.map HGrid.lon = some [-1, 0, 1, 2, 3] := ⟨_, rfl, by decide +kernel, by decide +kernel⟩

/-- **C72 fails** for a field known to the FieldSet under two names: it is extended twice, and the call ends in an AssertionError. -/
theorem C72_two_names_fails : (one [.field 0] false).Plain ∧ addHalo true false 1 (one [.field 0] false) ≠ none ∧
    addHalo true false 1 (one [.field 0, .field 0] false) = none := by
  refine ⟨⟨by simp [one], ?_, ?_⟩, ?_, ?_⟩
  · intro i f hi _
    match i with
    | 0 => simp [one]
    | i + 1 => simp [one] at hi
  · intro i hi
    simp only [one, List.mem_cons, Attr.field.injEq, List.not_mem_nil, or_false] at hi
    subst hi; simp [one]
  · simp only [addHalo, one]
    decide +kernel
  · simp only [addHalo, one]
    decide +kernel

/-- **C72 fails** if a grid has an axis of one node, as those of `add_constant_field` have: the call ends in an IndexError, whatever the
other fields. -/
theorem C72_constant_field_fails (s : FSet) (g : HGrid) (hg : g ∈ s.grids) (z m : Bool) (h : Nat)
    (short : (z = true ∧ g.lon.length ≤ 1) ∨ (m = true ∧ g.lat.length ≤ 1)) : addHalo z m h s = none := by
  have hn : gridHalo z m h g = none := by
    rcases short with ⟨rfl, hl⟩ | ⟨rfl, hl⟩
    · simp only [gridHalo, if_true]
      rw [if_neg (by omega)]; rfl
    · cases z with
      | false =>
        simp only [gridHalo, if_true, Bool.false_eq_true, if_false, Option.bind_some]
        rw [if_neg (by omega)]
      | true =>
        simp only [gridHalo, if_true]
        split_ifs with hx
        · simp only [Option.bind_some]
          rw [if_neg (by omega)]
        · rfl
  have : s.grids.mapM (gridHalo z m h) = none := by
    have aux : ∀ l : List HGrid, g ∈ l → l.mapM (gridHalo z m h) = none := by
      intro l
      induction l with
      | nil => intro hc; simp at hc
      | cons a l ih =>
        intro hc
        rw [List.mapM_cons]
        rcases List.mem_cons.1 hc with rfl | hc
        · rw [hn]; rfl
        · rw [ih hc]
          cases gridHalo z m h a <;> rfl
    exact aux _ hg
  unfold addHalo
  rw [this]; rfl

example : addHalo true false 5 { attrs := [.field 0], fields := [⟨0, false, [[1]]⟩], grids := [⟨[0], [0], 0, 0⟩] } = none :=
  C72_constant_field_fails _ ⟨[0], [0], 0, 0⟩ (by simp) _ _ _ (Or.inl ⟨rfl, by simp⟩)

/-- **C72 fails** for data loaded later when the sizes of the halos differ: the larger is used for both directions, and the assertion on the
shape fails when the data are loaded, whatever the data. -/
theorem C72_deferred_sizes_fails (g : HGrid) (d : Rows) (hz hm : Nat) (h1 : 1 ≤ hz) (h2 : 1 ≤ hm) (hne : hz ≠ hm)
    (s1 : 2 ≤ g.lon.length ∧ hz ≤ g.lon.length ∧ hm ≤ g.lon.length) (s2 : 2 ≤ g.lat.length ∧ hm ≤ g.lat.length ∧ hz ≤ g.lat.length)
    (hf : Fits g.lon g.lat d) (fresh : g.zonal = 0 ∧ g.meridional = 0) :
    ∃ s', addHalos [(true, false, hz), (false, true, hm)] ⟨[.field 0], [⟨0, true, d⟩], [g]⟩ = some s' ∧ dataOf s' 0 = none := by
  have e1 := gridHalo_ext (z := true) (m := false) (h := hz) (hz := none) (hm := none) (g := g) (fun _ => rfl) (fun _ => rfl) s1.1 s2.1
  have e2 := gridHalo_ext (z := false) (m := true) (h := hm) (hz := some hz) (hm := none) (g := g) (fun h => by cases h) (fun _ => rfl) s1.1 s2.1
  rw [extG_none fresh] at e1
  have e3 : addHalos [(true, false, hz), (false, true, hm)] ⟨[.field 0], [⟨0, true, d⟩], [g]⟩ =
      some ⟨[.field 0], [⟨0, true, d⟩], [extG (some hz) (some hm) g]⟩ := by
    simp only [addHalos, addHalo, List.mapM_cons, List.mapM_nil, e1, after, if_true, Bool.false_eq_true, if_false]
    simp only [after, if_true, Bool.false_eq_true, if_false] at e2
    simp [allAttrs, oneAttr, e2]
  refine ⟨_, e3, ?_⟩
  have key : loadedHalo (extG (some hz) (some hm) g) d = none := by
    unfold loadedHalo
    split_ifs with c1 c2
    · have p1 : decide (0 < (extG (some hz) (some hm) g).zonal) = true := decide_eq_true h1
      have p2 : decide (0 < (extG (some hz) (some hm) g).meridional) = true := decide_eq_true h2
      rw [p1, p2]
      have hmax : max (extG (some hz) (some hm) g).meridional (extG (some hz) (some hm) g).zonal = max hm hz := rfl
      rw [hmax]
      have lx : (extG (some hz) (some hm) g).lon.length = g.lon.length + 2 * hz :=
        extAxis_length (h := some hz) (by rintro k ⟨⟩; exact ⟨h1, s1.2.1⟩)
      have ly : (extG (some hz) (some hm) g).lat.length = g.lat.length + 2 * hm :=
        extAxis_length (h := some hm) (by rintro k ⟨⟩; exact ⟨h2, s2.2.1⟩)
      have el : ∀ (k : Nat) {α : Type} (l : List α), 1 ≤ k → k ≤ l.length → (extend k l).length = l.length + 2 * k := by
        intro k α l a b
        simp only [extend, List.length_append, pyLast_len, List.length_take]
        rw [if_neg (by omega)]
        omega
      unfold dataHalo
      simp only [if_true]
      rcases Nat.lt_or_gt_of_ne hne with hlt | hgt
      · have hk : max hm hz = hm := by omega
        rw [hk, if_neg]
        · rfl
        · intro hall
          rw [List.all_eq_true] at hall
          cases hd : d with
          | nil => have := hf.1; rw [hd] at this; simp at this; omega
          | cons r rest =>
            have hr : r ∈ d := by rw [hd]; exact List.mem_cons_self
            have a := of_decide_eq_true (hall (extend hm r) (List.mem_map.2 ⟨r, hr, rfl⟩))
            have b := hf.2 r hr
            rw [lx, el hm r h2 (by rw [b]; exact s1.2.2), b] at a
            omega
      · have hk : max hm hz = hz := by omega
        rw [hk]
        split_ifs with c3
        · simp only [Option.bind_some]
          rw [if_neg]
          rw [ly, el hz _ h1 (by rw [List.length_map, hf.1]; exact s2.2.2), List.length_map, hf.1]
          omega
        · rfl
    · exact absurd (Or.inl h2) c2
    · rfl
  simp only [dataOf, List.getElem?_cons_zero, Option.bind_some, if_true]
  exact key

example := C72_deferred_sizes_fails ⟨[0, 1, 2], [0, 5], 0, 0⟩ [[1, 2, 3], [4, 5, 6]] 1 2 (by decide) (by decide) (by decide) (by decide) (by decide)
  ⟨rfl, by decide⟩ ⟨rfl, rfl⟩

/-- **C72 fails** if a direction is extended twice. Loaded at once: the period of the second extension is that of the extended grid; here the
node at -2, one period of three nodes from the node at 1 with the value 2, gets the value 1. Loaded later: the size of the first halo is
forgotten, and the assertion on the shape fails. -/
theorem C72_twice_fails :
    (∃ s', addHalos [(true, false, 1), (true, false, 1)] (one [.field 0] false) = some s' ∧
      s'.grids[0]?.map HGrid.lon = some [-2, -1, 0, 1, 2, 3, 4] ∧ dataOf s' 0 = some [[1, 3, 1, 2, 3, 1, 3], [4, 6, 4, 5, 6, 4, 6]] ∧
      ¬ Continues [0, 1, 2] [0, 5] [[1, 2, 3], [4, 5, 6]] [-2, -1, 0, 1, 2, 3, 4] [0, 5] [[1, 3, 1, 2, 3, 1, 3], [4, 6, 4, 5, 6, 4, 6]]) ∧
    (∃ s', addHalos [(true, false, 1), (true, false, 1)] (one [.field 0] true) = some s' ∧ dataOf s' 0 = none) := by
  refine ⟨⟨_, rfl, by decide +kernel, by decide +kernel, ?_⟩, ⟨_, rfl, by decide +kernel⟩⟩
  rintro ⟨-, h⟩
  obtain ⟨j0, i0, k, l, a1, a2, a3⟩ := h 0 0 0 (-2) 1 rfl rfl rfl
  have hp : period [0, 1, 2] = 3 := by decide +kernel
  rw [hp] at a2
  match j0, i0 with
  | 0, 0 =>
    simp only [List.getElem?_cons_zero, Option.some.injEq] at a2
    have : (l : ℚ) * 3 = 2 := by linarith
    have : l * 3 = 2 := by exact_mod_cast this
    omega
  | 0, 1 => exact absurd a3 (by decide +kernel)
  | 0, 2 => exact absurd a3 (by decide +kernel)
  | 1, 0 => exact absurd a3 (by decide +kernel)
  | 1, 1 => exact absurd a3 (by decide +kernel)
  | 1, 2 => exact absurd a3 (by decide +kernel)
  | _, i0 + 3 => simp at a2
  | j0 + 2, _ => simp at a1

end Parcels.HaloSet
