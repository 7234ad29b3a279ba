import Verif.Spec.WriteRead
import Verif.Proofs.Load7

/-!
Helper lemmas for C70.
-/

namespace Parcels.Load
open Parcels.Search

theorem allClose_self (n : Nat) (f h : Nat → ℚ) (e : ∀ i, i < n → f i = h i) : allClose ((List.range n).map f) ((List.range n).map h) = true := by
  unfold allClose
  rw [List.zip_map', List.all_eq_true]
  intro p hp
  rw [List.mem_map] at hp
  obtain ⟨i, hi, rfl⟩ := hp
  exact decide_eq_true (close_refl _ _ (e i (List.mem_range.1 hi)))

/-- The grid of a written field. -/
theorem lonlat_written (date : ℚ) (g : Grid) (hv : Valid g) (d : ND ℚ) (f : NcFile) (hf : writeField date g d = some f)
    (hc : g.curvilinear = true → rectilinear ⟨[g.ydim, g.xdim], fun i => g.lonAt (i.getD 0 0) (i.getD 1 0)⟩
      ⟨[g.ydim, g.xdim], fun i => g.latAt (i.getD 0 0) (i.getD 1 0)⟩ = false)
    (lon lat : ND ℚ) (h : lonlat readBack f = some (lon, lat)) (dep ts : List ℚ) :
    let g' := createGrid lon lat dep ts
    g'.curvilinear = g.curvilinear ∧ g'.xdim = g.xdim ∧ g'.ydim = g.ydim ∧ (∀ y, g'.rowOf y = y) ∧
      ∀ y x, y < g.ydim → x < g.xdim → g'.latAt y x = g.latAt y x ∧ g'.lonAt y x = g.lonAt y x := by
  unfold writeField at hf
  rw [Option.map_eq_some_iff] at hf
  obtain ⟨a, _, rfl⟩ := hf
  unfold lonlat at h
  have hne : ¬ ([g.ydim, g.xdim].length = 1) := by simp
  simp only [Option.bind_eq_bind] at h
  rw [if_neg hne, Option.bind_eq_some_iff] at h
  obtain ⟨lon1, h1, h⟩ := h
  rw [Option.bind_eq_some_iff] at h
  obtain ⟨lat1, h2, h⟩ := h
  simp only [readBack, Request.latIdx, Request.lonIdx, Option.getD_none, List.length_cons, List.length_nil, Nat.reduceAdd, Nat.reduceSub,
    List.getLastD_cons, List.getLastD_nil, List.getD_cons_zero, List.getD_cons_succ, Nat.reduceEqDiff, if_false, List.replicate_zero,
    List.nil_append, OfNat.ofNat_ne_one] at h1 h2
  obtain ⟨_, p2, p3⟩ := pick_some h1
  obtain ⟨_, q2, q3⟩ := pick_some h2
  simp only [selShape, List.length_range] at p2 q2
  have hget : ∀ y x, y < g.ydim → x < g.xdim → lon1.get [y, x] = g.lonAt y x ∧ lat1.get [y, x] = g.latAt y x := by
    intro y x hy hx
    rw [p3, q3]
    simp only [selIdx]
    simp [List.getElem?_range, hy, hx]
  by_cases hcur : g.curvilinear = true
  · -- curvilinear
    have hr : rectilinear lon1 lat1 = false := by
      have hcc := hc hcur
      rw [Bool.eq_false_iff] at hcc ⊢
      intro hr
      apply hcc
      unfold rectilinear at hr ⊢
      unfold row col at *
      rw [p2, q2] at hr
      rw [Bool.and_eq_true, List.all_eq_true, List.all_eq_true] at hr ⊢
      obtain ⟨hr1, hr2⟩ := hr
      refine ⟨fun y hy => ?_, fun x hx => ?_⟩
      · have := hr1 y hy
        rw [Bool.or_eq_true] at this ⊢
        rcases this with e | e
        · exact Or.inl e
        · right
          rw [← e]
          have hy' : y < g.ydim := List.mem_range.1 hy
          congr 1 <;> (apply List.map_congr_left; intro x hx; rw [(hget _ x (by omega) (List.mem_range.1 hx)).1]; rfl)
      · have := hr2 x hx
        rw [Bool.or_eq_true] at this ⊢
        rcases this with e | e
        · exact Or.inl e
        · right
          rw [← e]
          have hx' : x < g.xdim := List.mem_range.1 hx
          congr 1 <;> (apply List.map_congr_left; intro y hy; rw [(hget y _ (List.mem_range.1 hy) (by omega)).2]; rfl)
    rw [hr] at h
    simp only [Bool.false_eq_true, if_false, Option.some.injEq, Prod.mk.injEq] at h
    obtain ⟨rfl, rfl⟩ := h
    have he : createGrid lon1 lat1 dep ts = ⟨lon1, lat1, dep, ts, false⟩ := by
      unfold createGrid
      simp only []
      rw [if_neg]
      rw [p2]; simp
    have hc' : (createGrid lon1 lat1 dep ts).curvilinear = true := by
      rw [he]; unfold Grid.curvilinear; simp [p2]
    refine ⟨by rw [hc', hcur], by rw [he]; unfold Grid.xdim; rw [p2]; rfl, by unfold Grid.ydim; rw [hc', he, p2]; simp [Grid.ydim],
      fun y => by rw [he]; rfl, fun y x hy hx => ?_⟩
    obtain ⟨e1, e2⟩ := hget y x hy hx
    constructor
    · rw [← e2]; unfold Grid.latAt; rw [hc', he]; rfl
    · rw [← e1]; unfold Grid.lonAt; rw [hc', he]; rfl
  · -- rectilinear
    have hcur' : g.curvilinear = false := by simpa using hcur
    have hlonAt : ∀ y x, g.lonAt y x = g.lon.get [x] := by intro y x; unfold Grid.lonAt; rw [hcur']; rfl
    have hlatAt : ∀ y x, g.latAt y x = g.lat.get [y] := by intro y x; unfold Grid.latAt; rw [hcur']; rfl
    have hr : rectilinear lon1 lat1 = true := by
      unfold rectilinear row col
      rw [p2, q2, Bool.and_eq_true, List.all_eq_true, List.all_eq_true]
      refine ⟨fun y hy => ?_, fun x hx => ?_⟩
      · rw [Bool.or_eq_true]
        right
        have hy' : y < g.ydim := List.mem_range.1 hy
        refine allClose_self g.xdim (fun x => lon1.get [0, x]) (fun x => lon1.get [y, x]) (fun x hx => ?_)
        rw [(hget 0 x (by omega) hx).1, (hget y x hy' hx).1, hlonAt, hlonAt]
      · rw [Bool.or_eq_true]
        right
        have hx' : x < g.xdim := List.mem_range.1 hx
        refine allClose_self g.ydim (fun y => lat1.get [y, 0]) (fun y => lat1.get [y, x]) (fun y hy => ?_)
        rw [(hget y 0 hy (by omega)).2, (hget y x hy hx').2, hlatAt, hlatAt]
    rw [hr] at h
    simp only [if_true, Option.some.injEq, Prod.mk.injEq] at h
    obtain ⟨rfl, rfl⟩ := h
    rcases hv.shape with ⟨X, Y, s1, s2, s3⟩ | ⟨X, Y, s1, _⟩
    swap
    · exfalso; apply hcur; unfold Grid.curvilinear; simp [s1]
    have hX : g.xdim = X := by unfold Grid.xdim; rw [s1]; rfl
    have hY : g.ydim = Y := by unfold Grid.ydim; rw [hcur', s2]; rfl
    obtain ⟨dx, dy, _⟩ := hv.dims
    have he : createGrid ⟨[lon1.shape.getD 1 0], fun i => lon1.get (0 :: i)⟩ ⟨[lat1.shape.headD 0], fun i => lat1.get (i ++ [0])⟩ dep ts =
        ⟨⟨[lon1.shape.getD 1 0], fun i => lon1.get (0 :: i)⟩, ⟨[lat1.shape.headD 0], fun i => lat1.get (i ++ [0])⟩, dep, ts, false⟩ := by
      unfold createGrid
      simp only []
      rw [if_neg]
      rw [q2]
      rintro ⟨_, h1', h2'⟩
      simp only [List.headD_cons, List.cons_append, List.nil_append] at h1' h2'
      rw [(hget _ 0 (by omega) (by omega)).2, (hget 0 0 (by omega) (by omega)).2, hlatAt, hlatAt, hY] at h2'
      have := s3 (by omega)
      linarith
    have hc' : (createGrid ⟨[lon1.shape.getD 1 0], fun i => lon1.get (0 :: i)⟩ ⟨[lat1.shape.headD 0], fun i => lat1.get (i ++ [0])⟩ dep ts).curvilinear = false := by
      rw [he]; rfl
    refine ⟨by rw [hc', hcur'], by rw [he]; unfold Grid.xdim; rw [p2]; simp [Grid.xdim], by unfold Grid.ydim; rw [hc', he, q2]; simp [Grid.ydim],
      fun y => by rw [he]; rfl, fun y x hy hx => ?_⟩
    constructor
    · have := (hget y 0 hy (by omega)).2
      rw [hlatAt] at this ⊢
      rw [← this]; unfold Grid.latAt; rw [hc', he]; rfl
    · have := (hget 0 x (by omega) hx).1
      rw [hlonAt] at this ⊢
      rw [← this]; unfold Grid.lonAt; rw [hc', he]; rfl

/-- The file of a written field is well-formed. -/
theorem written_wf (date : ℚ) (g : Grid) (hv : Valid g) (d : ND ℚ) (f : NcFile) (hf : writeField date g d = some f) :
    WellFormed .tzyx g.ydim g.xdim g.depth.length f := by
  unfold writeField at hf
  rw [Option.map_eq_some_iff] at hf
  obtain ⟨a, ha, rfl⟩ := hf
  obtain ⟨_, hs⟩ := reshape_flat ha
  refine ⟨Or.inr ⟨0, rfl, rfl⟩, ?_, ?_, ?_⟩
  · simp only [List.length_map]; exact hs
  · simpa using hv.dims.2.2.2
  · rintro (h | h) <;> cases h

theorem FieldData.prod_eq {g : Grid} {d : ND ℚ} (h : FieldData g d) :
    prod d.shape = prod [g.time.length, g.depth.length, g.ydim, g.xdim] := by
  rcases h with h | ⟨h1, h⟩
  · rw [h]
  · rw [h, h1]; simp [prod]

/-- The data in the file are those of the field. -/
theorem written_value (date : ℚ) (g : Grid) (d : ND ℚ) (f : NcFile) (hf : writeField date g d = some f)
    (hd : FieldData g d) (t z y x : Nat) (ht : t < g.time.length) (hz : z < g.depth.length) (hy : y < g.ydim) (hx : x < g.xdim) :
    f.data.get [t, z, y, x] = nodeValue d t z y x := by
  unfold writeField at hf
  rw [Option.map_eq_some_iff] at hf
  obtain ⟨a, ha, rfl⟩ := hf
  obtain ⟨h1, h2⟩ := reshape_flat ha
  simp only []
  have hin : InR a.shape [t, z, y, x] := by rw [h2]; exact ⟨ht, hz, hy, hx, trivial⟩
  rw [get_flat a _ hin, ← h1.2 _ (by rw [h1.1]; exact ravel_lt _ _ hin), h2]
  refine (nodeValue_flat g g.time.length g.depth.length false d d (SameFlat.refl d) hd.prod_eq ?_ t z y x ht hz hy hx).symm
  unfold shapeOk
  rcases hd with h | ⟨_, h⟩ <;> rw [h] <;> simp

theorem rangeGet {n i : Nat} (h : i < n) : (List.range n).getD i 0 = i := by
  rw [List.getD_eq_getElem _ _ (by simpa using h)]; simp

end Parcels.Load
