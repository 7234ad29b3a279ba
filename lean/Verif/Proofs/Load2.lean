import Verif.Proofs.Load
import Verif.Props.Records

/-!
Helper lemmas for C69: the grid, and reading all files.
-/

namespace Parcels.Load

theorem sel_pre (m : Nat) (la li : List Nat) (ny nx : Nat) :
    (selOk (List.replicate m (Sel.one 0) ++ [.many la, .many li]) (List.replicate m 1 ++ [ny, nx]) =
      selOk [.many la, .many li] [ny, nx]) ∧
    selShape (List.replicate m (Sel.one 0) ++ [.many la, .many li]) = [la.length, li.length] ∧
    ∀ y x, selIdx (List.replicate m (Sel.one 0) ++ [.many la, .many li]) (List.replicate m 1 ++ [ny, nx]) [y, x] =
      List.replicate m 0 ++ [la.getD y 0, li.getD x 0] := by
  induction m with
  | zero => exact ⟨rfl, rfl, fun _ _ => rfl⟩
  | succ m ih =>
    obtain ⟨h1, h2, h3⟩ := ih
    refine ⟨?_, ?_, ?_⟩
    · rw [List.replicate_succ, List.replicate_succ, List.cons_append, List.cons_append, ← h1]
      conv_lhs => rw [selOk]
      simp
    · rw [List.replicate_succ, List.cons_append, selShape, h2]
    · intro y x
      rw [List.replicate_succ, List.replicate_succ, List.replicate_succ, List.cons_append, List.cons_append, List.cons_append, selIdx, h3]
      rfl

theorem pick_pre {a b : ND ℚ} {m : Nat} {la li : List Nat} {ny nx : Nat} (hs : a.shape = List.replicate m 1 ++ [ny, nx])
    (h : a.pick (List.replicate (a.shape.length - 2) (Sel.one 0) ++ [.many la, .many li]) = some b) :
    b.shape = [la.length, li.length] ∧
    ∀ y x, b.get [y, x] = a.get (List.replicate (a.shape.length - 2) 0 ++ [la.getD y 0, li.getD x 0]) := by
  have hlen : a.shape.length - 2 = m := by rw [hs]; simp
  rw [hlen] at h ⊢
  obtain ⟨p1, p2, p3⟩ := pick_some h
  obtain ⟨_, h2, h3⟩ := sel_pre m la li ny nx
  refine ⟨by rw [p2, h2], fun y x => ?_⟩
  rw [p3, hs, h3]

theorem close_refl (a b : ℚ) (h : a = b) : |a - b| ≤ 1 / 100000000 + 1 / 100000 * |b| := by
  subst h
  rw [sub_self, abs_zero]
  positivity

theorem allClose_spec (n : Nat) (f h : Nat → ℚ) (e : allClose ((List.range n).map f) ((List.range n).map h) = true) (i : Nat) (hi : i < n) :
    |f i - h i| ≤ 1 / 100000000 + 1 / 100000 * |h i| := by
  unfold allClose at e
  rw [List.zip_map', List.all_eq_true] at e
  have := e (f i, h i) (List.mem_map.2 ⟨i, List.mem_range.2 hi, rfl⟩)
  exact of_decide_eq_true this

theorem rectilinear_spec {lon lat : ND ℚ} {Y X : Nat} (hlon : lon.shape = [Y, X]) (hlat : lat.shape = [Y, X]) (h : rectilinear lon lat = true)
    (y x : Nat) (hy : y < Y) (hx : x < X) :
    |lon.get [0, x] - lon.get [y, x]| ≤ 1 / 100000000 + 1 / 100000 * |lon.get [y, x]| ∧
    |lat.get [y, 0] - lat.get [y, x]| ≤ 1 / 100000000 + 1 / 100000 * |lat.get [y, x]| := by
  unfold rectilinear at h
  rw [Bool.and_eq_true, List.all_eq_true, List.all_eq_true] at h
  have h1 := h.1 y (by rw [hlon]; exact List.mem_range.2 hy)
  have h2 := h.2 x (by rw [hlat]; exact List.mem_range.2 hx)
  rw [Bool.or_eq_true] at h1 h2
  constructor
  · rcases h1 with e | e
    · have e := of_decide_eq_true e
      exact close_refl _ _ (by rw [e])
    · unfold row at e
      rw [hlon] at e
      exact allClose_spec X (fun x => lon.get [0, x]) (fun x => lon.get [y, x]) e x hx
  · rcases h2 with e | e
    · have e := of_decide_eq_true e
      exact close_refl _ _ (by rw [e])
    · unfold col at e
      rw [hlat] at e
      exact allClose_spec Y (fun y => lat.get [y, 0]) (fun y => lat.get [y, x]) e y hy

/-- The longitudes and latitudes before a flip. -/
theorem lonlat_spec (l : Layout) (ny nx nz : Nat) (r : Request) (f : NcFile) (hw : WellFormed l ny nx nz f)
    (lon lat : ND ℚ) (h : lonlat r f = some (lon, lat)) :
    (lon.shape = [(r.lonIdx f).length] ∧ lat.shape = [(r.latIdx f).length] ∧
      ∀ y x, y < (r.latIdx f).length → x < (r.lonIdx f).length →
        Agree (decide (f.lon.shape.length ≠ 1)) (lon.get [x]) (f.lonAt ((r.latIdx f).getD y 0) ((r.lonIdx f).getD x 0)) ∧
        Agree (decide (f.lon.shape.length ≠ 1)) (lat.get [y]) (f.latAt ((r.latIdx f).getD y 0) ((r.lonIdx f).getD x 0))) ∨
    (lon.shape = [(r.latIdx f).length, (r.lonIdx f).length] ∧ lat.shape = [(r.latIdx f).length, (r.lonIdx f).length] ∧
      ∀ y x, y < (r.latIdx f).length → x < (r.lonIdx f).length →
        lon.get [y, x] = f.lonAt ((r.latIdx f).getD y 0) ((r.lonIdx f).getD x 0) ∧
        lat.get [y, x] = f.latAt ((r.latIdx f).getD y 0) ((r.lonIdx f).getD x 0)) := by
  unfold lonlat at h
  simp only [Option.bind_eq_bind] at h
  rcases hw.coords with ⟨h1, h2⟩ | ⟨m, h1, h2⟩
  · left
    have hl : f.lon.shape.length = 1 := by rw [h1]; rfl
    have hl' : f.lat.shape.length = 1 := by rw [h2]; rfl
    rw [if_pos hl, Option.bind_eq_some_iff] at h
    obtain ⟨lon1, a1, h⟩ := h
    rw [Option.bind_eq_some_iff] at h
    obtain ⟨lat1, a2, h⟩ := h
    injection h with h
    injection h with e1 e2
    subst e1 e2
    obtain ⟨_, p2, p3⟩ := pick_some a1
    obtain ⟨_, q2, q3⟩ := pick_some a2
    refine ⟨p2, q2, fun y x _ _ => ?_⟩
    have : decide (f.lon.shape.length ≠ 1) = false := by simp [hl]
    rw [this]
    unfold Agree NcFile.lonAt NcFile.latAt
    rw [if_pos hl, if_pos hl', p3, q3, h1, h2]
    exact ⟨rfl, rfl⟩
  · have hl : ¬ f.lon.shape.length = 1 := by rw [h1]; simp
    have hl' : ¬ f.lat.shape.length = 1 := by rw [h2]; simp
    have heq : f.lat.shape.length = f.lon.shape.length := by rw [h1, h2]
    rw [if_neg hl, Option.bind_eq_some_iff] at h
    obtain ⟨lon1, a1, h⟩ := h
    rw [Option.bind_eq_some_iff] at h
    obtain ⟨lat1, a2, h⟩ := h
    obtain ⟨p2, p3⟩ := pick_pre h1 a1
    rw [← heq] at a2
    obtain ⟨q2, q3⟩ := pick_pre h2 a2
    have key : ∀ y x, lon1.get [y, x] = f.lonAt ((r.latIdx f).getD y 0) ((r.lonIdx f).getD x 0) ∧
        lat1.get [y, x] = f.latAt ((r.latIdx f).getD y 0) ((r.lonIdx f).getD x 0) := by
      intro y x
      unfold NcFile.lonAt NcFile.latAt
      rw [if_neg hl, if_neg hl', p3, q3]
      exact ⟨rfl, rfl⟩
    split at h
    · rename_i hrect
      left
      injection h with h
      injection h with e1 e2
      subst e1 e2
      refine ⟨by rw [p2]; rfl, by rw [q2]; rfl, fun y x hy hx => ?_⟩
      have ht : decide (f.lon.shape.length ≠ 1) = true := by simp [hl]
      rw [ht]
      unfold Agree
      rw [if_pos rfl, if_pos rfl, ← (key y x).1, ← (key y x).2]
      exact rectilinear_spec p2 q2 hrect y x hy hx
    · right
      injection h with h
      injection h with e1 e2
      subst e1 e2
      exact ⟨p2, q2, fun y x _ _ => key y x⟩

theorem agree_refl (tol : Bool) (a b : ℚ) (h : a = b) : Agree tol a b := by
  unfold Agree
  split
  · exact close_refl _ _ h
  · exact h

structure GridSpec (r : Request) (f : NcFile) (fs : List NcFile) (g : Grid) : Prop where
  xdim : g.xdim = (r.lonIdx f).length
  ydim : g.ydim = (r.latIdx f).length
  depth : (if r.useDepth then (∀ z, z < (r.depthIdx f).length → f.depth[(r.depthIdx f).getD z 0]? = some (g.depth.getD z 0)) else True)
  zdim : g.depth.length = (r.depthIdx f).length
  time : g.time = (fs.flatMap (·.time)).map (· - origin fs)
  inc : ∀ i, i + 1 < (fs.flatMap (·.time)).length → (fs.flatMap (·.time)).getD i 0 < (fs.flatMap (·.time)).getD (i + 1) 0
  coords : ∀ y x, y < g.ydim → x < g.xdim →
    Agree (decide (f.lon.shape.length ≠ 1)) (g.latAt y x) (f.latAt ((r.latIdx f).getD (g.rowOf y) 0) ((r.lonIdx f).getD x 0)) ∧
    Agree (decide (f.lon.shape.length ≠ 1)) (g.lonAt y x) (f.lonAt ((r.latIdx f).getD (g.rowOf y) 0) ((r.lonIdx f).getD x 0))
  row : ∀ y, y < g.ydim → g.rowOf y < g.ydim

theorem makeGrid_spec (l : Layout) (ny nx nz : Nat) (r : Request) (f : NcFile) (fs : List NcFile) (hf : fs.head? = some f)
    (hw : WellFormed l ny nx nz f) (g : Grid) (h : makeGrid r fs = some g) : GridSpec r f fs g := by
  unfold makeGrid at h
  simp only [Option.bind_eq_bind, hf, Option.bind_some] at h
  rw [Option.bind_eq_some_iff] at h
  obtain ⟨⟨lon, lat⟩, h1, h⟩ := h
  simp only [] at h
  rw [Option.bind_eq_some_iff] at h
  obtain ⟨dep, h2, h⟩ := h
  rw [Option.bind_eq_some_iff] at h
  obtain ⟨ts, h3, h⟩ := h
  cases h
  have hdep : (createGrid lon lat dep ts).depth = dep := by unfold createGrid; simp only []; split <;> rfl
  have htime : (createGrid lon lat dep ts).time = ts := by unfold createGrid; simp only []; split <;> rfl
  have hD : (if r.useDepth then (∀ z, z < (r.depthIdx f).length → f.depth[(r.depthIdx f).getD z 0]? = some (dep.getD z 0)) else True) ∧
      dep.length = (r.depthIdx f).length := by
    unfold depths at h2
    by_cases hu : r.useDepth = true
    · rw [if_pos hu] at h2 ⊢
      split at h2
      · rename_i hall
        cases h2
        refine ⟨fun z hz => ?_, by simp⟩
        have hlt := getD_all hall hz
        rw [List.getElem?_eq_getElem hlt, Option.some.injEq]
        have e : (List.map (fun k => f.depth.getD k 0) (r.depthIdx f)).getD z 0 = f.depth.getD ((r.depthIdx f).getD z 0) 0 := by
          rw [List.getD_eq_getElem _ _ (by simpa using hz), List.getElem_map, List.getD_eq_getElem (r.depthIdx f) _ hz]
        rw [e, List.getD_eq_getElem f.depth _ hlt]
      · cases h2
    · have hu' : r.useDepth = false := by simpa using hu
      rw [hu'] at h2 ⊢
      simp only [Bool.false_eq_true, if_false, Option.some.injEq] at h2 ⊢
      subst h2
      refine ⟨trivial, ?_⟩
      unfold Request.depthIdx
      rw [hu']
      rfl
  have hT : ts = (fs.flatMap (·.time)).map (· - origin fs) ∧
      ∀ i, i + 1 < (fs.flatMap (·.time)).length → (fs.flatMap (·.time)).getD i 0 < (fs.flatMap (·.time)).getD (i + 1) 0 := by
    unfold collectTimes at h3
    simp only [] at h3
    split at h3
    · rename_i hall
      cases h3
      refine ⟨rfl, fun i hi => ?_⟩
      rw [List.all_eq_true] at hall
      have := hall i (by rw [List.mem_range]; omega)
      simpa using this
    · cases h3
  rcases lonlat_spec l ny nx nz r f hw lon lat h1 with ⟨a1, a2, a3⟩ | ⟨a1, a2, a3⟩
  · have hc : (createGrid lon lat dep ts).curvilinear = false := by
      unfold Grid.curvilinear createGrid
      simp only []
      split <;> simp [a1]
    have hx : (createGrid lon lat dep ts).xdim = (r.lonIdx f).length := by
      unfold Grid.xdim createGrid
      simp only []
      split <;> rw [a1] <;> rfl
    have hy : (createGrid lon lat dep ts).ydim = (r.latIdx f).length := by
      unfold Grid.ydim
      rw [hc]
      simp only [Bool.false_eq_true, if_false]
      unfold createGrid
      simp only []
      split <;> rw [a2] <;> rfl
    have hrow : ∀ y, y < (createGrid lon lat dep ts).ydim → (createGrid lon lat dep ts).rowOf y < (createGrid lon lat dep ts).ydim := by
      intro y hy'
      unfold Grid.rowOf
      split <;> omega
    refine ⟨hx, hy, by rw [hdep]; exact hD.1, by rw [hdep]; exact hD.2, by rw [htime]; exact hT.1, hT.2, ?_, hrow⟩
    intro y x hy' hx'
    have hr := hrow y hy'
    obtain ⟨b1, b2⟩ := a3 ((createGrid lon lat dep ts).rowOf y) x (by rw [← hy]; exact hr) (by rw [← hx]; exact hx')
    have e1 : (createGrid lon lat dep ts).latAt y x = lat.get [(createGrid lon lat dep ts).rowOf y] := by
      unfold Grid.latAt Grid.rowOf
      rw [hc, hy]
      simp only [Bool.false_eq_true, if_false]
      unfold createGrid
      simp only []
      split
      · rw [a2]; rfl
      · rfl
    have e2 : (createGrid lon lat dep ts).lonAt y x = lon.get [x] := by
      unfold Grid.lonAt
      rw [hc]
      simp only [Bool.false_eq_true, if_false]
      unfold createGrid
      simp only []
      split <;> rfl
    rw [e1, e2]
    exact ⟨b2, b1⟩
  · have he : createGrid lon lat dep ts = ⟨lon, lat, dep, ts, false⟩ := by
      unfold createGrid
      simp only []
      rw [if_neg]
      rw [a1]; simp
    have hc : (createGrid lon lat dep ts).curvilinear = true := by
      rw [he]; unfold Grid.curvilinear; simp [a1]
    have hx : (createGrid lon lat dep ts).xdim = (r.lonIdx f).length := by
      rw [he]; unfold Grid.xdim; simp [a1]
    have hy : (createGrid lon lat dep ts).ydim = (r.latIdx f).length := by
      unfold Grid.ydim; rw [hc, he]; simp [a1]
    have hrow : ∀ y, (createGrid lon lat dep ts).rowOf y = y := by
      intro y; rw [he]; rfl
    refine ⟨hx, hy, by rw [hdep]; exact hD.1, by rw [hdep]; exact hD.2, by rw [htime]; exact hT.1, hT.2, ?_, fun y h => by rw [hrow]; exact h⟩
    intro y x hy' hx'
    obtain ⟨b1, b2⟩ := a3 y x (by rw [← hy]; exact hy') (by rw [← hx]; exact hx')
    rw [hrow]
    have e1 : (createGrid lon lat dep ts).latAt y x = lat.get [y, x] := by
      unfold Grid.latAt; rw [hc, he]; rfl
    have e2 : (createGrid lon lat dep ts).lonAt y x = lon.get [y, x] := by
      unfold Grid.lonAt; rw [hc, he]; rfl
    rw [e1, e2]
    exact ⟨agree_refl _ _ _ b2, agree_refl _ _ _ b1⟩

end Parcels.Load
