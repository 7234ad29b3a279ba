import Verif.Proofs.Load2

/-!
Helper lemmas for C69: direct loads.
-/

namespace Parcels.Load

theorem sameAxes_at {fs : List NcFile} (h : SameAxes fs) {f f0 : NcFile} (hf : f ∈ fs) (h0 : f0 ∈ fs) :
    f.depth = f0.depth ∧ f.lonAt = f0.lonAt ∧ f.latAt = f0.latAt := by
  obtain ⟨h1, h2, h3⟩ := h f hf f0 h0
  refine ⟨h3, ?_, ?_⟩
  · funext y x; unfold NcFile.lonAt; rw [h1]
  · funext y x; unfold NcFile.latAt; rw [h2]

theorem sum_len (l : List NcFile) : (l.map fun f => f.time.length).sum = (l.flatMap (·.time)).length := by
  rw [List.length_flatMap]

/-- The requested levels are levels of the grid. -/
theorem picked_getD (r : Request) (f : NcFile) (nz z : Nat) (h : z < (picked r f nz).length) :
    z < (r.depthIdx f).length ∧ (picked r f nz).getD z 0 = (r.depthIdx f).getD z 0 := by
  simp only [picked_eq] at *
  split at h
  · rename_i hs
    rw [List.length_dropLast] at h
    refine ⟨by omega, ?_⟩
    rw [if_pos hs, List.getD_eq_getElem _ _ (by rw [List.length_dropLast]; exact h), List.getD_eq_getElem _ _ (by omega),
      List.getElem_dropLast]
  · rename_i hs
    exact ⟨h, by rw [if_neg hs]⟩

/-- The depths of the levels. -/
theorem level_depth {r : Request} {f0 : NcFile} {fs : List NcFile} {g : Grid} (hg : GridSpec r f0 fs g) (nz z : Nat)
    (hz : z < (picked r f0 nz).length) :
    if r.useDepth then f0.depth[(picked r f0 nz).getD z 0]? = some (g.depth.getD z 0) else (picked r f0 nz).getD z 0 = 0 := by
  obtain ⟨h1, h2⟩ := picked_getD r f0 nz z hz
  rw [h2]
  have hd := hg.depth
  by_cases hu : r.useDepth = true
  · rw [if_pos hu] at hd ⊢
    exact hd z h1
  · rw [if_neg hu]
    have : r.depthIdx f0 = [0] := by unfold Request.depthIdx; rw [if_neg hu]
    rw [this] at h1 ⊢
    have : z = 0 := by simpa using h1
    subst this
    rfl

theorem loadOn_spec (l : Layout) (ny nx nz : Nat) (r : Request) (f0 : NcFile) (fs : List NcFile) (hf : fs.head? = some f0)
    (hw : ∀ f ∈ fs, WellFormed l ny nx nz f) (hs : SameAxes fs) (hnz : 1 ≤ nz)
    (hflat : l.hasDepth = false → r.depthIdx f0 = [0]) (hzyx : l = .zyx → 1 < (r.depthIdx f0).length)
    (g : Grid) (hg : GridSpec r f0 fs g) (d : ND ℚ) (h : loadOn r g fs = some d) (k : Nat) (hk : k < g.time.length) :
    Holds (decide (f0.lon.shape.length ≠ 1)) l r (r.latIdx f0) (r.lonIdx f0) fs g (picked r f0 nz).length d k k := by
  have h0 : f0 ∈ fs := List.mem_of_mem_head? (by rw [hf]; rfl)
  unfold loadOn at h
  simp only [Option.bind_eq_bind, hf, Option.bind_some] at h
  rw [Option.bind_eq_some_iff] at h
  obtain ⟨parts, h1, h⟩ := h
  rw [Option.bind_eq_some_iff] at h
  obtain ⟨d0, h2, h3⟩ := h
  have hall := mapM_forall₂ _ _ _ h1
  have hall' : List.Forall₂ (fun f b => f ∈ fs ∧ readAll r (r.latIdx f0) (r.lonIdx f0) (r.depthIdx f0) (fullZ r f0) f = some b) fs parts := by
    rw [List.forall₂_iff_get] at hall ⊢
    refine ⟨hall.1, fun i a b => ⟨List.get_mem _ _, hall.2 i a b⟩⟩
  have hP := hall'.imp (S := fun f b => f ∈ fs ∧ b.shape = [f.time.length, (picked r f0 nz).length, (r.latIdx f0).length, (r.lonIdx f0).length] ∧
      ∀ t z y x, t < f.time.length → z < (picked r f0 nz).length → y < (r.latIdx f0).length → x < (r.lonIdx f0).length →
        b.get [t, z, y, x] = l.value f t ((picked r f0 nz).getD z 0) ((r.latIdx f0).getD y 0) ((r.lonIdx f0).getD x 0)) (by
    rintro f b ⟨hm, hb⟩
    obtain ⟨c1, _, _, c4⟩ := readAll_spec l ny nx nz r f f0 (hw f hm) hnz (sameAxes_at hs hm h0).1 hflat hzyx _ _ b hb
    exact ⟨hm, c1, c4⟩)
  obtain ⟨d1, d2, d3, dd, d4⟩ := concat_some h2
  have hheads : (parts.map fun a => a.shape.headD 0).sum = g.time.length := by
    have : parts.map (fun a => a.shape.headD 0) = fs.map (fun f => f.time.length) := by
      clear d1 d2 d3 d4 h2 h3 h1 hall hall'
      generalize hgs : (fun f (b : ND ℚ) => f ∈ fs ∧ b.shape = [f.time.length, (picked r f0 nz).length, (r.latIdx f0).length, (r.lonIdx f0).length] ∧
        ∀ t z y x, t < f.time.length → z < (picked r f0 nz).length → y < (r.latIdx f0).length → x < (r.lonIdx f0).length →
          b.get [t, z, y, x] = l.value f t ((picked r f0 nz).getD z 0) ((r.latIdx f0).getD y 0) ((r.lonIdx f0).getD x 0)) = P at hP
      have hP' : ∀ f b, P f b → b.shape.headD 0 = f.time.length := by
        intro f b hpb
        rw [← hgs] at hpb
        rw [hpb.2.1]; rfl
      clear hgs hw hs hg hf h0 hk
      induction hP with
      | nil => rfl
      | cons a b ih => simp only [List.map_cons]; rw [hP' _ _ a, ih]
    rw [this, sum_len, hg.time, List.length_map]
  have htail : d0.shape.tail = [(picked r f0 nz).length, (r.latIdx f0).length, (r.lonIdx f0).length] := by
    cases hP with
    | nil => simp at h0
    | @cons f b fs' parts' a _ =>
      have := d2 b (by simp)
      rw [a.2.1] at this
      simp only [List.headD_cons, List.cons.injEq, true_and] at this
      exact this.symm
  have hshape : d0.shape = [g.time.length, (picked r f0 nz).length, g.ydim, g.xdim] := by
    rw [d3, d1, hheads, htail, hg.xdim, hg.ydim]
  intro z y x hz hy hx
  have hval := fieldReshape_value g g.time.length _ r.pop d0 d hshape h3 k z y x hk hz hy hx
  obtain ⟨f, hm, a, t, hpa, ht, hte, hloc⟩ := locate_spec _ fs parts hP (·.time) (fun f a hp => by rw [hp.2.1]; rfl) k (by rw [hheads]; exact hk)
  obtain ⟨e1, e2, e3⟩ := sameAxes_at hs hm h0
  have hrow := hg.row y hy
  refine ⟨f, hm, t, (picked r f0 nz).getD z 0, (r.latIdx f0).getD (g.rowOf y) 0, (r.lonIdx f0).getD x 0, getD_mem (by rw [← hg.ydim]; exact hrow), getD_some_of (by rw [← hg.xdim]; exact hx), ?_, ?_, ?_, ?_, ?_⟩
  · rw [hte, hg.time]
    rw [hg.time, List.length_map] at hk
    rw [List.getElem?_eq_getElem hk, List.getD_eq_getElem _ _ (by simpa using hk), List.getElem_map]
    simp
  · rw [e1]; exact level_depth hg nz z hz
  · rw [e3]; exact (hg.coords y x hy hx).1
  · rw [e2]; exact (hg.coords y x hy hx).2
  · rw [hval, d4, hloc]
    exact hpa.2.2 t z (g.rowOf y) x ht hz (by rw [← hg.ydim]; exact hrow) (by rw [← hg.xdim]; exact hx)

end Parcels.Load
