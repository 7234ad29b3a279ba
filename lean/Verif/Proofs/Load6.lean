import Verif.Proofs.Load5

/-!
Helper lemmas for C69: files that load.
-/

namespace Parcels.Load
open Parcels.Search Parcels.TimeInterp Parcels.TimeChunk

theorem all_lt {l : List Nat} {n : Nat} (h : ∀ i ∈ l, i < n) : (l.all fun i => decide (i < n)) = true := by
  rw [List.all_eq_true]
  intro i hi
  simpa using h i hi

theorem pick_ok {a : ND ℚ} {ss : List Sel} (h : selOk ss a.shape = true) : ∃ b, a.pick ss = some b := by
  unfold ND.pick
  rw [if_pos h]
  exact ⟨_, rfl⟩

theorem mapM_ok {β γ : Type} (f : β → Option γ) : ∀ l : List β, (∀ a ∈ l, ∃ b, f a = some b) → ∃ m, l.mapM f = some m := by
  intro l
  induction l with
  | nil => intro _; exact ⟨[], rfl⟩
  | cons a l ih =>
    intro h
    obtain ⟨b, hb⟩ := h a (by simp)
    obtain ⟨m, hm⟩ := ih (fun x hx => h x (by simp [hx]))
    refine ⟨b :: m, ?_⟩
    rw [List.mapM_cons, hb, hm]
    rfl

theorem concat_ok (as : List (ND ℚ)) (hne : as ≠ []) (tl : List Nat) (h : ∀ a ∈ as, ∃ n, a.shape = n :: tl) : ∃ b, concat as = some b := by
  rcases as with _ | ⟨a, as⟩
  · exact absurd rfl hne
  · unfold concat
    simp only []
    rw [if_pos]
    · exact ⟨_, rfl⟩
    · rw [List.all_eq_true]
      intro b hb
      obtain ⟨n, hn⟩ := h b hb
      obtain ⟨m, hm⟩ := h a (by simp)
      simp [hn, hm]

theorem reshape_ok {a : ND ℚ} {s : List Nat} (h : prod a.shape = prod s) : ∃ b, a.reshape s = some b := by
  unfold ND.reshape
  rw [if_pos h]
  exact ⟨_, rfl⟩

theorem lonlat_ok (l : Layout) (ny nx nz : Nat) (r : Request) (f : NcFile) (hw : WellFormed l ny nx nz f) (hi : InFile r f ny nx nz) :
    ∃ p, lonlat r f = some p := by
  unfold lonlat
  simp only [Option.bind_eq_bind]
  rcases hw.coords with ⟨h1, h2⟩ | ⟨m, h1, h2⟩
  · have hl : f.lon.shape.length = 1 := by rw [h1]; rfl
    rw [if_pos hl]
    obtain ⟨b, hb⟩ := pick_ok (a := f.lon) (ss := [.many (r.lonIdx f)]) (by rw [h1]; simp only [selOk, all_lt (hi.lon' hw), Bool.and_self])
    obtain ⟨c, hc⟩ := pick_ok (a := f.lat) (ss := [.many (r.latIdx f)]) (by rw [h2]; simp only [selOk, all_lt (hi.lat' hw), Bool.and_self])
    rw [hb, hc]
    exact ⟨_, rfl⟩
  · have hl : ¬ f.lon.shape.length = 1 := by rw [h1]; simp
    have hlen : f.lon.shape.length - 2 = m := by rw [h1]; simp
    have hok : selOk (List.replicate m (Sel.one 0) ++ [.many (r.latIdx f), .many (r.lonIdx f)]) (List.replicate m 1 ++ [ny, nx]) = true := by
      rw [(sel_pre m _ _ ny nx).1]
      simp only [selOk, all_lt (hi.lat' hw), all_lt (hi.lon' hw), Bool.and_self]
    rw [if_neg hl, hlen]
    obtain ⟨b, hb⟩ := pick_ok (a := f.lon) (by rw [h1]; exact hok)
    obtain ⟨c, hc⟩ := pick_ok (a := f.lat) (by rw [h2]; exact hok)
    rw [hb, hc, Option.bind_some, Option.bind_some]
    split <;> exact ⟨_, rfl⟩

theorem makeGrid_ok (l : Layout) (ny nx nz : Nat) (r : Request) (f : NcFile) (fs : List NcFile) (hf : fs.head? = some f)
    (hw : WellFormed l ny nx nz f) (hi : InFile r f ny nx nz)
    (hT : Increasing (fs.flatMap (·.time))) : ∃ g, makeGrid r fs = some g := by
  unfold makeGrid
  simp only [Option.bind_eq_bind, hf, Option.bind_some]
  obtain ⟨p, hp⟩ := lonlat_ok l ny nx nz r f hw hi
  rw [hp, Option.bind_some]
  have h2 : ∃ d, depths r f = some d := by
    unfold depths
    by_cases hu : r.useDepth = true
    · rw [if_pos hu, if_pos (all_lt (l := r.depthIdx f) (hi.depth hu))]; exact ⟨_, rfl⟩
    · rw [if_neg hu]; exact ⟨_, rfl⟩
  obtain ⟨d, hd⟩ := h2
  have h3 : ∃ t, collectTimes fs = some t := by
    unfold collectTimes
    simp only []
    rw [if_pos]
    · exact ⟨_, rfl⟩
    · rw [List.all_eq_true]
      intro i hi
      rw [List.mem_range] at hi
      have := inc_lt hT (Nat.lt_succ_self i) (show i + 1 < _ by omega)
      simpa using this
  obtain ⟨t, ht⟩ := h3
  rw [hd, ht]
  exact ⟨_, rfl⟩

/-- The shape `applyIndices` gives. -/
def selOf (l : Layout) (ti : Sel) (Z Y X : Nat) : List Nat :=
  match l, ti with
  | .yx, _ => [Y, X]
  | .tyx, .many q => [q.length, Y, X]
  | .tyx, .one _ => [Y, X]
  | .zyx, _ => [Z, Y, X]
  | .tzyx, .many q => [q.length, Z, Y, X]
  | .tzyx, .one _ => [Z, Y, X]

/-- What `applyIndices` selects, layout by layout. -/
theorem applyIndices_ok (l : Layout) (ny nx nz : Nat) (r : Request) (f f0 : NcFile) (hw : WellFormed l ny nx nz f) (hnz : 1 ≤ nz)
    (hd : f.depth = f0.depth)
    (hflat : l.hasDepth = false → r.depthIdx f0 = [0]) (hzyx : l = .zyx → 1 < (r.depthIdx f0).length)
    (hw0 : WellFormed l ny nx nz f0) (hi : InFile r f0 ny nx nz) (ti : Sel)
    (hti : match ti with
      | .many q => ∀ i ∈ q, i < f.time.length
      | .one i => -(f.time.length : ℤ) ≤ i ∧ i < f.time.length) :
    ∃ b, applyIndices r (r.latIdx f0) (r.lonIdx f0) (r.depthIdx f0) (fullZ r f0) f.data ti = some b ∧
      b.shape = selOf l ti (picked r f0 nz).length (r.latIdx f0).length (r.lonIdx f0).length := by
  have hdata := hw.data
  have htiok : ∀ (ss : List Sel) (s : List Nat), selOk ss s = true → selOk (ti :: ss) (f.time.length :: s) = true := by
    intro ss s h
    rcases ti with q | i
    · simp only [selOk, all_lt hti, h, Bool.and_self]
    · simp only [] at hti
      simp only [selOk, hti.1, hti.2, h, decide_true, Bool.and_self]
  have hyx : selOk [.many (r.latIdx f0), .many (r.lonIdx f0)] [ny, nx] = true := by
    simp only [selOk, all_lt (hi.lat' hw0), all_lt (hi.lon' hw0), Bool.and_self]
  have hzyx' : selOk [.many (picked r f0 nz), .many (r.latIdx f0), .many (r.lonIdx f0)] [nz, ny, nx] = true := by
    simp only [selOk, all_lt (hi.lat' hw0), all_lt (hi.lon' hw0), all_lt hi.levels, Bool.and_self]
  unfold applyIndices
  rcases l with _ | _ | _ | _
  · simp only [] at hdata
    rw [hdata]
    simp only [List.length_cons, List.length_nil, if_true]
    obtain ⟨b, hb⟩ := pick_ok (a := f.data) (by rw [hdata]; exact hyx)
    exact ⟨b, hb, (pick_some hb).2.1⟩
  · have hdl := hflat rfl
    simp only [] at hdata
    have hext : extendDepth r [0] (fullZ r f0) f.time.length = false := by
      unfold extendDepth
      have := hw.times
      by_cases c : fullZ r f0 = 1
      · have : ¬ (f.time.length + 1 = fullZ r f0) := by omega
        simp [this]
      · have : ¬ (1 = fullZ r f0) := fun e => c e.symm
        simp [this]
    rw [hdata]
    simp only [List.length_cons, List.length_nil, List.getD_cons_zero, hdl, hext]
    simp only [Nat.reduceAdd, Nat.reduceEqDiff, if_false, if_true, Bool.false_eq_true, lt_self_iff_false]
    obtain ⟨b, hb⟩ := pick_ok (a := f.data) (by rw [hdata]; exact htiok _ _ hyx)
    exact ⟨b, hb, by rw [(pick_some hb).2.1]; cases ti <;> rfl⟩
  · have hlt := hzyx rfl
    simp only [] at hdata
    rw [hdata]
    simp only [List.length_cons, List.length_nil, List.getD_cons_zero, extend_short r f f0 hd nz hnz]
    simp only [Nat.reduceAdd, Nat.reduceEqDiff, if_false, if_true, hlt]
    obtain ⟨b, hb⟩ := pick_ok (a := f.data) (by rw [hdata]; exact hzyx')
    refine ⟨b, ?_, (pick_some hb).2.1⟩
    rw [picked_eq] at hb
    split <;> rename_i hc
    · rw [if_pos hc] at hb; exact hb
    · rw [if_neg hc] at hb; exact hb
  · simp only [] at hdata
    rw [hdata]
    simp only [List.length_cons, List.length_nil, List.getD_cons_zero, List.getD_cons_succ, extend_short r f f0 hd nz hnz]
    simp only [Nat.reduceAdd, Nat.reduceEqDiff, if_false]
    obtain ⟨b, hb⟩ := pick_ok (a := f.data) (by rw [hdata]; exact htiok _ _ hzyx')
    refine ⟨b, ?_, by rw [(pick_some hb).2.1]; cases ti <;> rfl⟩
    rw [picked_eq] at hb
    split <;> rename_i hc
    · rw [if_pos hc] at hb; exact hb
    · rw [if_neg hc] at hb; exact hb

theorem readAll_ok (l : Layout) (ny nx nz : Nat) (r : Request) (f f0 : NcFile) (hw : WellFormed l ny nx nz f) (hnz : 1 ≤ nz)
    (hd : f.depth = f0.depth)
    (hflat : l.hasDepth = false → r.depthIdx f0 = [0]) (hzyx : l = .zyx → 1 < (r.depthIdx f0).length)
    (hw0 : WellFormed l ny nx nz f0) (hi : InFile r f0 ny nx nz) :
    ∃ b, readAll r (r.latIdx f0) (r.lonIdx f0) (r.depthIdx f0) (fullZ r f0) f = some b := by
  unfold readAll
  have hti : ∀ i ∈ List.range (f.data.shape.headD 0), l = .tyx ∨ l = .tzyx → i < f.time.length := by
    intro i h hl
    have hdata := hw.data
    rcases hl with rfl | rfl <;> · simp only [] at hdata; rw [hdata] at h; simpa using h
  have hex : ∃ b, applyIndices r (r.latIdx f0) (r.lonIdx f0) (r.depthIdx f0) (fullZ r f0) f.data (.many (List.range (f.data.shape.headD 0))) = some b ∧
      b.shape = l.shape f.time.length (picked r f0 nz).length (r.latIdx f0).length (r.lonIdx f0).length := by
    have hdata := hw.data
    rcases l with _ | _ | _ | _
    · obtain ⟨b, h1, h2⟩ := applyIndices_ok .yx ny nx nz r f f0 hw hnz hd hflat hzyx hw0 hi (.many []) (by simp)
      refine ⟨b, ?_, h2⟩
      rw [← h1]
      simp only [] at hdata
      unfold applyIndices
      simp [hdata]
    · obtain ⟨b, h1, h2⟩ := applyIndices_ok .tyx ny nx nz r f f0 hw hnz hd hflat hzyx hw0 hi (.many (List.range (f.data.shape.headD 0)))
        (fun i h => hti i h (Or.inl rfl))
      refine ⟨b, h1, ?_⟩
      rw [h2]
      simp only [] at hdata
      simp [selOf, Layout.shape, hdata]
    · obtain ⟨b, h1, h2⟩ := applyIndices_ok .zyx ny nx nz r f f0 hw hnz hd hflat hzyx hw0 hi (.many []) (by simp)
      refine ⟨b, ?_, h2⟩
      rw [← h1]
      simp only [] at hdata
      have := hzyx rfl
      unfold applyIndices
      simp only [hdata, List.length_cons, List.length_nil, this, if_true]
    · obtain ⟨b, h1, h2⟩ := applyIndices_ok .tzyx ny nx nz r f f0 hw hnz hd hflat hzyx hw0 hi (.many (List.range (f.data.shape.headD 0)))
        (fun i h => hti i h (Or.inr rfl))
      refine ⟨b, h1, ?_⟩
      rw [h2]
      simp only [] at hdata
      simp [selOf, Layout.shape, hdata]
  obtain ⟨b, hb, hs⟩ := hex
  rw [hb, Option.bind_eq_bind, Option.bind_some]
  rcases l with _ | _ | _ | _
  · have := hw.single (Or.inl rfl)
    simp only [Layout.shape] at hs
    rw [hs, this]
    simp only [List.length_cons, List.length_nil, if_true]
    exact reshape_ok (by rw [hs]; simp [prod])
  · have hdl := hflat rfl
    simp only [Layout.shape] at hs
    rw [hs, hdl]
    simp only [List.length_cons, List.length_nil, Nat.reduceAdd, Nat.reduceEqDiff, if_false, if_true, lt_self_iff_false, List.tail_cons]
    exact reshape_ok (by rw [hs]; simp [prod])
  · have hlt := hzyx rfl
    simp only [Layout.shape] at hs
    rw [hs]
    simp only [List.length_cons, List.length_nil, Nat.reduceAdd, Nat.reduceEqDiff, if_false, if_true, hlt]
    exact reshape_ok (by rw [hs]; simp [prod])
  · simp only [Layout.shape] at hs
    rw [hs]
    simp

/-- Lengths of the requested levels and of the requested depths. -/
theorem picked_length (r : Request) (f : NcFile) (nz : Nat) :
    (picked r f nz).length = if r.short f nz then (r.depthIdx f).length - 1 else (r.depthIdx f).length := by
  rw [picked_eq]
  split <;> simp

theorem loadDirect_ok (l : Layout) (ny nx nz : Nat) (r : Request) (f0 : NcFile) (fs : List NcFile) (hf : fs.head? = some f0)
    (hw : ∀ f ∈ fs, WellFormed l ny nx nz f) (hs : SameAxes fs) (hnz : 1 ≤ nz)
    (hflat : l.hasDepth = false → r.depthIdx f0 = [0]) (hzyx : l = .zyx → 1 < (r.depthIdx f0).length)
    (hi : InFile r f0 ny nx nz) (hT : Increasing (fs.flatMap (·.time))) (hpop : r.short f0 nz = true → r.pop = true) :
    ∃ g d, loadDirect r fs = some (g, d) := by
  have h0 : f0 ∈ fs := List.mem_of_mem_head? (by rw [hf]; rfl)
  obtain ⟨g, hg⟩ := makeGrid_ok l ny nx nz r f0 fs hf (hw f0 h0) hi hT
  have hG := makeGrid_spec l ny nx nz r f0 fs hf (hw f0 h0) g hg
  have hall : ∀ f ∈ fs, ∃ b, readAll r (r.latIdx f0) (r.lonIdx f0) (r.depthIdx f0) (fullZ r f0) f = some b :=
    fun f hm => readAll_ok l ny nx nz r f f0 (hw f hm) hnz (sameAxes_at hs hm h0).1 hflat hzyx (hw f0 h0) hi
  obtain ⟨parts, hp⟩ := mapM_ok _ fs hall
  have hF := mapM_forall₂ _ _ _ hp
  have hshape : ∀ b ∈ parts, ∃ n, b.shape = n :: [(picked r f0 nz).length, (r.latIdx f0).length, (r.lonIdx f0).length] := by
    intro b hb
    rw [List.forall₂_iff_get] at hF
    obtain ⟨i, hi', he⟩ := List.getElem_of_mem hb
    have hi2 : i < fs.length := by rw [hF.1]; exact hi'
    have := hF.2 i hi2 hi'
    have hm : fs.get ⟨i, hi2⟩ ∈ fs := List.get_mem _ _
    have hc := (readAll_spec l ny nx nz r _ f0 (hw _ hm) hnz (sameAxes_at hs hm h0).1 hflat hzyx _ _ _ this).1
    rw [List.get_eq_getElem (l := parts)] at hc
    simp only [he] at hc
    exact ⟨_, hc⟩
  have hpne : parts ≠ [] := by
    intro e
    rw [e] at hF
    cases hF
    simp at h0
  obtain ⟨d0, hd0⟩ := concat_ok parts hpne _ hshape
  have hd0s : d0.shape = Layout.tzyx.shape g.time.length (picked r f0 nz).length g.ydim g.xdim := by
    obtain ⟨d1, d2, d3, _⟩ := concat_some hd0
    have htail : d0.shape.tail = [(picked r f0 nz).length, (r.latIdx f0).length, (r.lonIdx f0).length] := by
      obtain ⟨b, hb⟩ := List.exists_mem_of_ne_nil _ hpne
      obtain ⟨n, hn⟩ := hshape b hb
      have := d2 b hb
      rw [hn] at this
      simp only [List.headD_cons, List.cons.injEq, true_and] at this
      exact this.symm
    have hsum : (parts.map fun a => a.shape.headD 0).sum = g.time.length := by
      have : parts.map (fun a => a.shape.headD 0) = fs.map (fun f => f.time.length) := by
        rw [List.forall₂_iff_get] at hF
        apply List.ext_getElem (by simp [hF.1])
        intro i hi1 hi2
        rw [List.length_map] at hi1 hi2
        have hm : fs.get ⟨i, hi2⟩ ∈ fs := List.get_mem _ _
        have hc := (readAll_spec l ny nx nz r _ f0 (hw _ hm) hnz (sameAxes_at hs hm h0).1 hflat hzyx _ _ _ (hF.2 i hi2 hi1)).1
        rw [List.getElem_map, List.getElem_map]
        rw [List.get_eq_getElem (l := parts)] at hc
        simp only [] at hc
        rw [hc]; rfl
      rw [this, sum_len, hG.time, List.length_map]
    rw [d3, d1, hsum, htail, hG.ydim, hG.xdim]
    rfl
  have hlen := picked_length r f0 nz
  obtain ⟨b, hb, _⟩ := reshape_documented g g.time.length (picked r f0 nz).length r.pop .tzyx d0 hd0s (by simp) (by simp [Layout.hasDepth]) (by
    rw [hG.zdim, hlen]
    have := hi.some
    by_cases c : r.short f0 nz = true
    · right
      rw [if_pos c] at hlen ⊢
      exact ⟨hpop c, by omega, by omega⟩
    · left
      rw [if_neg c])
  refine ⟨g, b, ?_⟩
  unfold loadDirect
  rw [hg, Option.bind_eq_bind, Option.bind_some]
  unfold loadOn
  simp only [Option.bind_eq_bind, hf, Option.bind_some, hp, hd0, hb]

end Parcels.Load
