import Verif.Proofs.Load6

/-!
Helper lemmas for C69: deferred loads that succeed.
-/

namespace Parcels.Load
open Parcels.Search Parcels.TimeInterp Parcels.TimeChunk

theorem tiOf_range (ts : List ℚ) (t : ℚ) (h : 1 ≤ ts.length) : -(ts.length : ℤ) ≤ tiOf ts t ∧ tiOf ts t < ts.length := by
  unfold tiOf
  have := List.findIdx_le_length (xs := ts) (p := fun v => !decide (v ≤ t))
  split <;> omega

theorem readRecord_ok (l : Layout) (ny nx nz : Nat) (r : Request) (f0 : NcFile) (fs : List NcFile) (hf : fs.head? = some f0)
    (hw : ∀ f ∈ fs, WellFormed l ny nx nz f) (hs : SameAxes fs) (hnz : 1 ≤ nz)
    (hflat : l.hasDepth = false → r.depthIdx f0 = [0]) (hzyx : l = .zyx → 1 < (r.depthIdx f0).length)
    (hi : InFile r f0 ny nx nz)
    (g : Grid) (hg : GridSpec r f0 fs g) (k : Nat) (hk : k < g.time.length) : ∃ b, readRecord r g fs k = some b := by
  have h0 : f0 ∈ fs := List.mem_of_mem_head? (by rw [hf]; rfl)
  unfold readRecord
  simp only [Option.bind_eq_bind, hf, Option.bind_some]
  obtain ⟨f, a, hfa, hta, hti⟩ := record_found hg k hk
  rw [hfa, Option.bind_some]
  have hm : f ∈ fs := List.mem_of_getElem? hfa
  have hwf := hw f hm
  have hr := tiOf_range (f.time.map (· - origin fs)) (g.time.getD k 0) (by rw [List.length_map]; exact hwf.times)
  rw [List.length_map] at hr
  generalize tiOf (f.time.map (· - origin fs)) (g.time.getD k 0) = ti at *
  obtain ⟨c, hc, hsh⟩ := applyIndices_ok l ny nx nz r f f0 hwf hnz (sameAxes_at hs hm h0).1 hflat hzyx (hw f0 h0) hi (.one ti) hr
  rw [hc, Option.bind_some]
  rcases l with _ | _ | _ | _ <;> simp only [selOf] at hsh <;> rw [hsh] <;>
    simp only [List.length_cons, List.length_nil, Nat.reduceAdd, Nat.reduceEqDiff, if_false, if_true, true_and]
  · exact reshape_ok (by rw [hsh]; simp [prod])
  · exact reshape_ok (by rw [hsh]; simp [prod])
  · split <;> exact reshape_ok (by rw [hsh]; simp [prod])
  · split <;> exact reshape_ok (by rw [hsh]; simp [prod])

theorem putSlot_ok (d buf : ND ℚ) (i : Nat) (tl : List Nat) (hd : d.shape.tail = tl) (hb : buf.shape = 1 :: tl) : ∃ e, putSlot d buf i = some e := by
  unfold putSlot
  split
  · refine concat_ok _ (by simp) tl ?_
    intro a ha
    simp only [List.mem_cons, List.not_mem_nil, or_false] at ha
    rcases ha with rfl | rfl
    · exact ⟨_, hb⟩
    · exact ⟨1, by unfold ND.slot; rw [hd]⟩
  · refine concat_ok _ (by simp) tl ?_
    intro a ha
    simp only [List.mem_cons, List.not_mem_nil, or_false] at ha
    rcases ha with rfl | rfl
    · exact ⟨1, by unfold ND.slot; rw [hd]⟩
    · exact ⟨_, hb⟩

section
variable (l : Layout) (ny nx nz : Nat) (r : Request) (f0 : NcFile) (fs : List NcFile) (hf : fs.head? = some f0)
    (hw : ∀ f ∈ fs, WellFormed l ny nx nz f) (hs : SameAxes fs) (hnz : 1 ≤ nz)
    (hflat : l.hasDepth = false → r.depthIdx f0 = [0]) (hzyx : l = .zyx → 1 < (r.depthIdx f0).length)
    (hi : InFile r f0 ny nx nz) (hpop : r.short f0 nz = (r.pop && decide (1 < (r.depthIdx f0).length)))
    (g : Grid) (hg : GridSpec r f0 fs g) (junk : List Nat → ℚ)

include hpop hg in
theorem emptyPair_tail : (emptyPair r g junk).shape = [2, (picked r f0 nz).length, g.ydim, g.xdim] := by
  unfold emptyPair
  rw [picked_length, hpop, hg.zdim]
  simp only [Bool.and_eq_true, decide_eq_true_eq]

include hi hpop hg in
theorem reshape_pair (d : ND ℚ) (hd : d.shape = [2, (picked r f0 nz).length, g.ydim, g.xdim]) :
    ∃ e, fieldReshape g 2 r.pop false d = some e := by
  obtain ⟨b, hb, _⟩ := reshape_documented g 2 (picked r f0 nz).length r.pop .tzyx d hd (by simp) (by simp [Layout.hasDepth]) (by
    have hlen := picked_length r f0 nz
    rw [hg.zdim, hlen]
    have := hi.some
    by_cases c : r.short f0 nz = true
    · right
      rw [if_pos c] at hlen ⊢
      rw [c] at hpop
      simp only [Bool.true_eq, Bool.and_eq_true, decide_eq_true_eq] at hpop
      exact ⟨hpop.1, by omega, by omega⟩
    · left
      rw [if_neg c])
  exact ⟨b, hb⟩

include hf hw hs hnz hflat hzyx hi hpop hg in
theorem loadPair_ok (n : Nat) (hn : n + 1 < g.time.length) : ∃ d, loadPair r g fs junk n = some d := by
  obtain ⟨b0, h0⟩ := readRecord_ok l ny nx nz r f0 fs hf hw hs hnz hflat hzyx hi g hg n (by omega)
  obtain ⟨b1, h1⟩ := readRecord_ok l ny nx nz r f0 fs hf hw hs hnz hflat hzyx hi g hg (n + 1) hn
  have s0 := (readRecord_spec l ny nx nz r f0 fs hf hw hs hnz hflat hzyx hi.some g hg n (by omega) b0 h0).1
  have s1 := (readRecord_spec l ny nx nz r f0 fs hf hw hs hnz hflat hzyx hi.some g hg (n + 1) hn b1 h1).1
  obtain ⟨d0, k0⟩ := putSlot_ok (emptyPair r g junk) b0 0 _ (by rw [emptyPair_tail nz r f0 fs hpop g hg junk]; rfl) s0
  have t0 := (putSlot_zero k0 (by rw [s0]; rfl)).1
  obtain ⟨d1, k1⟩ := putSlot_ok d0 b1 1 _ (by rw [t0, s0]; rfl) s1
  have t1 := (putSlot_one k1 (by rw [s1]; rfl)).1
  obtain ⟨e, he⟩ := reshape_pair ny nx nz r f0 fs hi hpop g hg d1 (by rw [t1, s1]; rfl)
  refine ⟨e, ?_⟩
  unfold loadPair
  simp only [Option.bind_eq_bind, h0, Option.bind_some, k0, h1, k1, he]

include hf hw hs hnz hflat hzyx hi hpop hg in
theorem loadNext_ok (old : ND ℚ) (n : Nat) (hn : n + 1 < g.time.length) : ∃ d, loadNext r g fs junk old n = some d := by
  obtain ⟨b, h0⟩ := readRecord_ok l ny nx nz r f0 fs hf hw hs hnz hflat hzyx hi g hg (n + 1) hn
  have s0 := (readRecord_spec l ny nx nz r f0 fs hf hw hs hnz hflat hzyx hi.some g hg (n + 1) hn b h0).1
  obtain ⟨d0, k0⟩ := putSlot_ok (emptyPair r g junk) b 1 _ (by rw [emptyPair_tail nz r f0 fs hpop g hg junk]; rfl) s0
  have t0 := (putSlot_one k0 (by rw [s0]; rfl)).1
  obtain ⟨e, he⟩ := reshape_pair ny nx nz r f0 fs hi hpop g hg d0 (by rw [t0, s0]; rfl)
  unfold loadNext
  simp only [Option.bind_eq_bind, h0, Option.bind_some, k0, he]
  exact ⟨_, rfl⟩

include hf hw hs hnz hflat hzyx hi hpop hg in
theorem loadPrev_ok (old : ND ℚ) (n : Nat) (hn : n + 1 < g.time.length) : ∃ d, loadPrev r g fs junk old n = some d := by
  obtain ⟨b, h0⟩ := readRecord_ok l ny nx nz r f0 fs hf hw hs hnz hflat hzyx hi g hg n (by omega)
  have s0 := (readRecord_spec l ny nx nz r f0 fs hf hw hs hnz hflat hzyx hi.some g hg n (by omega) b h0).1
  obtain ⟨d0, k0⟩ := putSlot_ok (emptyPair r g junk) b 0 _ (by rw [emptyPair_tail nz r f0 fs hpop g hg junk]; rfl) s0
  have t0 := (putSlot_zero k0 (by rw [s0]; rfl)).1
  obtain ⟨e, he⟩ := reshape_pair ny nx nz r f0 fs hi hpop g hg d0 (by rw [t0, s0]; rfl)
  unfold loadPrev
  simp only [Option.bind_eq_bind, h0, Option.bind_some, k0, he]
  exact ⟨_, rfl⟩

end

end Parcels.Load
