import Verif.Proofs.Load3

/-!
Helper lemmas for C69: deferred loading.
-/

namespace Parcels.Load
open Parcels.Search Parcels.TimeInterp Parcels.TimeChunk

theorem increasing_of_steps : ∀ l : List ℚ, (∀ i, i + 1 < l.length → l.getD i 0 < l.getD (i + 1) 0) → Increasing l := by
  intro l h
  unfold Increasing
  rw [← List.isChain_iff_pairwise, List.isChain_iff_getElem]
  intro i hi
  have := h i hi
  rw [List.getD_eq_getElem _ _ (by omega), List.getD_eq_getElem _ _ hi] at this
  exact this

theorem increasing_shift {l : List ℚ} (h : Increasing l) (o : ℚ) : Increasing (l.map (· - o)) := by
  unfold Increasing at *
  rw [List.pairwise_map]
  exact h.imp (by intro a b hab; linarith)

/-- The file and the record a time index leads to. -/
theorem record_found {r : Request} {f0 : NcFile} {fs : List NcFile} {g : Grid} (hg : GridSpec r f0 fs g) (k : Nat) (hk : k < g.time.length) :
    ∃ f a, fs[(dataFiles (fs.map (·.time)) false).getD k 0]? = some f ∧ f.time[a]? = some (g.time.getD k 0 + origin fs) ∧
      wrapIdx f.time.length (tiOf (f.time.map (· - origin fs)) (g.time.getD k 0)) = a := by
  have hT := hg.time
  rw [hT, List.length_map] at hk
  have hfl : (fs.map (·.time)).flatten = fs.flatMap (·.time) := by rw [List.flatMap_def]
  obtain ⟨i, a, h1, h2, h3, h4⟩ := dataFiles_spec (fs.map (·.time)) 0 k (by rw [hfl]; exact hk)
  rw [hfl] at h4
  rw [List.length_map] at h1
  have hfile : (dataFiles (fs.map (·.time)) false).getD k 0 = i := by
    unfold dataFiles
    simpa using h3
  have hi : (fs.map (·.time)).getD i [] = fs[i].time := by
    rw [List.getD_eq_getElem _ _ (by simpa using h1), List.getElem_map]
  rw [hi] at h2 h4
  have hg' : g.time.getD k 0 = (fs.flatMap (·.time)).getD k 0 - origin fs := by
    rw [hT, List.getD_eq_getElem _ _ (by simpa using hk), List.getElem_map, List.getD_eq_getElem _ _ hk]
  refine ⟨fs[i], a, ?_, ?_, ?_⟩
  · rw [hfile]; exact List.getElem?_eq_getElem h1
  · rw [List.getElem?_eq_getElem h2, hg', ← h4, List.getD_eq_getElem _ _ h2]
    congr 1; ring
  · have hinc := increasing_of_steps _ hg.inc
    have hinc' : Increasing fs[i].time := by
      have := increasing_file (files := fs.map (·.time)) (by rw [hfl]; exact hinc) (f := i) (by simpa using h1)
      rw [hi] at this
      exact this
    have := recordIdx_spec (increasing_shift hinc' (origin fs)) (r := a) (by simpa using h2)
    have e : (fs[i].time.map (· - origin fs)).getD a 0 = g.time.getD k 0 := by
      rw [hg', ← h4, List.getD_eq_getElem _ _ (by simpa using h2), List.getElem_map, List.getD_eq_getElem _ _ h2]
    rw [e] at this
    unfold recordIdx at this
    rw [List.length_map] at this
    exact this

theorem readRecord_spec (l : Layout) (ny nx nz : Nat) (r : Request) (f0 : NcFile) (fs : List NcFile) (hf : fs.head? = some f0)
    (hw : ∀ f ∈ fs, WellFormed l ny nx nz f) (hs : SameAxes fs) (hnz : 1 ≤ nz)
    (hflat : l.hasDepth = false → r.depthIdx f0 = [0]) (hzyx : l = .zyx → 1 < (r.depthIdx f0).length)
    (hne : 1 ≤ (picked r f0 nz).length)
    (g : Grid) (hg : GridSpec r f0 fs g) (k : Nat) (hk : k < g.time.length) (b : ND ℚ) (h : readRecord r g fs k = some b) :
    b.shape = [1, (picked r f0 nz).length, g.ydim, g.xdim] ∧
    ∃ f ∈ fs, ∃ a, f.time[a]? = some (g.time.getD k 0 + origin fs) ∧
      ∀ z y x, z < (picked r f0 nz).length → y < g.ydim → x < g.xdim →
        b.get [0, z, y, x] = l.value f a ((picked r f0 nz).getD z 0) ((r.latIdx f0).getD y 0) ((r.lonIdx f0).getD x 0) := by
  have h0 : f0 ∈ fs := List.mem_of_mem_head? (by rw [hf]; rfl)
  unfold readRecord at h
  simp only [Option.bind_eq_bind, hf, Option.bind_some] at h
  obtain ⟨f, a, hfa, hta, hti⟩ := record_found hg k hk
  rw [hfa, Option.bind_some] at h
  have hm : f ∈ fs := List.mem_of_getElem? hfa
  have hd := (sameAxes_at hs hm h0).1
  have hwf := hw f hm
  have hdata := hwf.data
  rw [Option.bind_eq_some_iff] at h
  obtain ⟨c, h1, h2⟩ := h
  unfold applyIndices at h1
  generalize hgti : tiOf (f.time.map (· - origin fs)) (g.time.getD k 0) = ti at hti h1
  rw [hg.ydim, hg.xdim]
  have hone : l.hasDepth = false → picked r f0 nz = [0] := by
    intro hl
    have hdl := hflat hl
    rw [picked_eq]
    split
    · rename_i hs
      rw [short_eq] at hs
      simp only [Bool.and_eq_true, decide_eq_true_eq] at hs
      rw [hdl] at hs
      simp at hs
      omega
    · exact hdl
  rcases l with _ | _ | _ | _
  · -- (lat, lon)
    have hp := hone rfl
    have ht := hwf.single (Or.inl rfl)
    simp only [] at hdata
    rw [hdata] at h1
    simp only [List.length_cons, List.length_nil, if_true] at h1
    obtain ⟨p1, p2, p3⟩ := pick_some h1
    rw [hdata] at p1 p3
    simp only [selShape] at p2
    rw [p2] at h2
    simp only [List.length_cons, List.length_nil, if_true] at h2
    obtain ⟨_, hs⟩ := reshape_flat h2
    refine ⟨by rw [hs, hp]; rfl, f, hm, a, hta, ?_⟩
    intro z y x h4 h5 h6
    rw [hp] at h4 ⊢
    have e2 : z = 0 := by simpa using h4
    subst e2
    rw [reshape_get h2 (i := [0, 0, y, x]) (j := [y, x]) ⟨by simp, by simp, h5, h6, trivial⟩ (by rw [p2]; exact ⟨h5, h6, trivial⟩)
      (by rw [p2]; simp [ravel, prod]), p3]
    rfl
  · -- (time, lat, lon)
    have hp := hone rfl
    have hdl := hflat rfl
    simp only [] at hdata
    rw [hdata] at h1
    have hext : extendDepth r [0] (fullZ r f0) f.time.length = false := by
      unfold extendDepth
      have := hwf.times
      by_cases c : fullZ r f0 = 1
      · have : ¬ (f.time.length + 1 = fullZ r f0) := by omega
        simp [this]
      · have : ¬ (1 = fullZ r f0) := fun e => c e.symm
        simp [this]
    rw [hdl] at h1
    simp only [List.length_cons, List.length_nil, List.getD_cons_zero, hext] at h1
    simp only [Nat.reduceAdd, Nat.reduceEqDiff, if_false, if_true, Bool.false_eq_true, lt_self_iff_false] at h1
    obtain ⟨p1, p2, p3⟩ := pick_some h1
    rw [hdata] at p1 p3
    simp only [selShape] at p2
    rw [p2] at h2
    simp only [List.length_cons, List.length_nil, Nat.reduceAdd, if_true] at h2
    obtain ⟨_, hs⟩ := reshape_flat h2
    refine ⟨by rw [hs, hp]; rfl, f, hm, a, hta, ?_⟩
    intro z y x h4 h5 h6
    rw [hp] at h4 ⊢
    have e2 : z = 0 := by simpa using h4
    subst e2
    rw [reshape_get h2 (i := [0, 0, y, x]) (j := [y, x]) ⟨by simp, by simp, h5, h6, trivial⟩ (by rw [p2]; exact ⟨h5, h6, trivial⟩)
      (by rw [p2]; simp [ravel, prod]), p3]
    simp only [selIdx, Layout.value, hti]
  · -- (depth, lat, lon)
    have hlt := hzyx rfl
    have ht := hwf.single (Or.inr rfl)
    simp only [] at hdata
    rw [hdata] at h1
    simp only [List.length_cons, List.length_nil, List.getD_cons_zero, extend_short r f f0 hd nz hnz] at h1
    simp only [Nat.reduceAdd, Nat.reduceEqDiff, if_false, if_true, hlt] at h1
    have h1' : f.data.pick [.many (picked r f0 nz), .many (r.latIdx f0), .many (r.lonIdx f0)] = some c := by
      rw [picked_eq]
      split at h1 <;> rename_i hc
      · rw [if_pos hc]; exact h1
      · rw [if_neg hc]; exact h1
    obtain ⟨p1, p2, p3⟩ := pick_some h1'
    rw [hdata] at p1 p3
    simp only [selShape] at p2
    rw [p2, hg.zdim] at h2
    simp only [List.length_cons, List.length_nil, Nat.reduceAdd, Nat.reduceEqDiff, if_false, if_true, hlt, and_self] at h2
    obtain ⟨_, hs⟩ := reshape_flat h2
    refine ⟨hs, f, hm, a, hta, ?_⟩
    intro z y x h4 h5 h6
    rw [reshape_get h2 (i := [0, z, y, x]) (j := [z, y, x]) ⟨by omega, h4, h5, h6, trivial⟩ (by rw [p2]; exact ⟨h4, h5, h6, trivial⟩)
      (by rw [p2]; simp [ravel, prod]), p3]
    rfl
  · -- (time, depth, lat, lon)
    simp only [] at hdata
    rw [hdata] at h1
    simp only [List.length_cons, List.length_nil, List.getD_cons_zero, List.getD_cons_succ, extend_short r f f0 hd nz hnz] at h1
    simp only [Nat.reduceAdd, Nat.reduceEqDiff, if_false] at h1
    have h1' : f.data.pick [.one ti, .many (picked r f0 nz), .many (r.latIdx f0), .many (r.lonIdx f0)] = some c := by
      rw [picked_eq]
      split at h1 <;> rename_i hc
      · rw [if_pos hc]; exact h1
      · rw [if_neg hc]; exact h1
    obtain ⟨p1, p2, p3⟩ := pick_some h1'
    rw [hdata] at p1 p3
    simp only [selShape] at p2
    rw [p2, hg.zdim] at h2
    simp only [List.length_cons, List.length_nil, Nat.reduceAdd, Nat.reduceEqDiff, if_false, true_and, if_true, List.headD_cons, List.tail_cons] at h2
    by_cases hlt : 1 < (r.depthIdx f0).length
    · rw [if_pos hlt] at h2
      obtain ⟨_, hs⟩ := reshape_flat h2
      refine ⟨hs, f, hm, a, hta, ?_⟩
      intro z y x h4 h5 h6
      rw [reshape_get h2 (i := [0, z, y, x]) (j := [z, y, x]) ⟨by omega, h4, h5, h6, trivial⟩ (by rw [p2]; exact ⟨h4, h5, h6, trivial⟩)
        (by rw [p2]; simp [ravel, prod]), p3]
      simp only [selIdx, Layout.value, hti]
    · rw [if_neg hlt] at h2
      obtain ⟨_, hs⟩ := reshape_flat h2
      have hone : (picked r f0 nz).length = 1 := by
        have := (picked_getD r f0 nz ((picked r f0 nz).length - 1) (by omega)).1
        omega
      rw [hone] at h2 hs ⊢
      refine ⟨hs, f, hm, a, hta, ?_⟩
      intro z y x h4 h5 h6
      have e2 : z = 0 := by omega
      subst e2
      rw [reshape_get h2 (i := [0, 0, y, x]) (j := [0, y, x]) ⟨by omega, by omega, h5, h6, trivial⟩ (by rw [p2]; exact ⟨by omega, h5, h6, trivial⟩)
        (by rw [p2]; simp [ravel, prod]), p3]
      simp only [selIdx, Layout.value, hti]

/-! ### Slots -/

theorem putSlot_zero {d buf e : ND ℚ} (h : putSlot d buf 0 = some e) (hb : buf.shape.headD 0 = 1) :
    e.shape = 2 :: buf.shape.tail ∧ ∀ r, e.get (0 :: r) = buf.get (0 :: r) := by
  unfold putSlot at h
  rw [if_pos rfl] at h
  obtain ⟨h1, h2, h3, dd, h4⟩ := concat_some h
  have hb1 := h2 buf (by simp)
  have e1 : e.shape.headD 0 = 2 := by rw [h1]; simp [ND.slot]; simpa using hb
  refine ⟨by rw [h3, e1, hb1]; rfl, fun r => ?_⟩
  rw [h4]
  unfold locate
  rw [if_pos (by rw [hb]; exact one_pos)]

theorem putSlot_one {d buf e : ND ℚ} (h : putSlot d buf 1 = some e) (hb : buf.shape.headD 0 = 1) :
    e.shape = 2 :: buf.shape.tail ∧ (∀ r, e.get (0 :: r) = d.get (0 :: r)) ∧ ∀ r, e.get (1 :: r) = buf.get (0 :: r) := by
  unfold putSlot at h
  rw [if_neg (by decide)] at h
  obtain ⟨h1, h2, h3, dd, h4⟩ := concat_some h
  have hb1 := h2 buf (by simp)
  have e1 : e.shape.headD 0 = 2 := by
    rw [h1]; simp only [List.map_cons, List.map_nil, List.sum_cons, List.sum_nil, hb]; rfl
  refine ⟨by rw [h3, e1, hb1]; rfl, fun r => ?_, fun r => ?_⟩
  · rw [h4]
    simp [locate, ND.slot]
  · rw [h4]
    simp [locate, ND.slot]
    intro hc
    rw [List.headD_eq_head?_getD] at hb
    omega

/-! ### The shape a field has -/

theorem onlyIf_shape {c c' : Prop} [Decidable c] [Decidable c'] {f : ND ℚ → Option (ND ℚ)} {a a' b b' : ND ℚ} (hs : a.shape = a'.shape)
    (hc : c ↔ c') (hf : ∀ a a' b b', a.shape = a'.shape → f a = some b → f a' = some b' → b.shape = b'.shape)
    (h : onlyIf c f a = some b) (h' : onlyIf c' f a' = some b') : b.shape = b'.shape := by
  unfold onlyIf at h h'
  by_cases c0 : c
  · rw [if_pos c0] at h
    rw [if_pos (hc.1 c0)] at h'
    exact hf _ _ _ _ hs h h'
  · rw [if_neg c0] at h
    rw [if_neg (fun x => c0 (hc.2 x))] at h'
    cases h; cases h'
    exact hs

theorem fieldReshape_shape (g : Grid) (T : Nat) (pop : Bool) {a a' b b' : ND ℚ} (hs : a.shape = a'.shape)
    (h : fieldReshape g T pop false a = some b) (h' : fieldReshape g T pop false a' = some b') : b.shape = b'.shape := by
  unfold fieldReshape fitAxes at h h'
  simp only [Bool.false_eq_true, if_false, Option.bind_eq_some_iff] at h h'
  obtain ⟨a1, h1, a6, ⟨a2, h2, a3, h3, a4, h4, a5, h5, h6⟩, h7⟩ := h
  obtain ⟨a1', h1', a6', ⟨a2', h2', a3', h3', a4', h4', a5', h5', h6'⟩, h7'⟩ := h'
  have e1 : a1.shape = a1'.shape := by
    refine onlyIf_shape hs Iff.rfl ?_ h1 h1'
    intro x x' y y' hx hy hy'
    unfold ND.flip2 at hy hy'
    rw [hx] at hy
    split at hy
    · rename_i n1 n2 n3 hh
      rw [hh] at hy'
      cases hy; cases hy'
      rfl
    · cases hy
  have hre : ∀ s : List Nat → List Nat, ∀ x x' y y' : ND ℚ, x.shape = x'.shape → x.reshape (s x.shape) = some y →
      x'.reshape (s x'.shape) = some y' → y.shape = y'.shape := by
    intro s x x' y y' hx hy hy'
    rw [(reshape_flat hy).2, (reshape_flat hy').2, hx]
  have e2 := onlyIf_shape e1 Iff.rfl (hre (fun s => s.filter (· ≠ 1))) h2 h2'
  have e3 := onlyIf_shape e2 (by rw [e2]) (hre (fun s => s ++ [1])) h3 h3'
  have e4 := onlyIf_shape e3 (by rw [e3]) (hre (fun s => s.dropLast ++ [1] ++ s.drop (s.length - 1))) h4 h4'
  have e5 := onlyIf_shape e4 (by rw [e4]) (hre (fun s => 1 :: s)) h5 h5'
  have e6 := onlyIf_shape e5 (by rw [e5]) (hre (fun s => s.headD 0 :: s.drop 2)) h6 h6'
  split at h7
  · split at h7'
    · cases h7; cases h7'; exact e6
    · cases h7'
  · cases h7

/-! ### Pairs of records -/

/-- The data of a field, after any number of moves, hold records `n` and `n + 1`. -/
structure PairInv (tol : Bool) (l : Layout) (r : Request) (rows cols : List Nat) (fs : List NcFile) (g : Grid) (levels : Nat) (n : Nat) (d : ND ℚ) : Prop where
  lower : Holds tol l r rows cols fs g levels d 0 n
  upper : Holds tol l r rows cols fs g levels d 1 (n + 1)
  shape : ∃ a b : ND ℚ, a.shape = [2, levels, g.ydim, g.xdim] ∧ fieldReshape g 2 r.pop false a = some b ∧ d.shape = b.shape

theorem holds_of_record (l : Layout) (ny nx nz : Nat) (r : Request) (f0 : NcFile) (fs : List NcFile) (hf : fs.head? = some f0)
    (hw : ∀ f ∈ fs, WellFormed l ny nx nz f) (hs : SameAxes fs) (hnz : 1 ≤ nz)
    (hflat : l.hasDepth = false → r.depthIdx f0 = [0]) (hzyx : l = .zyx → 1 < (r.depthIdx f0).length)
    (hne : 1 ≤ (picked r f0 nz).length)
    (g : Grid) (hg : GridSpec r f0 fs g) (k : Nat) (hk : k < g.time.length) (b : ND ℚ) (h : readRecord r g fs k = some b)
    (d d0 : ND ℚ) (s : Nat) (hs2 : s < 2) (hd0 : d0.shape = [2, (picked r f0 nz).length, g.ydim, g.xdim])
    (hr : fieldReshape g 2 r.pop false d0 = some d) (hget : ∀ q, d0.get (s :: q) = b.get (0 :: q)) :
    Holds (decide (f0.lon.shape.length ≠ 1)) l r (r.latIdx f0) (r.lonIdx f0) fs g (picked r f0 nz).length d s k := by
  have h0 : f0 ∈ fs := List.mem_of_mem_head? (by rw [hf]; rfl)
  obtain ⟨_, f, hm, a, hta, hv⟩ := readRecord_spec l ny nx nz r f0 fs hf hw hs hnz hflat hzyx hne g hg k hk b h
  obtain ⟨e1, e2, e3⟩ := sameAxes_at hs hm h0
  intro z y x hz hy hx
  have hval := fieldReshape_value g 2 _ r.pop d0 d hd0 hr s z y x hs2 hz hy hx
  refine ⟨f, hm, a, (picked r f0 nz).getD z 0, (r.latIdx f0).getD (g.rowOf y) 0, (r.lonIdx f0).getD x 0, getD_mem (by rw [← hg.ydim]; exact hg.row y hy), getD_some_of (by rw [← hg.xdim]; exact hx), hta, ?_, ?_, ?_, ?_⟩
  · rw [e1]; exact level_depth hg nz z hz
  · rw [e3]; exact (hg.coords y x hy hx).1
  · rw [e2]; exact (hg.coords y x hy hx).2
  · rw [hval, hget]
    exact hv z (g.rowOf y) x hz (hg.row y hy) hx

theorem nodeValue_congr (d e : ND ℚ) (hs : d.shape = e.shape) (s t z y x : Nat) (h : ∀ q, d.get (s :: q) = e.get (t :: q)) :
    nodeValue d s z y x = nodeValue e t z y x := by
  unfold nodeValue
  rw [hs, h, h]

theorem Holds.congr {tol : Bool} {l : Layout} {r : Request} {rows cols : List Nat} {fs : List NcFile} {g : Grid} {levels : Nat} {d e : ND ℚ} {s t k : Nat}
    (h : Holds tol l r rows cols fs g levels e t k) (hs : d.shape = e.shape) (hv : ∀ q, d.get (s :: q) = e.get (t :: q)) :
    Holds tol l r rows cols fs g levels d s k := by
  intro z y x hz hy hx
  rw [nodeValue_congr d e hs s t z y x hv]
  exact h z y x hz hy hx

theorem inMemory_inv (l : Layout) (ny nx nz : Nat) (r : Request) (f0 : NcFile) (fs : List NcFile) (hf : fs.head? = some f0)
    (hw : ∀ f ∈ fs, WellFormed l ny nx nz f) (hs : SameAxes fs) (hnz : 1 ≤ nz)
    (hflat : l.hasDepth = false → r.depthIdx f0 = [0]) (hzyx : l = .zyx → 1 < (r.depthIdx f0).length)
    (hne : 1 ≤ (picked r f0 nz).length)
    (g : Grid) (hg : GridSpec r f0 fs g) (n : Nat) (d : ND ℚ) (h : InMemory r g fs n d) :
    PairInv (decide (f0.lon.shape.length ≠ 1)) l r (r.latIdx f0) (r.lonIdx f0) fs g (picked r f0 nz).length n d := by
  induction h with
  | first junk n d hn h =>
    unfold loadPair at h
    simp only [Option.bind_eq_bind, Option.bind_eq_some_iff] at h
    obtain ⟨b0, h0, d1, h1, b1, h2, d2, h3, h4⟩ := h
    obtain ⟨s0, _⟩ := readRecord_spec l ny nx nz r f0 fs hf hw hs hnz hflat hzyx hne g hg n (by omega) b0 h0
    obtain ⟨s1, _⟩ := readRecord_spec l ny nx nz r f0 fs hf hw hs hnz hflat hzyx hne g hg (n + 1) hn b1 h2
    obtain ⟨p1, p2⟩ := putSlot_zero h1 (by rw [s0]; rfl)
    obtain ⟨q1, q2, q3⟩ := putSlot_one h3 (by rw [s1]; rfl)
    have hd2 : d2.shape = [2, (picked r f0 nz).length, g.ydim, g.xdim] := by rw [q1, s1]; rfl
    exact ⟨holds_of_record l ny nx nz r f0 fs hf hw hs hnz hflat hzyx hne g hg n (by omega) b0 h0 d d2 0 (by omega) hd2 h4
        (fun q => by rw [q2, p2]),
      holds_of_record l ny nx nz r f0 fs hf hw hs hnz hflat hzyx hne g hg (n + 1) hn b1 h2 d d2 1 (by omega) hd2 h4 q3,
      d2, d, hd2, h4, rfl⟩
  | next junk n old d hold hn h ih =>
    unfold loadNext at h
    simp only [Option.bind_eq_bind, Option.bind_eq_some_iff] at h
    obtain ⟨b, h0, d1, h1, d2, h2, h3⟩ := h
    obtain ⟨s0, _⟩ := readRecord_spec l ny nx nz r f0 fs hf hw hs hnz hflat hzyx hne g hg (n + 1 + 1) hn b h0
    obtain ⟨q1, q2, q3⟩ := putSlot_one h1 (by rw [s0]; rfl)
    have hd1 : d1.shape = [2, (picked r f0 nz).length, g.ydim, g.xdim] := by rw [q1, s0]; rfl
    obtain ⟨a, c, a1, a2, a3⟩ := ih.shape
    have hsh : old.shape = d2.shape := by rw [a3]; exact fieldReshape_shape g 2 r.pop (a1.trans hd1.symm) a2 h2
    cases h3
    refine ⟨ih.upper.congr rfl (fun q => rfl), ?_, ⟨a, c, a1, a2, a3⟩⟩
    exact (holds_of_record l ny nx nz r f0 fs hf hw hs hnz hflat hzyx hne g hg (n + 1 + 1) hn b h0 d2 d1 1 (by omega) hd1 h2 q3).congr hsh
      (fun q => rfl)
  | prev junk n old d hold hn h ih =>
    unfold loadPrev at h
    simp only [Option.bind_eq_bind, Option.bind_eq_some_iff] at h
    obtain ⟨b, h0, d1, h1, d2, h2, h3⟩ := h
    obtain ⟨s0, _⟩ := readRecord_spec l ny nx nz r f0 fs hf hw hs hnz hflat hzyx hne g hg n (by omega) b h0
    obtain ⟨q1, q2⟩ := putSlot_zero h1 (by rw [s0]; rfl)
    have hd1 : d1.shape = [2, (picked r f0 nz).length, g.ydim, g.xdim] := by rw [q1, s0]; rfl
    obtain ⟨a, c, a1, a2, a3⟩ := ih.shape
    have hsh : old.shape = d2.shape := by rw [a3]; exact fieldReshape_shape g 2 r.pop (a1.trans hd1.symm) a2 h2
    cases h3
    refine ⟨?_, ih.lower.congr rfl (fun q => rfl), ⟨a, c, a1, a2, a3⟩⟩
    exact (holds_of_record l ny nx nz r f0 fs hf hw hs hnz hflat hzyx hne g hg n (by omega) b h0 d2 d1 0 (by omega) hd1 h2 q2).congr hsh
      (fun q => rfl)

end Parcels.Load
