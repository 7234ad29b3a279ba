import Verif.Spec.Load
import Mathlib.Tactic.Linarith
import Mathlib.Tactic.Ring
import Mathlib.Data.List.GetD

/-!
Helper lemmas for C69: arrays.
-/

namespace Parcels.Load

variable {α : Type}

/-- The index is within the shape. -/
def InR : List Nat → List Nat → Prop
  | [], [] => True
  | n :: s, i :: is => i < n ∧ InR s is
  | _, _ => False

theorem ravel_lt : ∀ (s i : List Nat), InR s i → ravel s i < prod s := by
  intro s
  induction s with
  | nil => intro i h; cases i <;> simp [InR, ravel, prod] at h ⊢
  | cons n s ih =>
    intro i h
    cases i with
    | nil => simp [InR] at h
    | cons i is =>
      obtain ⟨h1, h2⟩ := h
      have := ih is h2
      rw [ravel, prod]
      calc i * prod s + ravel s is < i * prod s + prod s := by omega
        _ = (i + 1) * prod s := by ring
        _ ≤ n * prod s := Nat.mul_le_mul_right _ h1

theorem unravel_ravel : ∀ (s i : List Nat), InR s i → unravel s (ravel s i) = i := by
  intro s
  induction s with
  | nil => intro i h; cases i <;> simp [InR, unravel] at h ⊢
  | cons n s ih =>
    intro i h
    cases i with
    | nil => simp [InR] at h
    | cons i is =>
      obtain ⟨h1, h2⟩ := h
      have hl := ravel_lt s is h2
      have hp : 0 < prod s := by omega
      rw [ravel, unravel]
      have e1 : (i * prod s + ravel s is) / prod s = i := by
        rw [Nat.add_comm, Nat.add_mul_div_right _ _ hp, Nat.div_eq_of_lt hl, Nat.zero_add]
      have e2 : (i * prod s + ravel s is) % prod s = ravel s is := by
        rw [Nat.add_comm, Nat.add_mul_mod_self_right, Nat.mod_eq_of_lt hl]
      rw [e1, e2, ih is h2]

theorem ravel_unravel : ∀ (s : List Nat) (k : Nat), k < prod s → ravel s (unravel s k) = k := by
  intro s
  induction s with
  | nil => intro k h; simp [prod] at h; simp [ravel, h]
  | cons n s ih =>
    intro k h
    rw [prod] at h
    have hp : 0 < prod s := by
      rcases Nat.eq_zero_or_pos (prod s) with e | e
      · rw [e] at h; simp at h
      · exact e
    rw [unravel, ravel, ih _ (Nat.mod_lt _ hp)]
    rw [Nat.mul_comm]; exact Nat.div_add_mod k (prod s)

/-- The values of an array in row-major order. -/
def ND.flat (a : ND α) (k : Nat) : α := a.get (unravel a.shape k)

/-- Two arrays with the same values in row-major order. -/
def SameFlat (a b : ND α) : Prop := prod a.shape = prod b.shape ∧ ∀ k, k < prod a.shape → a.flat k = b.flat k

theorem SameFlat.refl (a : ND α) : SameFlat a a := ⟨rfl, fun _ _ => rfl⟩

theorem SameFlat.trans {a b c : ND α} (h : SameFlat a b) (h' : SameFlat b c) : SameFlat a c :=
  ⟨h.1.trans h'.1, fun k hk => (h.2 k hk).trans (h'.2 k (by rw [← h.1]; exact hk))⟩

theorem reshape_flat {a b : ND α} {s : List Nat} (h : a.reshape s = some b) : SameFlat a b ∧ b.shape = s := by
  unfold ND.reshape at h
  split at h
  · rename_i hp
    cases h
    refine ⟨⟨hp, fun k hk => ?_⟩, rfl⟩
    unfold ND.flat
    simp only []
    rw [ravel_unravel s k (by rw [← hp]; exact hk)]
  · cases h

theorem get_flat (a : ND α) (i : List Nat) (h : InR a.shape i) : a.get i = a.flat (ravel a.shape i) := by
  unfold ND.flat; rw [unravel_ravel _ _ h]

theorem fitAxes_flat (g : Grid) (tdim : Nat) (a b : ND α) (h : fitAxes g tdim a = some b) : SameFlat a b := by
  unfold fitAxes at h
  simp only [Option.bind_eq_some_iff] at h
  unfold onlyIf at h
  obtain ⟨a1, h1, a2, h2, a3, h3, a4, h4, h5⟩ := h
  have e1 : SameFlat a a1 := by
    split at h1
    · exact (reshape_flat h1).1
    · cases h1; exact SameFlat.refl _
  have e2 : SameFlat a1 a2 := by
    split at h2
    · exact (reshape_flat h2).1
    · cases h2; exact SameFlat.refl _
  have e3 : SameFlat a2 a3 := by
    split at h3
    · exact (reshape_flat h3).1
    · cases h3; exact SameFlat.refl _
  have e4 : SameFlat a3 a4 := by
    split at h4
    · exact (reshape_flat h4).1
    · cases h4; exact SameFlat.refl _
  have e5 : SameFlat a4 b := by
    split at h5
    · exact (reshape_flat h5).1
    · cases h5; exact SameFlat.refl _
  exact (((e1.trans e2).trans e3).trans e4).trans e5

theorem nodeValue_flat (g : Grid) (tdim Z : Nat) (pop : Bool) (a b : ND α) (h : SameFlat a b)
    (ha : prod a.shape = prod [tdim, Z, g.ydim, g.xdim]) (hb : shapeOk g tdim pop b.shape = true)
    (t z y x : Nat) (ht : t < tdim) (hz : z < Z) (hy : y < g.ydim) (hx : x < g.xdim) :
    nodeValue b t z y x = a.flat (ravel [tdim, Z, g.ydim, g.xdim] [t, z, y, x]) := by
  have hp : 0 < g.ydim * g.xdim := Nat.mul_pos (by omega) (by omega)
  have hin : InR [tdim, Z, g.ydim, g.xdim] [t, z, y, x] := ⟨ht, hz, hy, hx, trivial⟩
  have hlt := ravel_lt _ _ hin
  rw [h.2 _ (by rw [ha]; exact hlt)]
  unfold shapeOk at hb
  unfold nodeValue
  split at hb
  · rename_i h4
    rw [if_pos h4]
    rcases hs : b.shape with _ | ⟨s0, _ | ⟨s1, _ | ⟨s2, _ | ⟨s3, _ | ⟨_, _⟩⟩⟩⟩⟩ <;> rw [hs] at h4 <;> simp at h4
    rw [hs] at hb
    simp only [List.getD_cons_zero, List.getD_cons_succ, Bool.and_eq_true, decide_eq_true_eq] at hb
    obtain ⟨⟨⟨b0, b2⟩, b3⟩, _⟩ := hb
    subst b0 b2 b3
    have hprod := h.1
    rw [ha, hs] at hprod
    simp only [prod, Nat.mul_one] at hprod
    have e1 : Z * (g.ydim * g.xdim) = s1 * (g.ydim * g.xdim) := Nat.eq_of_mul_eq_mul_left (by omega) hprod
    have e2 : Z = s1 := Nat.eq_of_mul_eq_mul_right hp e1
    subst e2
    rw [get_flat b _ (by rw [hs]; exact hin), hs]
  · rename_i h4
    rw [if_neg h4]
    simp only [decide_eq_true_eq] at hb
    have hprod := h.1
    rw [ha, hb] at hprod
    simp only [prod, Nat.mul_one] at hprod
    have e1 : Z * (g.ydim * g.xdim) = 1 * (g.ydim * g.xdim) := by
      rw [Nat.one_mul]; exact Nat.eq_of_mul_eq_mul_left (by omega) hprod
    have e2 : Z = 1 := Nat.eq_of_mul_eq_mul_right hp e1
    subst e2
    have ez : z = 0 := by omega
    subst ez
    rw [get_flat b _ (by rw [hb]; exact ⟨ht, hy, hx, trivial⟩), hb]
    congr 1
    simp [ravel, prod]

/-- Row of the array a row of the field comes from. -/
def Grid.rowOf (g : Grid) (y : Nat) : Nat := if g.flipped then g.ydim - 1 - y else y

theorem fieldReshape_value (g : Grid) (tdim Z : Nat) (pop : Bool) (a b : ND α)
    (ha : a.shape = [tdim, Z, g.ydim, g.xdim]) (h : fieldReshape g tdim pop false a = some b)
    (t z y x : Nat) (ht : t < tdim) (hz : z < Z) (hy : y < g.ydim) (hx : x < g.xdim) :
    nodeValue b t z y x = a.get [t, z, g.rowOf y, x] := by
  unfold fieldReshape at h
  simp only [Bool.false_eq_true, if_false, Option.bind_eq_some_iff] at h
  unfold onlyIf at h
  obtain ⟨a1, h1, a2, h2, h3⟩ := h
  split at h3
  · rename_i hok
    cases h3
    have hf := fitAxes_flat g tdim a1 b h2
    have hs1 : a1.shape = [tdim, Z, g.ydim, g.xdim] := by
      split at h1
      · unfold ND.flip2 at h1
        rw [ha] at h1
        simp only [List.reverse_cons, List.reverse_nil, List.nil_append, List.cons_append] at h1
        cases h1; rfl
      · cases h1; exact ha
    rw [nodeValue_flat g tdim Z pop a1 b hf (by rw [hs1]) hok t z y x ht hz hy hx]
    have hin : InR [tdim, Z, g.ydim, g.xdim] [t, z, y, x] := ⟨ht, hz, hy, hx, trivial⟩
    have := get_flat a1 [t, z, y, x] (by rw [hs1]; exact hin)
    rw [hs1] at this
    rw [← this]
    unfold Grid.rowOf
    by_cases hfl : g.flipped = true
    · rw [if_pos hfl] at h1 ⊢
      unfold ND.flip2 at h1
      rw [ha] at h1
      simp only [List.reverse_cons, List.reverse_nil, List.nil_append, List.cons_append] at h1
      cases h1
      rfl
    · rw [if_neg hfl] at h1 ⊢
      cases h1
      rfl
  · cases h3

/-! ### Selections -/

theorem getD_all {l : List Nat} {n i : Nat} (h : (l.all fun i => decide (i < n)) = true) (hi : i < l.length) : l.getD i 0 < n := by
  rw [List.all_eq_true] at h
  have := h (l[i]) (List.getElem_mem hi)
  rw [List.getD_eq_getElem _ _ hi]
  simpa using this

theorem pick_some {a b : ND α} {ss : List Sel} (h : a.pick ss = some b) :
    selOk ss a.shape = true ∧ b.shape = selShape ss ∧ ∀ i, b.get i = a.get (selIdx ss a.shape i) := by
  unfold ND.pick at h
  split at h
  · rename_i hok; cases h; exact ⟨hok, rfl, fun _ => rfl⟩
  · cases h

/-! ### Concatenation -/

theorem concat_some {as : List (ND α)} {b : ND α} (h : concat as = some b) :
    b.shape.headD 0 = (as.map fun a => a.shape.headD 0).sum ∧
    (∀ a ∈ as, a.shape = a.shape.headD 0 :: b.shape.tail) ∧ b.shape = b.shape.headD 0 :: b.shape.tail ∧
    ∃ d : Nat → List Nat → α, ∀ t r, b.get (t :: r) = locate as t r (d t r) := by
  unfold concat at h
  rcases as with _ | ⟨a, as⟩
  · cases h
  · simp only [] at h
    split at h
    · rename_i hall
      cases h
      rw [List.all_eq_true] at hall
      refine ⟨rfl, ?_, rfl, fun t r => a.get (t :: r), fun t r => rfl⟩
      intro b hb
      have := hall b hb
      simp only [Bool.and_eq_true, decide_eq_true_eq] at this
      rcases hs : b.shape with _ | ⟨n, s⟩
      · exact absurd hs this.2
      · rw [hs] at this
        simp only [List.tail_cons] at this ⊢
        rw [this.1]; rfl
    · cases h

/-- Where an index of a concatenation comes from. -/
theorem locate_spec {β : Type} (P : β → ND α → Prop) (fs : List β) (as : List (ND α)) (h : List.Forall₂ P fs as) (len : β → List ℚ)
    (hlen : ∀ f a, P f a → a.shape.headD 0 = (len f).length) :
    ∀ t, t < (as.map fun a => a.shape.headD 0).sum →
      ∃ f ∈ fs, ∃ a k, P f a ∧ k < (len f).length ∧ (len f)[k]? = (fs.flatMap len)[t]? ∧
        ∀ r d, locate as t r d = a.get (k :: r) := by
  induction h with
  | nil => intro t ht; simp at ht
  | @cons f a fs as hp _ ih =>
    intro t ht
    have hl := hlen f a hp
    by_cases c : t < a.shape.headD 0
    · refine ⟨f, List.mem_cons_self, a, t, hp, by omega, ?_, fun r d => ?_⟩
      · rw [List.flatMap_cons, List.getElem?_append_left (by omega)]
      · rw [locate, if_pos c]
    · simp only [List.map_cons, List.sum_cons] at ht
      obtain ⟨f', hf', a', k, h1, h2, h3, h4⟩ := ih (t - a.shape.headD 0) (by omega)
      refine ⟨f', List.mem_cons_of_mem _ hf', a', k, h1, h2, ?_, fun r d => ?_⟩
      · rw [List.flatMap_cons, List.getElem?_append_right (by omega), h3, hl]
      · rw [locate, if_neg c, h4]

theorem mapM_forall₂ {β γ : Type} (f : β → Option γ) : ∀ (l : List β) (m : List γ), l.mapM f = some m →
    List.Forall₂ (fun a b => f a = some b) l m := by
  intro l
  induction l with
  | nil => intro m h; simp at h; rw [h]; exact List.Forall₂.nil
  | cons a l ih =>
    intro m h
    rw [List.mapM_cons] at h
    simp only [Option.bind_eq_bind, Option.bind_eq_some_iff] at h
    obtain ⟨b, h1, m', h2, h3⟩ := h
    cases h3
    exact List.Forall₂.cons h1 (ih m' h2)

/-! ### One file -/

theorem getD_mem {l : List Nat} {i : Nat} (h : i < l.length) : l.getD i 0 ∈ l := by
  simp [List.getD_eq_getElem?_getD, h]

theorem getD_some_of {l : List Nat} {i : Nat} (h : i < l.length) : l[i]? = some (l.getD i 0) := by
  simp [List.getD_eq_getElem?_getD, h]

/-- The indices the code uses are those the request means. -/
theorem lonIdx_eq {l : Layout} {ny nx nz : Nat} {f : NcFile} (hw : WellFormed l ny nx nz f) (r : Request) : r.lonIdx f = wanted r.lon nx := by
  unfold Request.lonIdx wanted
  rcases hw.coords with ⟨h, _⟩ | ⟨m, h, _⟩ <;> rw [h] <;> simp

theorem latIdx_eq {l : Layout} {ny nx nz : Nat} {f : NcFile} (hw : WellFormed l ny nx nz f) (r : Request) : r.latIdx f = wanted r.lat ny := by
  unfold Request.latIdx wanted
  rcases hw.coords with ⟨_, h⟩ | ⟨m, _, h⟩ <;> rw [h] <;> simp

theorem depthIdx_eq (r : Request) (f : NcFile) : r.depthIdx f = wantedDepth r f := rfl

theorem short_eq (r : Request) (f : NcFile) (nz : Nat) : r.short f nz =
    (r.useDepth && r.bgrid && decide (nz + 1 = f.depth.length) && decide ((r.depthIdx f).getLastD 0 + 1 = f.depth.length)) := rfl

theorem picked_eq (r : Request) (f : NcFile) (nz : Nat) : picked r f nz = if r.short f nz then (r.depthIdx f).dropLast else r.depthIdx f := rfl

theorem InFile.lat' {l : Layout} {ny nx nz : Nat} {f : NcFile} {r : Request} (hi : InFile r f ny nx nz) (hw : WellFormed l ny nx nz f) :
    ∀ i ∈ r.latIdx f, i < ny := by rw [latIdx_eq hw]; exact hi.lat

theorem InFile.lon' {l : Layout} {ny nx nz : Nat} {f : NcFile} {r : Request} (hi : InFile r f ny nx nz) (hw : WellFormed l ny nx nz f) :
    ∀ i ∈ r.lonIdx f, i < nx := by rw [lonIdx_eq hw]; exact hi.lon

theorem reshape_get {a b : ND α} {s i j : List Nat} (h : a.reshape s = some b) (hi : InR s i) (hj : InR a.shape j)
    (e : ravel s i = ravel a.shape j) : b.get i = a.get j := by
  obtain ⟨⟨_, h2⟩, h3⟩ := reshape_flat h
  rw [get_flat a j hj, get_flat b i (by rw [h3]; exact hi), h3, e, h2 _ (ravel_lt _ _ hj)]

theorem extend_short (r : Request) (f f0 : NcFile) (hd : f.depth = f0.depth) (nz : Nat) (hz : 1 ≤ nz) :
    extendDepth r (r.depthIdx f0) (fullZ r f0) nz = r.short f0 nz := by
  unfold extendDepth fullZ
  rw [short_eq]
  by_cases hu : r.useDepth = true
  · simp only [hu, if_true, Bool.true_and]
    rw [Bool.and_comm (decide ((r.depthIdx f0).getLastD 0 + 1 = f0.depth.length)), Bool.and_assoc, Bool.and_comm _ r.bgrid,
      ← Bool.and_assoc, Bool.and_comm _ r.bgrid]
  · have hu' : r.useDepth = false := by simpa using hu
    have : ¬ (nz + 1 = 1) := by omega
    simp only [hu', this, decide_false, Bool.and_false, Bool.false_and, Bool.false_eq_true, if_false]

/-- What `_apply_indices` selects, when the first axis of the file is read with `ti`. -/
theorem readAll_spec (l : Layout) (ny nx nz : Nat) (r : Request) (f f0 : NcFile) (hw : WellFormed l ny nx nz f) (hnz : 1 ≤ nz)
    (hd : f.depth = f0.depth)
    (hflat : l.hasDepth = false → r.depthIdx f0 = [0]) (hzyx : l = .zyx → 1 < (r.depthIdx f0).length)
    (la li : List Nat) (b : ND ℚ) (h : readAll r la li (r.depthIdx f0) (fullZ r f0) f = some b) :
    b.shape = [f.time.length, (picked r f0 nz).length, la.length, li.length] ∧
    (∀ y, y < la.length → la.getD y 0 < ny) ∧ (∀ x, x < li.length → li.getD x 0 < nx) ∧
    ∀ t z y x, t < f.time.length → z < (picked r f0 nz).length → y < la.length → x < li.length →
      b.get [t, z, y, x] = l.value f t ((picked r f0 nz).getD z 0) (la.getD y 0) (li.getD x 0) := by
  have hdata := hw.data
  unfold readAll at h
  rw [Option.bind_eq_bind, Option.bind_eq_some_iff] at h
  obtain ⟨c, h1, h2⟩ := h
  unfold applyIndices at h1
  rcases l with _ | _ | _ | _
  · -- (lat, lon)
    have hdl := hflat rfl
    have hp : picked r f0 nz = [0] := by
      rw [picked_eq]
      split
      · rename_i hs
        rw [short_eq] at hs
        simp only [Bool.and_eq_true, decide_eq_true_eq] at hs
        rw [hdl] at hs
        simp at hs
        omega
      · exact hdl
    have ht := hw.single (Or.inl rfl)
    simp only [] at hdata
    rw [hdata] at h1
    simp only [List.length_cons, List.length_nil, if_true] at h1
    obtain ⟨p1, p2, p3⟩ := pick_some h1
    rw [hdata] at p1 p3
    simp only [selOk, Bool.and_eq_true, Bool.and_true] at p1
    simp only [selShape] at p2
    rw [p2] at h2
    simp only [List.length_cons, List.length_nil, if_true] at h2
    obtain ⟨_, hs⟩ := reshape_flat h2
    refine ⟨by rw [hs, hp]; rfl, fun y hy => getD_all p1.1 hy, fun x hx => getD_all p1.2 hx, ?_⟩
    intro t z y x h3 h4 h5 h6
    rw [hp] at h4 ⊢
    have e1 : t = 0 := by omega
    have e2 : z = 0 := by simpa using h4
    subst e1 e2
    rw [reshape_get h2 (i := [0, 0, y, x]) (j := [y, x]) ⟨h3, by simp, h5, h6, trivial⟩ (by rw [p2]; exact ⟨h5, h6, trivial⟩) (by rw [p2]; simp [ravel, prod]), p3]
    rfl
  · -- (time, lat, lon)
    have hdl := hflat rfl
    have hp : picked r f0 nz = [0] := by
      rw [picked_eq]
      split
      · rename_i hs
        rw [short_eq] at hs
        simp only [Bool.and_eq_true, decide_eq_true_eq] at hs
        rw [hdl] at hs
        simp at hs
        omega
      · exact hdl
    simp only [] at hdata
    rw [hdata] at h1
    have hext : extendDepth r [0] (fullZ r f0) f.time.length = false := by
      unfold extendDepth
      have := hw.times
      by_cases c : fullZ r f0 = 1
      · have : ¬ (f.time.length + 1 = fullZ r f0) := by omega
        simp [this]
      · have : ¬ (1 = fullZ r f0) := fun e => c e.symm
        simp [this]
    rw [hdl] at h1 h2
    simp only [List.length_cons, List.length_nil, List.getD_cons_zero, hext, List.headD_cons] at h1
    simp only [Nat.reduceAdd, Nat.reduceEqDiff, if_false, if_true, Bool.false_eq_true, lt_self_iff_false] at h1
    obtain ⟨p1, p2, p3⟩ := pick_some h1
    rw [hdata] at p1 p3
    simp only [selOk, Bool.and_eq_true, Bool.and_true] at p1
    simp only [selShape, List.length_range] at p2
    rw [p2] at h2
    simp only [List.length_cons, List.length_nil, Nat.reduceAdd, Nat.reduceEqDiff, if_false, if_true, lt_self_iff_false,
      List.tail_cons] at h2
    obtain ⟨_, hs⟩ := reshape_flat h2
    refine ⟨by rw [hs, hp]; rfl, fun y hy => getD_all p1.2.1 hy, fun x hx => getD_all p1.2.2 hx, ?_⟩
    intro t z y x h3 h4 h5 h6
    rw [hp] at h4 ⊢
    have e2 : z = 0 := by simpa using h4
    subst e2
    rw [reshape_get h2 (i := [t, 0, y, x]) (j := [t, y, x]) ⟨h3, by simp, h5, h6, trivial⟩ (by rw [p2]; exact ⟨h3, h5, h6, trivial⟩)
      (by rw [p2]; simp [ravel, prod]), p3]
    simp only [selIdx, Layout.value]
    rw [List.getD_eq_getElem _ _ (by simpa using h3), List.getElem_range]
  · -- (depth, lat, lon)
    have hlt := hzyx rfl
    have ht := hw.single (Or.inr rfl)
    simp only [] at hdata
    rw [hdata] at h1
    simp only [List.length_cons, List.length_nil, List.getD_cons_zero, extend_short r f f0 hd nz hnz] at h1
    simp only [Nat.reduceAdd, Nat.reduceEqDiff, if_false, if_true, hlt] at h1
    have h1' : f.data.pick [.many (picked r f0 nz), .many la, .many li] = some c := by
      rw [picked_eq]
      split at h1 <;> rename_i hc
      · rw [if_pos hc]; exact h1
      · rw [if_neg hc]; exact h1
    obtain ⟨p1, p2, p3⟩ := pick_some h1'
    rw [hdata] at p1 p3
    simp only [selOk, Bool.and_eq_true, Bool.and_true] at p1
    simp only [selShape] at p2
    rw [p2] at h2
    simp only [List.length_cons, List.length_nil, Nat.reduceAdd, Nat.reduceEqDiff, if_false, if_true, hlt] at h2
    obtain ⟨_, hs⟩ := reshape_flat h2
    refine ⟨by rw [hs, ht], fun y hy => getD_all p1.2.1 hy, fun x hx => getD_all p1.2.2 hx, ?_⟩
    intro t z y x h3 h4 h5 h6
    have e1 : t = 0 := by omega
    subst e1
    rw [reshape_get h2 (i := [0, z, y, x]) (j := [z, y, x]) ⟨by omega, h4, h5, h6, trivial⟩ (by rw [p2]; exact ⟨h4, h5, h6, trivial⟩)
      (by rw [p2]; simp [ravel, prod]), p3]
    rfl
  · -- (time, depth, lat, lon)
    simp only [] at hdata
    rw [hdata] at h1
    simp only [List.length_cons, List.length_nil, List.getD_cons_zero, List.getD_cons_succ, extend_short r f f0 hd nz hnz,
      List.headD_cons] at h1
    simp only [Nat.reduceAdd, Nat.reduceEqDiff, if_false] at h1
    have h1' : f.data.pick [.many (List.range f.time.length), .many (picked r f0 nz), .many la, .many li] = some c := by
      rw [picked_eq]
      split at h1 <;> rename_i hc
      · rw [if_pos hc]; exact h1
      · rw [if_neg hc]; exact h1
    obtain ⟨p1, p2, p3⟩ := pick_some h1'
    rw [hdata] at p1 p3
    simp only [selOk, Bool.and_eq_true, Bool.and_true] at p1
    simp only [selShape, List.length_range] at p2
    rw [p2] at h2
    simp only [List.length_cons, List.length_nil, Nat.reduceAdd, Nat.reduceEqDiff, if_false] at h2
    cases h2
    refine ⟨p2, fun y hy => getD_all p1.2.2.1 hy, fun x hx => getD_all p1.2.2.2 hx, ?_⟩
    intro t z y x h3 h4 h5 h6
    rw [p3]
    simp only [selIdx, Layout.value]
    rw [List.getD_eq_getElem _ _ (by simpa using h3), List.getElem_range]

end Parcels.Load
