import Verif.Spec.Chunks
import Mathlib.Tactic.Ring
import Mathlib.Tactic.Linarith
import Mathlib.Data.List.Forall2

/-!
Lemmas for C47.
-/

namespace Parcels.Chunks

variable {α : Type}

theorem at?_nat (l : List α) (i : Nat) : at? l (i : ℤ) = l[i]? := by
  unfold at?
  rw [if_neg (by omega)]
  simp

/-! ### The layout -/

theorem shift_info (axes : List (List Nat)) (i : Nat) (hi : i ≤ axes.length) :
    shift (chunkInfo axes) i = (axes.take i).flatten.length := by
  unfold shift chunkInfo
  simp only [List.cons_append, List.nil_append, List.drop_succ_cons, List.drop_zero]
  rw [List.take_append_of_le_length (by simpa using hi), ← List.map_take, List.length_flatten]

theorem drop_info (axes : List (List Nat)) (i : Nat) (hi : i ≤ axes.length) :
    (chunkInfo axes).drop (1 + (chunkInfo axes).headD 0 + shift (chunkInfo axes) i) = (axes.drop i).flatten := by
  rw [shift_info axes i hi]
  have h : axes.flatten = (axes.take i).flatten ++ (axes.drop i).flatten := by
    rw [← List.flatten_append, List.take_append_drop]
  have hh : (chunkInfo axes).headD 0 = axes.length := rfl
  rw [hh, ← List.drop_drop]
  have : (chunkInfo axes).drop (1 + axes.length) = axes.flatten := by
    unfold chunkInfo
    rw [List.drop_append_of_le_length (by simp; omega)]
    simp [Nat.add_comm]
  rw [this, h, List.drop_left']
  rfl

theorem axisSizes_info (axes : List (List Nat)) (i : Nat) (ax : List Nat) (h : axes[i]? = some ax) :
    axisSizes (chunkInfo axes) i = ax := by
  obtain ⟨hi, he⟩ := List.getElem?_eq_some_iff.mp h
  unfold axisSizes
  rw [drop_info axes i hi.le, List.drop_eq_getElem_cons hi, he]
  have : (chunkInfo axes).getD (1 + i) 0 = ax.length := by
    unfold chunkInfo
    rw [List.getD_eq_getElem?_getD, List.cons_append, List.nil_append, List.cons_append, Nat.add_comm 1 i, List.getElem?_cons_succ,
      List.getElem?_append_left (by simpa using hi), List.getElem?_map, h]
    rfl
  rw [this]
  simp

theorem findChunk_spec : ∀ (sizes : List Nat) (j s i : Nat), i < sizes.sum →
    ∃ b l : Nat, findChunk sizes (j : ℤ) (s : ℤ) ((s + i : Nat) : ℤ) = (((j + b : Nat) : ℤ), (l : ℤ)) ∧ InChunk sizes i b l
  | [], _, _, _, h => by simp at h
  | c :: cs, j, s, i, h => by
    unfold findChunk
    by_cases hc : i < c
    · rw [if_pos (by push_cast; omega)]
      refine ⟨0, i, ?_, c, rfl, hc, by simp⟩
      simp
    · rw [if_neg (by push_cast; omega)]
      obtain ⟨b, l, h1, c', h2, h3, h4⟩ := findChunk_spec cs (j + 1) (s + c) (i - c) (by
        rw [List.sum_cons] at h; omega)
      refine ⟨b + 1, l, ?_, c', by simpa using h2, h3, ?_⟩
      · have e : s + c + (i - c) = s + i := by omega
        rw [e] at h1
        push_cast at h1 ⊢
        rw [h1]
        congr 1
        ring
      · rw [List.take_succ_cons, List.sum_cons]
        omega

theorem inChunk_unique {sizes : List Nat} {i b l b' l' : Nat} (h : InChunk sizes i b l) (h' : InChunk sizes i b' l') :
    b = b' ∧ l = l' := by
  have key : ∀ {b l b' l' : Nat}, InChunk sizes i b l → InChunk sizes i b' l' → ¬ b < b' := by
    intro b l b' l' ⟨c, h1, h2, h3⟩ ⟨c', h1', h2', h3'⟩ hlt
    have : (sizes.take (b + 1)).sum ≤ (sizes.take b').sum := by
      have e : sizes.take b' = sizes.take (b + 1) ++ (sizes.take b').drop (b + 1) := by
        conv_lhs => rw [← List.take_append_drop (b + 1) (sizes.take b')]
        rw [List.take_take, min_eq_left (by omega)]
      rw [e, List.sum_append]
      omega
    obtain ⟨hb, he⟩ := List.getElem?_eq_some_iff.mp h1
    rw [List.take_succ_eq_append_getElem hb, List.sum_append, he] at this
    simp at this
    omega
  have e : b = b' := by
    have := key h h'
    have := key h' h
    omega
  subst e
  refine ⟨rfl, ?_⟩
  obtain ⟨c, _, _, h3⟩ := h
  obtain ⟨c', _, _, h3'⟩ := h'
  omega

/-- Chunk numbers and local indices of a node. -/
inductive Split : List (List Nat) → List Nat → List Nat → List Nat → Prop
  | nil : Split [] [] [] []
  | cons {ax axes i idx b bs l ls} : InChunk ax i b l → Split axes idx bs ls → Split (ax :: axes) (i :: idx) (b :: bs) (l :: ls)

theorem exists_split {axes : List (List Nat)} {idx : List Nat} (h : List.Forall₂ (fun (ax : List Nat) i => i < ax.sum) axes idx) :
    ∃ bs ls, Split axes idx bs ls ∧
      List.zipWith (fun ax (i : Nat) => findChunk ax 0 0 (i : ℤ)) axes idx =
        List.zipWith (fun (b l : Nat) => ((b : ℤ), (l : ℤ))) bs ls := by
  induction h with
  | nil => exact ⟨[], [], .nil, rfl⟩
  | @cons ax i axes idx hi _ ih =>
    obtain ⟨bs, ls, h1, h2⟩ := ih
    obtain ⟨b, l, h3, h4⟩ := findChunk_spec ax 0 0 i hi
    refine ⟨b :: bs, l :: ls, .cons h4 h1, ?_⟩
    simp only [List.zipWith_cons_cons, h2]
    simp only [Nat.zero_add, Nat.cast_zero] at h3
    rw [h3]

theorem Split.lengths {axes : List (List Nat)} {idx bs ls : List Nat} (h : Split axes idx bs ls) :
    idx.length = axes.length ∧ bs.length = axes.length ∧ ls.length = axes.length := by
  induction h with
  | nil => simp
  | cons _ _ ih => simp [ih]

theorem map_zipIdx_findChunk (axes : List (List Nat)) (idx : List ℤ) (hl : idx.length = axes.length) :
    idx.zipIdx.map (fun p => findChunk (axisSizes (chunkInfo axes) p.2) 0 0 p.1) =
      List.zipWith (fun ax i => findChunk ax 0 0 i) axes idx := by
  apply List.ext_getElem
  · simp [hl]
  · intro n h1 h2
    simp only [List.length_map, List.length_zipIdx] at h1
    have hn : n < axes.length := by omega
    simp only [List.getElem_map, List.getElem_zipIdx, List.getElem_zipWith, Nat.zero_add]
    rw [axisSizes_info axes n axes[n] (List.getElem?_eq_getElem hn)]

theorem zipWith_fst {bs ls : List Nat} (h : bs.length = ls.length) :
    (List.zipWith (fun (b l : Nat) => ((b : ℤ), (l : ℤ))) bs ls).map (·.1) = bs.map fun (n : Nat) => (n : ℤ) := by
  apply List.ext_getElem
  · simp [h]
  · intro n h1 h2; simp

theorem zipWith_snd {bs ls : List Nat} (h : bs.length = ls.length) :
    (List.zipWith (fun (b l : Nat) => ((b : ℤ), (l : ℤ))) bs ls).map (·.2) = ls.map fun (n : Nat) => (n : ℤ) := by
  apply List.ext_getElem
  · simp [h]
  · intro n h1 h2; simp

theorem getBlock_spec {axes : List (List Nat)} {idx : List Nat}
    (h : List.Forall₂ (fun (ax : List Nat) i => i < ax.sum) axes idx) :
    ∃ bs ls, Split axes idx bs ls ∧ getBlock (chunkInfo axes) (idx.map fun (n : Nat) => (n : ℤ)) =
      ⟨flatIndex 0 ((axes.map List.length).map fun (n : Nat) => (n : ℤ)) (bs.map fun (n : Nat) => (n : ℤ)),
        bs.map fun (n : Nat) => (n : ℤ), ls.map fun (n : Nat) => (n : ℤ)⟩ := by
  obtain ⟨bs, ls, h1, h2⟩ := exists_split h
  refine ⟨bs, ls, h1, ?_⟩
  obtain ⟨e1, e2, e3⟩ := h1.lengths
  unfold getBlock
  rw [map_zipIdx_findChunk axes _ (by simpa using e1)]
  have hz : List.zipWith (fun ax i => findChunk ax 0 0 i) axes (idx.map fun (n : Nat) => (n : ℤ)) =
      List.zipWith (fun (b l : Nat) => ((b : ℤ), (l : ℤ))) bs ls := by
    rw [List.zipWith_map_right, h2]
  simp only
  rw [hz, zipWith_fst (by omega), zipWith_snd (by omega)]
  have hs : ((chunkInfo axes).drop 1).take ((chunkInfo axes).headD 0) = axes.map List.length := by
    unfold chunkInfo
    simp
  rw [hs]

/-- Sizes of the chunk along the axes. -/
def sizesOf (axes : List (List Nat)) (bs : List Nat) : List Nat :=
  List.zipWith (fun (sizes : List Nat) b => sizes.getD b 0) axes bs

theorem mapM_some_of {β γ : Type} (f : β → Option γ) (g : β → γ) : ∀ (l : List β), (∀ x ∈ l, f x = some (g x)) →
    l.mapM f = some (l.map g)
  | [], _ => by simp
  | x :: l, h => by
    rw [List.mapM_cons, h x List.mem_cons_self, mapM_some_of f g l fun y hy => h y (List.mem_cons_of_mem _ hy)]
    simp

theorem Split.get {axes : List (List Nat)} {idx bs ls : List Nat} (h : Split axes idx bs ls) :
    ∀ (k : Nat) (ax : List Nat) (b : Nat), axes[k]? = some ax → bs[k]? = some b →
      ∃ i l, idx[k]? = some i ∧ ls[k]? = some l ∧ InChunk ax i b l := by
  induction h with
  | nil => intro k ax b h; simp at h
  | @cons ax axes i idx b bs l ls hc _ ih =>
    intro k ax' b' h1 h2
    cases k with
    | zero =>
      simp only [List.getElem?_cons_zero, Option.some.injEq] at h1 h2
      subst h1 h2
      exact ⟨i, l, rfl, rfl, hc⟩
    | succ k =>
      simp only [List.getElem?_cons_succ] at h1 h2 ⊢
      exact ih k ax' b' h1 h2

theorem chunkDims_spec {axes : List (List Nat)} {idx bs ls : List Nat} (h : Split axes idx bs ls) :
    chunkDims (chunkInfo axes) (bs.map fun (n : Nat) => (n : ℤ)) = some ((sizesOf axes bs).map fun (n : Nat) => (n : ℤ)) := by
  obtain ⟨e1, e2, e3⟩ := h.lengths
  unfold chunkDims
  rw [mapM_some_of _ fun (p : ℤ × Nat) => (((axes.getD p.2 []).getD p.1.toNat 0 : Nat) : ℤ)]
  · congr 1
    unfold sizesOf
    apply List.ext_getElem
    · simp [e2]
    · intro n h1 h2
      simp only [List.length_map, List.length_zipIdx] at h1
      have hn : n < axes.length := by omega
      simp [List.getElem?_eq_getElem hn]
  · intro p hp
    obtain ⟨b, k⟩ := p
    rw [List.mk_mem_zipIdx_iff_getElem?, List.getElem?_map] at hp
    cases hb : bs[k]? with
    | none => rw [hb] at hp; simp at hp
    | some b0 =>
      rw [hb] at hp
      simp only [Option.map_some, Option.some.injEq] at hp
      subst hp
      have hk : k < axes.length := by
        obtain ⟨hk, _⟩ := List.getElem?_eq_some_iff.mp hb
        omega
      obtain ⟨i, l, _, _, c, hc, _⟩ := h.get k axes[k] b0 (List.getElem?_eq_getElem hk) hb
      simp only
      rw [show ((1 + (chunkInfo axes).headD 0 + shift (chunkInfo axes) k : Nat) : ℤ) + (b0 : ℤ) =
        ((1 + (chunkInfo axes).headD 0 + shift (chunkInfo axes) k + b0 : Nat) : ℤ) by push_cast; ring, at?_nat,
        ← List.getElem?_drop, drop_info axes k hk.le, List.drop_eq_getElem_cons hk]
      obtain ⟨hb0, _⟩ := List.getElem?_eq_some_iff.mp hc
      rw [List.flatten_cons, List.getElem?_append_left hb0, hc]
      simp [List.getElem?_eq_getElem hk, hc]

/-! ### Row-by-row numbering -/

theorem flatIndex_spec : ∀ {dims idx : List Nat}, List.Forall₂ (· < ·) idx dims → ∀ acc : Nat,
    ∃ r : Nat, flatIndex (acc : ℤ) (dims.map fun (n : Nat) => (n : ℤ)) (idx.map fun (n : Nat) => (n : ℤ)) =
      ((acc * dims.prod + r : Nat) : ℤ) ∧ r < dims.prod ∧ unravel dims r = idx
  | [], [], _, acc => ⟨0, by simp [flatIndex], by simp, rfl⟩
  | d :: ds, i :: is, h, acc => by
    cases h with
    | cons h1 h2 =>
      obtain ⟨r, e1, e2, e3⟩ := flatIndex_spec h2 (acc * d + i)
      refine ⟨i * ds.prod + r, ?_, ?_, ?_⟩
      · simp only [List.map_cons]
        unfold flatIndex
        have : (acc : ℤ) * (d : ℤ) + (i : ℤ) = ((acc * d + i : Nat) : ℤ) := by push_cast; rfl
        rw [this, e1, List.prod_cons]
        push_cast
        ring
      · rw [List.prod_cons]
        calc i * ds.prod + r < i * ds.prod + ds.prod := by omega
          _ = (i + 1) * ds.prod := by ring
          _ ≤ d * ds.prod := Nat.mul_le_mul_right _ h1
      · unfold unravel
        have hpos : 0 < ds.prod := by omega
        rw [Nat.add_comm, Nat.add_mul_div_right _ _ hpos, Nat.div_eq_of_lt e2, Nat.add_mul_mod_self_right, Nat.mod_eq_of_lt e2,
          e3]
        simp

theorem Split.blocks_lt {axes : List (List Nat)} {idx bs ls : List Nat} (h : Split axes idx bs ls) :
    List.Forall₂ (· < ·) bs (axes.map List.length) := by
  induction h with
  | nil => exact .nil
  | cons hc _ ih =>
    obtain ⟨c, h1, _⟩ := hc
    obtain ⟨hb, _⟩ := List.getElem?_eq_some_iff.mp h1
    exact .cons hb ih

theorem Split.locals_lt {axes : List (List Nat)} {idx bs ls : List Nat} (h : Split axes idx bs ls) :
    List.Forall₂ (· < ·) ls (sizesOf axes bs) := by
  induction h with
  | nil => exact .nil
  | cons hc _ ih =>
    obtain ⟨c, h1, h2, _⟩ := hc
    refine .cons ?_ ih
    simp [h1, h2]

theorem Split.sum {axes : List (List Nat)} {idx bs ls : List Nat} (h : Split axes idx bs ls) :
    List.zipWith (· + ·) (List.zipWith (fun (sizes : List Nat) b => (sizes.take b).sum) axes bs) ls = idx := by
  induction h with
  | nil => rfl
  | cons hc _ ih =>
    obtain ⟨c, _, _, h3⟩ := hc
    simp [ih, h3]

theorem Split.holds {axes : List (List Nat)} {idx bs ls : List Nat} (h : Split axes idx bs ls) (r : Nat)
    (hr : r < (axes.map List.length).prod) (hu : unravel (axes.map List.length) r = bs) : Holds axes r idx := by
  refine ⟨hr, h.lengths.1, ?_⟩
  rw [hu]
  intro k ax b i h1 h2 h3
  obtain ⟨i', l, e1, _, e3⟩ := h.get k ax b h1 h2
  rw [h3] at e1
  obtain rfl := Option.some.inj e1
  exact ⟨l, e3⟩

/-- The C code finds the number of the chunk of a node, its sizes and the local indices. -/
theorem locate {axes : List (List Nat)} {idx : List Nat}
    (h : List.Forall₂ (fun (ax : List Nat) i => i < ax.sum) axes idx) :
    ∃ bid bs ls, Split axes idx bs ls ∧ bid < (axes.map List.length).prod ∧ unravel (axes.map List.length) bid = bs ∧
      getBlock (chunkInfo axes) (idx.map fun (n : Nat) => (n : ℤ)) =
        ⟨(bid : ℤ), bs.map fun (n : Nat) => (n : ℤ), ls.map fun (n : Nat) => (n : ℤ)⟩ := by
  obtain ⟨bs, ls, h1, h2⟩ := getBlock_spec h
  obtain ⟨r, e1, e2, e3⟩ := flatIndex_spec h1.blocks_lt 0
  refine ⟨r, bs, ls, h1, e2, e3, ?_⟩
  rw [h2]
  simp only [Nat.cast_zero, Nat.zero_mul, Nat.zero_add] at e1
  rw [e1]

/-- Reading a loaded chunk at local indices gives the datum of the node. -/
theorem readAt_spec {axes : List (List Nat)} {idx bs ls : List Nat} (h : Split axes idx bs ls) (d : Data α) (bid : Nat)
    (hu : unravel (axes.map List.length) bid = bs) (chunks : List (Option (List α)))
    (hc : chunks[bid]? = some (some (loadBlock axes d bid))) (t : Nat) (ht : t < d.tdim) :
    readAt chunks (bid : ℤ) ((sizesOf axes bs).map fun (n : Nat) => (n : ℤ)) (t : ℤ) (ls.map fun (n : Nat) => (n : ℤ)) =
      some (d.v t idx) := by
  unfold readAt
  rw [at?_nat, hc]
  simp only
  obtain ⟨r, e1, e2, e3⟩ := flatIndex_spec h.locals_lt t
  rw [e1, at?_nat]
  unfold loadBlock
  rw [hu]
  simp only
  have hlt : t * (sizesOf axes bs).prod + r < d.tdim * (sizesOf axes bs).prod := by
    calc t * (sizesOf axes bs).prod + r < t * (sizesOf axes bs).prod + (sizesOf axes bs).prod := by omega
      _ = (t + 1) * (sizesOf axes bs).prod := by ring
      _ ≤ d.tdim * (sizesOf axes bs).prod := Nat.mul_le_mul_right _ ht
  have hunr : unravel (d.tdim :: sizesOf axes bs) (t * (sizesOf axes bs).prod + r) = t :: ls := by
    have hpos : 0 < (sizesOf axes bs).prod := by omega
    show (t * (sizesOf axes bs).prod + r) / (sizesOf axes bs).prod :: unravel (sizesOf axes bs) ((t * (sizesOf axes bs).prod + r) % (sizesOf axes bs).prod) = t :: ls
    rw [Nat.add_comm, Nat.add_mul_div_right _ _ hpos, Nat.div_eq_of_lt e2, Nat.add_mul_mod_self_right, Nat.mod_eq_of_lt e2, e3]
    simp
  rw [List.getElem?_map]
  show Option.map _ (List.range (d.tdim * (sizesOf axes bs).prod))[t * (sizesOf axes bs).prod + r]? = _
  rw [List.getElem?_range hlt]
  simp only [Option.map_some, Option.some.injEq]
  have hs := h.sum
  unfold sizesOf at hunr ⊢
  rw [hunr]
  simp only
  rw [hs]

end Parcels.Chunks
