import Verif.Proofs.Chunks

/-!
Lemmas for C47: evaluation of a cell.
-/

namespace Parcels.Chunks

variable {α : Type}

/-! ### Numbers of chunks are unique -/

theorem unravel_inj : ∀ (dims : List Nat) (m n : Nat), m < dims.prod → n < dims.prod → unravel dims m = unravel dims n → m = n
  | [], m, n, hm, hn, _ => by simp at hm hn; omega
  | d :: ds, m, n, hm, hn, h => by
    unfold unravel at h
    rw [List.cons.injEq] at h
    have hpos : 0 < ds.prod := by
      rw [List.prod_cons] at hm
      exact Nat.pos_of_ne_zero fun h0 => by rw [h0, Nat.mul_zero] at hm; omega
    have := unravel_inj ds _ _ (Nat.mod_lt m hpos) (Nat.mod_lt n hpos) h.2
    have e1 := Nat.div_add_mod m ds.prod
    have e2 := Nat.div_add_mod n ds.prod
    rw [h.1, this] at e1
    omega

theorem unravel_length : ∀ (dims : List Nat) (n : Nat), (unravel dims n).length = dims.length
  | [], _ => rfl
  | _ :: ds, n => by
    unfold unravel
    simp [unravel_length ds]

theorem holds_unique {axes : List (List Nat)} {idx : List Nat} {b b' : Nat} (h : Holds axes b idx) (h' : Holds axes b' idx) :
    b = b' := by
  obtain ⟨h1, h2, h3⟩ := h
  obtain ⟨h1', _, h3'⟩ := h'
  refine unravel_inj _ _ _ h1 h1' ?_
  apply List.ext_getElem
  · rw [unravel_length, unravel_length]
  · intro n hn hn'
    have hna : n < axes.length := by rw [unravel_length] at hn; simpa using hn
    have hni : n < idx.length := by omega
    obtain ⟨l, hl⟩ := h3 n axes[n] _ idx[n] (List.getElem?_eq_getElem hna) (List.getElem?_eq_getElem hn)
      (List.getElem?_eq_getElem hni)
    obtain ⟨l', hl'⟩ := h3' n axes[n] _ idx[n] (List.getElem?_eq_getElem hna) (List.getElem?_eq_getElem hn')
      (List.getElem?_eq_getElem hni)
    exact (inChunk_unique hl hl').1

/-! ### Load states -/

theorem touched_refl (load : List Nat) : Touched load load :=
  ⟨rfl, fun b s s' h h' => by rw [h] at h'; exact .inl (Option.some.inj h').symm⟩

theorem getElem?_of_length {l l' : List Nat} (h : l'.length = l.length) {b s : Nat} (hb : l[b]? = some s) :
    ∃ s', l'[b]? = some s' := by
  obtain ⟨hlt, _⟩ := List.getElem?_eq_some_iff.mp hb
  exact ⟨_, List.getElem?_eq_getElem (by omega)⟩

theorem touched_trans {a b c : List Nat} (h : Touched a b) (h' : Touched b c) : Touched a c := by
  refine ⟨h'.1.trans h.1, fun k s s' hs hs' => ?_⟩
  obtain ⟨x, hx⟩ := getElem?_of_length h.1 hs
  have := h.2 k s x hs hx
  have := h'.2 k x s' hx hs'
  omega

theorem touched_requested {a b c : List Nat} {k : Nat} (h : Touched a b) (h' : Requested b c k) : Requested a c k := by
  obtain ⟨h1, ⟨s, hs, hs2⟩, h3, h4⟩ := h'
  obtain ⟨x, hx⟩ := getElem?_of_length h.1.symm hs
  refine ⟨h1.trans h.1, ⟨x, hx, ?_⟩, h3, fun m u u' hm hu hu' => ?_⟩
  · have := h.2 k x s hx hs
    omega
  · obtain ⟨y, hy⟩ := getElem?_of_length h.1 hu
    have := h.2 m u y hu hy
    have := h4 m y u' hm hy hu'
    omega

theorem access_cases (load : List Nat) (b : Nat) (hb : b < load.length) :
    (∃ s load', load[b]? = some s ∧ s < 2 ∧ access load (b : ℤ) = some (load', false) ∧ Requested load load' b) ∨
    (∃ s load', load[b]? = some s ∧ 2 ≤ s ∧ access load (b : ℤ) = some (load', true) ∧ Touched load load') := by
  have hg : load[b]? = some load[b] := List.getElem?_eq_getElem hb
  unfold access
  rw [at?_nat, hg]
  simp only [Int.toNat_natCast]
  by_cases h : load[b] < 2
  · refine .inl ⟨load[b], load.set b 1, rfl, h, by rw [if_pos h], ?_⟩
    refine ⟨by simp, ⟨_, hg, h⟩, ?_, ?_⟩
    · rw [List.getElem?_set_self hb]
    · intro c s s' hc hs hs'
      rw [List.getElem?_set_ne (Ne.symm hc), hs] at hs'
      exact .inl (Option.some.inj hs').symm
  · refine .inr ⟨load[b], load.set b 2, rfl, by omega, by rw [if_neg h], ?_⟩
    refine ⟨by simp, fun c s s' hs hs' => ?_⟩
    by_cases hc : c = b
    · subst hc
      rw [List.getElem?_set_self hb] at hs'
      rw [hg] at hs
      have e := Option.some.inj hs
      have e' := Option.some.inj hs'
      right
      omega
    · rw [List.getElem?_set_ne (Ne.symm hc), hs] at hs'
      exact .inl (Option.some.inj hs').symm

theorem InMemory.touch {axes : List (List Nat)} {d : Data α} {load load' : List Nat} {chunks : List (Option (List α))}
    (h : InMemory axes d load chunks) (ht : Touched load load') : InMemory axes d load' chunks := by
  refine ⟨ht.1.trans h.lenLoad, h.lenChunks, fun b s hs h2 => ?_⟩
  obtain ⟨x, hx⟩ := getElem?_of_length ht.1.symm hs
  have := ht.2 b x s hx hs
  exact h.data b x hx (by omega)

/-! ### Corners -/

/-- Corner `c` of the cell, where an axis with a single node has only that. -/
def addC : List (List Nat) → List Nat → List ℤ → List Nat
  | ax :: axes, i :: idx, c :: cs => (i + if ax.sum = 1 then 0 else c.toNat) :: addC axes idx cs
  | _, _, _ => []

/-- A list of `n` zeros and ones. -/
def Bits (n : Nat) (c : List ℤ) : Prop := c.length = n ∧ ∀ x ∈ c, x = 0 ∨ x = 1

theorem mem_corners : ∀ (n : Nat) (c : List ℤ), c ∈ corners n → Bits n c
  | 0, c, h => by
    simp [corners] at h
    subst h
    exact ⟨rfl, by simp⟩
  | n + 1, c, h => by
    unfold corners at h
    rw [List.mem_flatMap] at h
    obtain ⟨b, hb, hc⟩ := h
    rw [List.mem_map] at hc
    obtain ⟨c', hc', rfl⟩ := hc
    obtain ⟨h1, h2⟩ := mem_corners n c' hc'
    refine ⟨by simp [h1], ?_⟩
    intro x hx
    rcases List.mem_cons.mp hx with rfl | hx
    · simpa using hb
    · exact h2 x hx

theorem nodes_eq : ∀ (axes : List (List Nat)) (idx : List Nat), idx.length = axes.length →
    nodes axes idx = (corners axes.length).map (addC axes idx)
  | [], [], _ => rfl
  | ax :: axes, i :: idx, h => by
    have hl : idx.length = axes.length := by simpa using h
    show [i, if ax.sum = 1 then i else i + 1].flatMap (fun j => (nodes axes idx).map (j :: ·)) =
      ([(0 : ℤ), 1].flatMap fun b => (corners axes.length).map (b :: ·)).map (addC (ax :: axes) (i :: idx))
    rw [nodes_eq axes idx hl]
    simp only [List.flatMap_cons, List.flatMap_nil, List.append_nil, List.map_append, List.map_map]
    congr 1
    · apply List.map_congr_left
      intro c _
      simp [addC]
    · apply List.map_congr_left
      intro c _
      by_cases hs : ax.sum = 1
      · simp [addC, hs]
      · simp [addC, hs]

theorem addC_inside {axes : List (List Nat)} {idx : List Nat} (h : IsCell axes idx) :
    ∀ c, Bits axes.length c → List.Forall₂ (fun (ax : List Nat) i => i < ax.sum) axes (addC axes idx c) := by
  induction h with
  | nil => intro c _; simp [addC]
  | @cons ax i axes idx hi _ ih =>
    intro c hc
    obtain ⟨h1, h2⟩ := hc
    cases c with
    | nil => simp at h1
    | cons x cs =>
      refine .cons ?_ (ih cs ⟨by simpa using h1, fun y hy => h2 y (List.mem_cons_of_mem _ hy)⟩)
      have hx := h2 x List.mem_cons_self
      rcases hi with hi | ⟨hi, rfl⟩
      · rw [if_neg (by omega)]
        rcases hx with rfl | rfl <;> simp <;> omega
      · simp [hi]

theorem addC_cast {axes : List (List Nat)} {idx : List Nat} (h : IsCell axes idx) (hs : ∀ ax ∈ axes, 2 ≤ ax.sum) :
    ∀ c, Bits axes.length c → List.zipWith (· + ·) (idx.map fun (n : Nat) => (n : ℤ)) c =
      (addC axes idx c).map fun (n : Nat) => (n : ℤ) := by
  induction h with
  | nil => intro c _; simp [addC]
  | @cons ax i axes idx hi _ ih =>
    intro c hc
    obtain ⟨h1, h2⟩ := hc
    cases c with
    | nil => simp at h1
    | cons x cs =>
      have hx := h2 x List.mem_cons_self
      have := hs ax List.mem_cons_self
      simp only [List.map_cons, List.zipWith_cons_cons, addC]
      rw [ih (fun a ha => hs a (List.mem_cons_of_mem _ ha)) cs
        ⟨by simpa using h1, fun y hy => h2 y (List.mem_cons_of_mem _ hy)⟩, if_neg (by omega)]
      congr 1
      rcases hx with rfl | rfl <;> simp

theorem inChunk_succ {ax : List Nat} {i b l : Nat} (h : InChunk ax i b l) (hl : l + 1 < ax.getD b 0) : InChunk ax (i + 1) b (l + 1) := by
  obtain ⟨c, h1, h2, h3⟩ := h
  refine ⟨c, h1, ?_, by omega⟩
  rw [List.getD_eq_getElem?_getD, h1] at hl
  simpa using hl

theorem last_chunk {ax : List Nat} {i b l : Nat} (h : InChunk ax i b l) (hin : ∀ c ∈ ax.dropLast, 2 ≤ c) (h1 : ax.getD b 0 = 1) :
    i + 1 = ax.sum := by
  obtain ⟨c, hc, hl, hi⟩ := h
  rw [List.getD_eq_getElem?_getD, hc] at h1
  simp only [Option.getD_some] at h1
  subst h1
  obtain ⟨hb, he⟩ := List.getElem?_eq_some_iff.mp hc
  have hlast : b + 1 = ax.length := by
    by_contra hne
    have : 2 ≤ ax[b] := by
      apply hin
      rw [List.mem_iff_getElem]
      exact ⟨b, by simp; omega, by simp⟩
    omega
  have : ax.sum = (ax.take b).sum + 1 := by
    conv_lhs => rw [← List.take_append_drop b ax]
    rw [List.sum_append, List.drop_eq_getElem_cons hb, he, List.drop_eq_nil_of_le (by omega)]
    simp
  omega

theorem le_sum_of_mem : ∀ (l : List Nat) (c : Nat), c ∈ l → c ≤ l.sum
  | x :: l, c, h => by
    rw [List.sum_cons]
    rcases List.mem_cons.mp h with rfl | h
    · omega
    · have := le_sum_of_mem l c h
      omega

/-- A cell that is not on several chunks. -/
theorem split_corner {axes : List (List Nat)} {idx bs ls : List Nat} (h : Split axes idx bs ls) :
    IsCell axes idx → (∀ ax ∈ axes, ∀ c ∈ ax.dropLast, 2 ≤ c) →
    (List.zipWith (fun (l d : ℤ) => decide (l = d - 1 ∧ 1 < d)) (ls.map fun (n : Nat) => (n : ℤ))
      ((sizesOf axes bs).map fun (n : Nat) => (n : ℤ))).any id = false →
    ∀ c, Bits axes.length c → ∃ ls', Split axes (addC axes idx c) bs ls' ∧
      List.zipWith (· + ·) (ls.map fun (n : Nat) => (n : ℤ))
        (List.zipWith (· * ·) c (((sizesOf axes bs).map fun (n : Nat) => (n : ℤ)).map fun d => if d = 1 then (0 : ℤ) else 1)) =
        ls'.map fun (n : Nat) => (n : ℤ) := by
  induction h with
  | nil => intro _ _ _ c hc; exact ⟨[], by simpa [addC] using Split.nil, by simp⟩
  | @cons ax axes i idx b bs l ls hch _ ih =>
    intro hcell hin hany c hc
    obtain ⟨h1, h2⟩ := hc
    cases c with
    | nil => simp at h1
    | cons x cs =>
      cases hcell with
      | cons hi hcell =>
        simp only [sizesOf, List.map_cons, List.zipWith_cons_cons, List.any_cons, Bool.or_eq_false_iff, id_eq,
          decide_eq_false_iff_not] at hany
        obtain ⟨ls', e1, e2⟩ := ih hcell (fun a ha => hin a (List.mem_cons_of_mem _ ha)) hany.2 cs
          ⟨by simpa using h1, fun y hy => h2 y (List.mem_cons_of_mem _ hy)⟩
        have hx := h2 x List.mem_cons_self
        have hlt : l < ax.getD b 0 := by
          obtain ⟨c, hc, hl, _⟩ := hch
          rw [List.getD_eq_getElem?_getD, hc]
          simpa using hl
        simp only [addC, sizesOf, List.map_cons, List.zipWith_cons_cons]
        by_cases hd : ax.getD b 0 = 1
        · have hlast := last_chunk hch (hin ax List.mem_cons_self) hd
          have hsum : ax.sum = 1 := by omega
          refine ⟨l :: ls', .cons ?_ e1, ?_⟩
          · rw [if_pos hsum]; exact hch
          · rw [hd]
            simp only [List.map_cons, Nat.cast_one, if_true, mul_zero, add_zero]
            congr 1
        · have hnc : l + 1 < ax.getD b 0 := by
            have := hany.1
            by_contra hge
            apply this
            constructor <;> omega
          have hsum : ax.sum ≠ 1 := by
            intro hs
            rcases hi with hi | ⟨_, rfl⟩
            · omega
            · obtain ⟨c, hcc, hl, hi⟩ := hch
              have hle : ax.getD b 0 ≤ ax.sum := by
                rw [List.getD_eq_getElem?_getD, hcc]
                exact le_sum_of_mem _ _ (List.mem_of_getElem? hcc)
              omega
          refine ⟨(l + x.toNat) :: ls', .cons ?_ e1, ?_⟩
          · rw [if_neg hsum]
            rcases hx with rfl | rfl
            · simpa using hch
            · exact inChunk_succ hch hnc
          · rw [if_neg (by exact_mod_cast hd)]
            simp only [List.map_cons]
            congr 1
            rcases hx with rfl | rfl <;> simp

/-! ### Evaluating a cell -/

/-- What is to be shown of an evaluation. -/
def Right (axes : List (List Nat)) (d : Data α) (load : List Nat) (ns : List (List Nat)) (cell : List α) (o : Out α) : Prop :=
  (∃ load', o = .ok load' cell ∧ Touched load load' ∧ ∀ n ∈ ns, ∃ b s, Holds axes b n ∧ load[b]? = some s ∧ 2 ≤ s) ∨
  (∃ load' b n, o = .rep load' ∧ n ∈ ns ∧ Holds axes b n ∧ Requested load load' b)

theorem gather_right {axes : List (List Nat)} {idx : List Nat} (hcell : IsCell axes idx) (hs : ∀ ax ∈ axes, 2 ≤ ax.sum)
    (d : Data α) (chunks : List (Option (List α))) (ti : Nat) :
    ∀ (todo : List (Nat × List ℤ)) (load : List Nat) (cell : List α), InMemory axes d load chunks →
    (∀ s ∈ todo, ti + s.1 < d.tdim ∧ Bits axes.length s.2) →
    Right axes d load (todo.map fun s => addC axes idx s.2)
      (cell ++ todo.map fun s => d.v (ti + s.1) (addC axes idx s.2))
      (gather (chunkInfo axes) chunks (idx.map fun (n : Nat) => (n : ℤ)) (ti : ℤ) (todo.map fun s => ((s.1 : ℤ), s.2)) load cell)
  | [], load, cell, _, _ => by
    left
    exact ⟨load, by simp [gather], touched_refl load, by simp⟩
  | s :: todo, load, cell, hm, h => by
    obtain ⟨ht, hb⟩ := h s List.mem_cons_self
    obtain ⟨bid, bs, ls, h1, h2, h3, h4⟩ := locate (addC_inside hcell s.2 hb)
    have hholds := h1.holds bid h2 h3
    simp only [List.map_cons]
    unfold gather
    simp only
    rw [addC_cast hcell hs s.2 hb, h4]
    simp only
    rcases access_cases load bid (by rw [hm.lenLoad]; exact h2) with ⟨x, load', hx, hx2, ha, hr⟩ | ⟨x, load', hx, hx2, ha, hr⟩
    · rw [ha]
      exact .inr ⟨load', bid, _, rfl, List.mem_cons_self, hholds, hr⟩
    · rw [ha]
      simp only
      rw [chunkDims_spec h1]
      simp only
      have hcast : (ti : ℤ) + (s.1 : ℤ) = ((ti + s.1 : Nat) : ℤ) := by push_cast; rfl
      rw [hcast, readAt_spec h1 d bid h3 chunks (hm.data bid x hx hx2) _ ht]
      simp only
      have ih := gather_right hcell hs d chunks ti todo load' (cell ++ [d.v (ti + s.1) (addC axes idx s.2)]) (hm.touch hr)
        fun s' hs' => h s' (List.mem_cons_of_mem _ hs')
      rw [List.append_assoc, List.singleton_append] at ih
      rcases ih with ⟨l2, e1, e2, e3⟩ | ⟨l2, b, n, e1, e2, e3, e4⟩
      · refine .inl ⟨l2, e1, touched_trans hr e2, ?_⟩
        intro n hn
        rcases List.mem_cons.mp hn with rfl | hn
        · exact ⟨bid, x, hholds, hx, hx2⟩
        · obtain ⟨b, y, hb1, hb2, hb3⟩ := e3 n hn
          obtain ⟨y', hy'⟩ := getElem?_of_length hr.1.symm hb2
          have := hr.2 b y' y hy' hb2
          exact ⟨b, y', hb1, hy', by omega⟩
      · exact .inr ⟨l2, b, n, e1, List.mem_cons_of_mem _ e2, e3, touched_requested hr e4⟩

/-- The steps as natural numbers. -/
def stepsN (n : Nat) (firstOnly : Bool) : List (Nat × List ℤ) :=
  (if firstOnly then [0] else [0, 1]).flatMap fun t => (corners n).map (t, ·)

theorem steps_eq (n : Nat) (f : Bool) : steps n f = (stepsN n f).map fun s => ((s.1 : ℤ), s.2) := by
  cases f <;> simp [steps, stepsN, List.map_flatMap, Function.comp_def]

theorem stepsN_ok (n : Nat) (f : Bool) (ti tdim : Nat) (h : ti + (if f then 0 else 1) < tdim) :
    ∀ s ∈ stepsN n f, ti + s.1 < tdim ∧ Bits n s.2 := by
  intro s hs
  unfold stepsN at hs
  rw [List.mem_flatMap] at hs
  obtain ⟨t, ht, hc⟩ := hs
  rw [List.mem_map] at hc
  obtain ⟨c, hc, rfl⟩ := hc
  refine ⟨?_, mem_corners n c hc⟩
  cases f
  · simp at ht h ⊢; omega
  · simp at ht h ⊢; omega

theorem cellData_eq (axes : List (List Nat)) (d : Data α) (idx : List Nat) (hl : idx.length = axes.length) (ti : Nat) (f : Bool) :
    cellData axes d idx ti f = (stepsN axes.length f).map fun s => d.v (ti + s.1) (addC axes idx s.2) := by
  unfold cellData stepsN
  rw [nodes_eq axes idx hl]
  cases f <;> simp [Function.comp_def]

theorem mem_stepsN_nodes (axes : List (List Nat)) (idx : List Nat) (hl : idx.length = axes.length) (f : Bool) (n : List Nat) :
    n ∈ (stepsN axes.length f).map (fun s => addC axes idx s.2) ↔ n ∈ nodes axes idx := by
  rw [nodes_eq axes idx hl]
  unfold stepsN
  cases f <;> simp

theorem addC_zero : ∀ (axes : List (List Nat)) (idx : List Nat), idx.length = axes.length →
    addC axes idx (List.replicate axes.length 0) = idx
  | [], [], _ => rfl
  | ax :: axes, i :: idx, h => by
    have hl : idx.length = axes.length := by simpa using h
    simp [List.replicate_succ, addC, addC_zero axes idx hl]

theorem zero_mem_corners : ∀ n, List.replicate n (0 : ℤ) ∈ corners n
  | 0 => by simp [corners]
  | n + 1 => by
    unfold corners
    rw [List.mem_flatMap]
    exact ⟨0, by simp, List.mem_map.mpr ⟨_, zero_mem_corners n, rfl⟩⟩

theorem isCell_length {axes : List (List Nat)} {idx : List Nat} (h : IsCell axes idx) : idx.length = axes.length :=
  (List.Forall₂.length_eq h).symm

theorem single_sum {ax : List Nat} (h : ax.length = 1) : ax.sum = ax.getD 0 0 := by
  match ax, h with
  | [c], _ => simp

/-- If no axis is split, no cell is on several chunks. -/
theorem no_cross {axes : List (List Nat)} {idx bs ls : List Nat} (h : Split axes idx bs ls) : IsCell axes idx →
    (∀ ax ∈ axes, ax.length = 1) →
    (List.zipWith (fun (l d : ℤ) => decide (l = d - 1 ∧ 1 < d)) (ls.map fun (n : Nat) => (n : ℤ))
      ((sizesOf axes bs).map fun (n : Nat) => (n : ℤ))).any id = false := by
  induction h with
  | nil => intro _ _; rfl
  | @cons ax axes i idx b bs l ls hch _ ih =>
    intro hcell hone
    cases hcell with
    | cons hi hcell =>
      simp only [sizesOf, List.map_cons, List.zipWith_cons_cons, List.any_cons, Bool.or_eq_false_iff, id_eq,
        decide_eq_false_iff_not]
      refine ⟨?_, ih hcell fun a ha => hone a (List.mem_cons_of_mem _ ha)⟩
      have h1 := hone ax List.mem_cons_self
      have hsum := single_sum h1
      obtain ⟨c, hc, hl, hi'⟩ := hch
      obtain ⟨hb, _⟩ := List.getElem?_eq_some_iff.mp hc
      have hb0 : b = 0 := by omega
      subst hb0
      simp only [List.take_zero, List.sum_nil, Nat.zero_add] at hi'
      rintro ⟨e1, e2⟩
      omega

theorem getCell_right {axes : List (List Nat)} (hc : Copes axes) {idx : List Nat} (hcell : IsCell axes idx) (d : Data α)
    (load : List Nat) (chunks : List (Option (List α))) (hm : InMemory axes d load chunks) (ti : Nat) (f : Bool)
    (ht : ti + (if f then 0 else 1) < d.tdim) :
    Right axes d load (nodes axes idx) (cellData axes d idx ti f)
      (getCell (chunkInfo axes) chunks load (idx.map fun (n : Nat) => (n : ℤ)) (ti : ℤ) f) := by
  have hlen := isCell_length hcell
  have hz : Bits axes.length (List.replicate axes.length (0 : ℤ)) := mem_corners _ _ (zero_mem_corners _)
  have hin := addC_inside hcell _ hz
  rw [addC_zero axes idx hlen] at hin
  have hmem : idx ∈ nodes axes idx := by
    rw [nodes_eq axes idx hlen, List.mem_map]
    exact ⟨_, zero_mem_corners _, addC_zero axes idx hlen⟩
  obtain ⟨bid, bs, ls, h1, h2, h3, h4⟩ := locate hin
  have hholds := h1.holds bid h2 h3
  unfold getCell
  simp only
  rw [h4]
  simp only
  rcases access_cases load bid (by rw [hm.lenLoad]; exact h2) with ⟨x, load', hx, hx2, ha, hr⟩ | ⟨x, load', hx, hx2, ha, hr⟩
  · rw [ha]
    exact .inr ⟨load', bid, idx, rfl, hmem, hholds, hr⟩
  · rw [ha]
    simp only
    rw [chunkDims_spec h1]
    simp only
    have hsteps := stepsN_ok axes.length f ti d.tdim ht
    rw [List.length_map, hlen, steps_eq]
    split
    · rename_i hcross
      have hs : ∀ ax ∈ axes, 2 ≤ ax.sum := by
        rcases hc.flat with h | h
        · exact h
        · rw [no_cross h1 hcell h] at hcross
          cases hcross
      have := gather_right hcell hs d chunks ti (stepsN axes.length f) load' [] (hm.touch hr) hsteps
      rw [List.nil_append, ← cellData_eq axes d idx hlen] at this
      rcases this with ⟨l2, e1, e2, e3⟩ | ⟨l2, b, n, e1, e2, e3, e4⟩
      · refine .inl ⟨l2, e1, touched_trans hr e2, fun n hn => ?_⟩
        obtain ⟨b, y, hb1, hb2, hb3⟩ := e3 n ((mem_stepsN_nodes axes idx hlen f n).mpr hn)
        obtain ⟨y', hy'⟩ := getElem?_of_length hr.1.symm hb2
        have := hr.2 b y' y hy' hb2
        exact ⟨b, y', hb1, hy', by omega⟩
      · exact .inr ⟨l2, b, n, e1, (mem_stepsN_nodes axes idx hlen f n).mp e2, e3, touched_requested hr e4⟩
    · rename_i hcross
      rw [Bool.not_eq_true] at hcross
      have hread : ∀ s ∈ stepsN axes.length f,
          readAt chunks (bid : ℤ) ((sizesOf axes bs).map fun (n : Nat) => (n : ℤ)) ((ti : ℤ) + (s.1 : ℤ))
            (List.zipWith (· + ·) (ls.map fun (n : Nat) => (n : ℤ)) (List.zipWith (· * ·) s.2
              (((sizesOf axes bs).map fun (n : Nat) => (n : ℤ)).map fun d => if d = 1 then (0 : ℤ) else 1))) =
          some (d.v (ti + s.1) (addC axes idx s.2)) := by
        intro s hs
        obtain ⟨ht', hb⟩ := hsteps s hs
        obtain ⟨ls', e1, e2⟩ := split_corner h1 hcell hc.inner hcross s.2 hb
        have hcast : (ti : ℤ) + (s.1 : ℤ) = ((ti + s.1 : Nat) : ℤ) := by push_cast; rfl
        rw [e2, hcast]
        exact readAt_spec e1 d bid h3 chunks (hm.data bid x hx hx2) _ ht'
      have hM : ((stepsN axes.length f).map fun s => ((s.1 : ℤ), s.2)).mapM (fun s =>
          readAt chunks (bid : ℤ) ((sizesOf axes bs).map fun (n : Nat) => (n : ℤ)) ((ti : ℤ) + s.1)
            (List.zipWith (· + ·) (ls.map fun (n : Nat) => (n : ℤ)) (List.zipWith (· * ·) s.2
              (((sizesOf axes bs).map fun (n : Nat) => (n : ℤ)).map fun d => if d = 1 then (0 : ℤ) else 1)))) =
          some (cellData axes d idx ti f) := by
        rw [List.mapM_map, cellData_eq axes d idx hlen]
        exact mapM_some_of _ _ _ hread
      rw [hM]
      refine .inl ⟨load', rfl, hr, fun n hn => ?_⟩
      refine ⟨bid, x, ?_, hx, hx2⟩
      rw [nodes_eq axes idx hlen, List.mem_map] at hn
      obtain ⟨c, hcm, rfl⟩ := hn
      obtain ⟨ls', e1, _⟩ := split_corner h1 hcell hc.inner hcross c (mem_corners _ _ hcm)
      exact e1.holds bid h2 h3

end Parcels.Chunks
