import Verif.Spec.JitData

/-!
Helper lemmas for C107.
-/

namespace Parcels.JitData

variable {α : Type}

theorem lin_lt : ∀ {shape idx : List ℕ}, InBounds idx shape → lin shape idx < shape.prod := by
  intro shape idx h
  induction h with
  | nil => simp [lin]
  | @cons i d is ds hi _ ih =>
    rw [lin, List.prod_cons]
    calc i * ds.prod + lin ds is < i * ds.prod + ds.prod := by omega
      _ = (i + 1) * ds.prod := (Nat.succ_mul _ _).symm
      _ ≤ d * ds.prod := Nat.mul_le_mul_right _ hi

theorem unravel_lin : ∀ {shape idx : List ℕ}, InBounds idx shape → unravel shape (lin shape idx) = idx := by
  intro shape idx h
  induction h with
  | nil => rfl
  | @cons i d is ds hi hs ih =>
    have hl := lin_lt hs
    rw [lin, unravel]
    congr 1
    · rw [Nat.add_comm, Nat.add_mul_div_right _ _ (by omega), Nat.div_eq_of_lt hl, Nat.zero_add]
    · rw [Nat.add_comm, Nat.add_mul_mod_self_right, Nat.mod_eq_of_lt hl, ih]

theorem addr_cStrides : ∀ (shape idx : List ℕ), idx.length = shape.length → addr (cStrides shape) idx = lin shape idx := by
  intro shape
  induction shape with
  | nil => intro idx h; simp [cStrides, addr, lin]
  | cons d ds ih =>
    intro idx h
    match idx with
    | i :: is =>
      rw [cStrides, addr, lin, ih is (by simpa using h)]
      push_cast
      rfl

theorem addr_inOrder : ∀ {shape idx : List ℕ} {strides : List ℤ}, inOrder shape strides = true → InBounds idx shape →
    addr strides idx = lin shape idx := by
  intro shape
  induction shape with
  | nil =>
    intro idx strides h hb
    cases hb
    cases strides <;> simp [addr, lin]
  | cons d ds ih =>
    intro idx strides h hb
    match strides, h with
    | s :: ss, h =>
      cases hb with
      | @cons i _ is _ hi hs =>
        rw [inOrder, Bool.and_eq_true, Bool.or_eq_true, beq_iff_eq, beq_iff_eq] at h
        rw [addr, lin, ih h.2 hs]
        rcases h.1 with e | e
        · obtain rfl : i = 0 := by omega
          simp
        · rw [e]; push_cast; rfl

theorem no_zero {shape idx : List ℕ} (h : InBounds idx shape) : shape.any (· == 0) = false := by
  induction h with
  | nil => rfl
  | @cons i d is ds hi _ ih =>
    rw [List.any_cons, ih, Bool.or_false, beq_eq_false_iff_ne]
    omega

theorem get_copy (a : Arr α) {idx : List ℕ} (h : InBounds idx a.shape) : a.copy.mem (a.copy.offset + lin a.shape idx) = a.get idx := by
  simp only [Arr.copy, Int.zero_add, Int.toNat_natCast]
  rw [unravel_lin h]

theorem copy_get (a : Arr α) {idx : List ℕ} (h : InBounds idx a.shape) : a.copy.get idx = a.get idx := by
  rw [← get_copy a h]
  unfold Arr.get
  have : addr a.copy.strides idx = lin a.shape idx := addr_cStrides a.shape idx (List.Forall₂.length_eq h)
  rw [this]

theorem contiguous_read {a : Arr α} (hc : a.contiguous = true) {idx : List ℕ} (h : InBounds idx a.shape) :
    a.mem (a.offset + lin a.shape idx) = a.get idx := by
  unfold Arr.contiguous at hc
  rw [no_zero h, Bool.false_or] at hc
  unfold Arr.get
  rw [addr_inOrder hc h]

theorem tidy_shape (a : Arr α) : a.tidy.shape = a.shape ∧ a.tidy.dtype = a.dtype := by
  unfold Arr.tidy
  split <;> exact ⟨rfl, rfl⟩

theorem tidy_read (a : Arr α) {idx : List ℕ} (h : InBounds idx a.shape) : a.tidy.mem (a.tidy.offset + lin a.shape idx) = a.get idx := by
  unfold Arr.tidy
  split
  · exact contiguous_read ‹_› h
  · exact get_copy a h

theorem tidy_get (a : Arr α) {idx : List ℕ} (h : InBounds idx a.shape) : a.tidy.get idx = a.get idx := by
  unfold Arr.tidy
  split
  · rfl
  · exact copy_get a h

theorem coord_read (a : Arr α) (t : DType) (ht : a.dtype = t) {idx : List ℕ} (h : InBounds idx a.shape) : cCoord a.tidy t idx = some (a.get idx) := by
  unfold cCoord Arr.read
  rw [(tidy_shape a).2, if_pos ht, (tidy_shape a).1, tidy_read a h]

/-- The first dimension does not matter in C. -/
theorem lin_first (d d' : ℕ) (ds idx : List ℕ) : lin (d :: ds) idx = lin (d' :: ds) idx := by
  cases idx <;> rfl

theorem sizes_info (d : ℕ) (ds : List ℕ) : sizes (infoOf (d :: ds)) = ds := by
  simp [sizes, infoOf]

/-! ### Histories -/

/-- What always holds. -/
structure Inv (w0 w : World α) : Prop where
  grid : ∀ i, (w.fields i).grid = (w0.fields i).grid
  shape : ∀ i, (w.fields i).data.shape = (w0.fields i).data.shape
  dtype : ∀ i, (w.fields i).data.dtype = .f32
  set_ : ∀ i, (w.fields i).chunkSet = true → (w.grids (w.fields i).grid).info = infoOf (w0.fields i).data.shape ∧ (w.grids (w.fields i).grid).load.length = 1
  coords : ∀ g, (w.grids g).lon.dtype = .f32 ∧ (w.grids g).lat.dtype = .f32 ∧ (w.grids g).depth.dtype = .f32
  time : ∀ g, (w.grids g).time = (w0.grids g).time

theorem setup_inv {w0 w : World α} (h0 : Fresh w0) (h : Inv w0 w) (i : ℕ) : Inv w0 (setup w i) := by
  have hf : ∀ j, ((setup w i).fields j).grid = (w.fields j).grid ∧ ((setup w i).fields j).data = (w.fields j).data := by
    intro j
    simp only [setup, Function.update_apply]
    split
    · subst_vars; exact ⟨rfl, rfl⟩
    · exact ⟨rfl, rfl⟩
  have hg : ∀ g, ((setup w i).grids g).lon = (w.grids g).lon ∧ ((setup w i).grids g).lat = (w.grids g).lat ∧
      ((setup w i).grids g).depth = (w.grids g).depth ∧ ((setup w i).grids g).time = (w.grids g).time := by
    intro g
    simp only [setup, Function.update_apply]
    split
    · subst_vars; exact ⟨rfl, rfl, rfl, rfl⟩
    · exact ⟨rfl, rfl, rfl, rfl⟩
  refine ⟨fun j => by rw [(hf j).1, h.grid], fun j => by rw [(hf j).2, h.shape], fun j => by rw [(hf j).2, h.dtype], ?_,
    fun g => by rw [(hg g).1, (hg g).2.1, (hg g).2.2.1]; exact h.coords g, fun g => by rw [(hg g).2.2.2, h.time]⟩
  intro j hj
  rw [(hf j).1]
  by_cases e : (w.fields j).grid = (w.fields i).grid
  · have hs : (w0.fields j).data.shape = (w0.fields i).data.shape := h0.same j i (by rw [← h.grid, ← h.grid, e])
    simp only [setup, Function.update_apply, e, if_true]
    rw [hs, h.shape]
    exact ⟨rfl, rfl⟩
  · have hne : j ≠ i := by rintro rfl; exact e rfl
    simp only [setup, Function.update_apply, e, if_false] at hj ⊢
    rw [if_neg hne] at hj
    exact h.set_ j hj

theorem ready_inv {w0 w : World α} (h0 : Fresh w0) (h : Inv w0 w) (i : ℕ) : Inv w0 (if (w.fields i).chunkSet then w else setup w i) := by
  split
  · exact h
  · exact setup_inv h0 h i

theorem ready_set (w : World α) (i : ℕ) : ((if (w.fields i).chunkSet then w else setup w i).fields i).chunkSet = true := by
  split
  · assumption
  · simp [setup]

theorem chunkData_inv {array : Arr α → Arr α} {w0 w : World α} (h0 : Fresh w0) (h : Inv w0 w) (i : ℕ) : Inv w0 (chunkData array w i) := by
  unfold chunkData
  have h1 := ready_inv h0 h i
  generalize (if (w.fields i).chunkSet then w else setup w i) = w1 at h1
  dsimp only
  have hf : ∀ j, (Function.update w1.fields i { w1.fields i with chunk := some (array (w1.fields i).data) } j).grid = (w1.fields j).grid ∧
      (Function.update w1.fields i { w1.fields i with chunk := some (array (w1.fields i).data) } j).data = (w1.fields j).data ∧
      (Function.update w1.fields i { w1.fields i with chunk := some (array (w1.fields i).data) } j).chunkSet = (w1.fields j).chunkSet := by
    intro j
    simp only [Function.update_apply]
    split
    · subst_vars; exact ⟨rfl, rfl, rfl⟩
    · exact ⟨rfl, rfl, rfl⟩
  refine ⟨fun j => by rw [(hf j).1, h1.grid], fun j => by rw [(hf j).2.1, h1.shape], fun j => by rw [(hf j).2.1, h1.dtype], ?_, ?_, ?_⟩
  · intro j hj
    rw [(hf j).2.2] at hj
    rw [(hf j).1]
    have := h1.set_ j hj
    simp only [Function.update_apply]
    split
    · rename_i e
      rw [e] at this
      exact ⟨this.1, by simpa using this.2⟩
    · exact this
  · intro g
    simp only [Function.update_apply]
    split
    · subst_vars; exact h1.coords _
    · exact h1.coords g
  · intro g
    simp only [Function.update_apply]
    split
    · subst_vars; exact h1.time _
    · exact h1.time g

theorem fields_inv {w0 w : World α} (h : Inv w0 w) (i : ℕ) (f : Fld α) (hg : f.grid = (w.fields i).grid)
    (hs : f.data.shape = (w.fields i).data.shape) (hd : f.data.dtype = .f32) (hc : f.chunkSet = (w.fields i).chunkSet) :
    Inv w0 { w with fields := Function.update w.fields i f } := by
  have hf : ∀ j, (Function.update w.fields i f j).grid = (w.fields j).grid ∧ (Function.update w.fields i f j).data.shape = (w.fields j).data.shape ∧
      (Function.update w.fields i f j).data.dtype = .f32 ∧ (Function.update w.fields i f j).chunkSet = (w.fields j).chunkSet := by
    intro j
    simp only [Function.update_apply]
    split
    · subst_vars; exact ⟨hg, hs, hd, hc⟩
    · exact ⟨rfl, rfl, h.dtype j, rfl⟩
  refine ⟨fun j => (hf j).1.trans (h.grid j), fun j => (hf j).2.1.trans (h.shape j), fun j => (hf j).2.2.1, ?_, h.coords, h.time⟩
  intro j hj
  have hj' : (w.fields j).chunkSet = true := by rw [← (hf j).2.2.2]; exact hj
  have := h.set_ j hj'
  dsimp only
  rw [(hf j).1]
  exact this

theorem grids_inv {w0 w : World α} (h : Inv w0 w) (g : ℕ) (q : Grd α) (hi : q.info = (w.grids g).info) (hl : q.load.length = (w.grids g).load.length)
    (hc : q.lon.dtype = .f32 ∧ q.lat.dtype = .f32 ∧ q.depth.dtype = .f32) (ht : q.time = (w.grids g).time) :
    Inv w0 { w with grids := Function.update w.grids g q } := by
  refine ⟨h.grid, h.shape, h.dtype, ?_, ?_, ?_⟩
  · intro j hj
    have := h.set_ j hj
    simp only [Function.update_apply]
    split
    · rename_i e
      rw [e] at this
      rw [hi, hl]
      exact this
    · exact this
  · intro g'
    simp only [Function.update_apply]
    split
    · exact hc
    · exact h.coords g'
  · intro g'
    simp only [Function.update_apply]
    split
    · subst_vars; rw [ht]; exact h.time _
    · exact h.time g'

theorem eachField_inv {array : Arr α → Arr α} {w0 w : World α} (h0 : Fresh w0) (used : List ℕ) (h : Inv w0 w) (i : ℕ) : Inv w0 (eachField array used w i) := by
  unfold eachField
  split
  · exact chunkData_inv h0 h i
  · exact fields_inv h i _ rfl rfl (h.dtype i) rfl

theorem eachGrid_inv {w0 w : World α} (h : Inv w0 w) (g : ℕ) : Inv w0 (eachGrid w g) := by
  unfold eachGrid
  refine grids_inv h g _ rfl (by simp) ?_ rfl
  dsimp only
  rw [(tidy_shape _).2, (tidy_shape _).2, (tidy_shape _).2]
  exact h.coords g

theorem struct_inv {w0 w : World α} (h : Inv w0 w) (i : ℕ) : Inv w0 (struct w i) := fields_inv h i _ rfl rfl (h.dtype i) rfl

theorem foldl_inv {β : Type} {P : World α → Prop} {g : World α → β → World α} (hg : ∀ w b, P w → P (g w b)) : ∀ (l : List β) (w : World α), P w → P (l.foldl g w)
  | [], _, h => h
  | b :: l, w, h => foldl_inv hg l _ (hg w b h)

theorem prepare_inv {array : Arr α → Arr α} {w0 w : World α} (h0 : Fresh w0) (h : Inv w0 w) (members gset used : List ℕ) :
    Inv w0 (prepare array members gset used w) :=
  foldl_inv (P := Inv w0) (fun _ b h => struct_inv h b) _ _
    (foldl_inv (P := Inv w0) (fun _ b h => eachGrid_inv h b) _ _ (foldl_inv (P := Inv w0) (fun _ b h => eachField_inv h0 used h b) _ _ h))

theorem fresh_inv {w0 : World α} (h0 : Fresh w0) : Inv w0 w0 :=
  ⟨fun _ => rfl, fun _ => rfl, fun i => (h0.data i).1, fun i hi => (by rw [(h0.data i).2.2] at hi; cases hi), h0.coords, fun _ => rfl⟩

theorem reach_inv {array : Arr α → Arr α} {w0 w : World α} (h0 : Fresh w0) (h : Reach array w0 w) : Inv w0 w := by
  induction h with
  | start => exact fresh_inv h0
  | @next w op _ ha ih =>
    cases op with
    | setData i a => exact fields_inv ih i _ rfl ha.1 ha.2 rfl
    | setCoords g lon lat depth => exact grids_inv ih g _ rfl rfl ha rfl
    | setup i => exact ready_inv h0 ih i
    | call m g u => exact prepare_inv h0 ih m g u

/-! ### One call -/

/-- The data of the fields stay. -/
theorem keep_data {array : Arr α → Arr α} (used : List ℕ) (w : World α) (i j : ℕ) : ((eachField array used w i).fields j).data = (w.fields j).data := by
  unfold eachField chunkData
  split
  · dsimp only
    simp only [Function.update_apply]
    split
    · subst_vars
      split
      · rfl
      · simp [setup]
    · split
      · rfl
      · simp only [setup, Function.update_apply]
        rw [if_neg ‹_›]
  · simp only [Function.update_apply]
    split
    · subst_vars; rfl
    · rfl

theorem keep_grid {array : Arr α → Arr α} (used : List ℕ) (w : World α) (i j : ℕ) : ((eachField array used w i).fields j).grid = (w.fields j).grid := by
  unfold eachField chunkData
  split
  · dsimp only
    simp only [Function.update_apply]
    split
    · subst_vars
      split
      · rfl
      · simp [setup]
    · split
      · rfl
      · simp only [setup, Function.update_apply]
        rw [if_neg ‹_›]
  · simp only [Function.update_apply]
    split
    · subst_vars; rfl
    · rfl

/-- Field `i` is ready for the call. -/
structure Loaded (array : Arr α → Arr α) (w : World α) (i : ℕ) : Prop where
  chunk : (w.fields i).chunk = some (array (w.fields i).data)
  load : (w.grids (w.fields i).grid).load = [2]
  set_ : (w.fields i).chunkSet = true

theorem loaded_self {array : Arr α → Arr α} {w0 w : World α} (h0 : Fresh w0) (h : Inv w0 w) {used : List ℕ} {i : ℕ} (hi : i ∈ used) :
    Loaded array (eachField array used w i) i := by
  unfold eachField chunkData
  rw [if_pos hi]
  have h1 := ready_inv h0 h i
  have h2 := ready_set w i
  generalize (if (w.fields i).chunkSet then w else setup w i) = w1 at h1 h2
  obtain ⟨-, hl⟩ := h1.set_ i h2
  refine ⟨by simp, ?_, by simpa using h2⟩
  simp only [Function.update_self]
  match hq : (w1.grids (w1.fields i).grid).load, hl with
  | [x], _ => rfl

theorem loaded_other {array : Arr α → Arr α} {w0 w : World α} (h0 : Fresh w0) (h : Inv w0 w) {used : List ℕ} {i j : ℕ} (hij : j ≠ i)
    (hl : Loaded array w j) : Loaded array (eachField array used w i) j := by
  have hd := keep_data (array := array) used w i j
  have hg := keep_grid (array := array) used w i j
  have hc : ((eachField array used w i).fields j) = w.fields j := by
    unfold eachField chunkData
    split
    · simp only [Function.update_apply, if_neg hij]
      split
      · rfl
      · simp only [setup, Function.update_apply, if_neg hij]
    · simp only [Function.update_apply, if_neg hij]
  refine ⟨by rw [hc]; exact hl.chunk, ?_, by rw [hc]; exact hl.set_⟩
  rw [hc]
  by_cases hi : i ∈ used
  · by_cases e : (w.fields j).grid = (w.fields i).grid
    · have h3 := loaded_self (array := array) h0 h hi
      have h4 := h3.load
      rw [keep_grid, ← e] at h4
      exact h4
    · unfold eachField chunkData
      rw [if_pos hi]
      dsimp only
      have h5 : (if (w.fields i).chunkSet then w else setup w i).fields i = (if (w.fields i).chunkSet then w else setup w i).fields i := rfl
      have hgi : ((if (w.fields i).chunkSet then w else setup w i).fields i).grid = (w.fields i).grid := by
        split
        · rfl
        · simp [setup]
      rw [hgi, Function.update_of_ne e]
      split
      · exact hl.load
      · simp only [setup]
        rw [Function.update_of_ne e]
        exact hl.load
  · unfold eachField
    rw [if_neg hi]
    exact hl.load

theorem fields_loaded {array : Arr α → Arr α} {w0 : World α} (h0 : Fresh w0) {used : List ℕ} {i : ℕ} (hi : i ∈ used) :
    ∀ (members : List ℕ) (w : World α), Inv w0 w → (i ∈ members ∨ Loaded array w i) → Loaded array (members.foldl (eachField array used) w) i
  | [], _, _, h => by rcases h with h | h; cases h; exact h
  | j :: l, w, hinv, h => by
    refine fields_loaded h0 hi l _ (eachField_inv h0 used hinv j) ?_
    by_cases e : i = j
    · subst e
      exact Or.inr (loaded_self h0 hinv hi)
    · rcases h with h | h
      · rcases List.mem_cons.mp h with h | h
        · exact absurd h e
        · exact Or.inl h
      · exact Or.inr (loaded_other h0 hinv e h)

theorem grids_fields : ∀ (gset : List ℕ) (w : World α), (gset.foldl eachGrid w).fields = w.fields
  | [], _ => rfl
  | g :: l, w => by rw [List.foldl_cons, grids_fields l]; rfl

theorem grids_load : ∀ (gset : List ℕ) (w : World α) (g : ℕ), (w.grids g).load = [2] → ((gset.foldl eachGrid w).grids g).load = [2]
  | [], _, _, h => h
  | g' :: l, w, g, h => by
    rw [List.foldl_cons]
    refine grids_load l _ g ?_
    unfold eachGrid
    simp only [Function.update_apply]
    split
    · subst_vars
      rw [h]; rfl
    · exact h

theorem struct_grids : ∀ (used : List ℕ) (w : World α), (used.foldl struct w).grids = w.grids
  | [], _ => rfl
  | i :: l, w => by rw [List.foldl_cons, struct_grids l]; rfl

/-- The block that C gets: in C order, with the same items. -/
structure Good (a b : Arr α) : Prop where
  shape : b.shape = a.shape
  dtype : b.dtype = a.dtype
  get : ∀ idx, InBounds idx a.shape → b.get idx = a.get idx

theorem Good.tidy {a b : Arr α} (h : Good a b) : Good a b.tidy :=
  ⟨(tidy_shape b).1.trans h.shape, (tidy_shape b).2.trans h.dtype, fun idx hi => by rw [tidy_get b (by rw [h.shape]; exact hi), h.get idx hi]⟩

theorem tidy_contiguous_read (b : Arr α) {idx : List ℕ} (h : InBounds idx b.shape) : b.tidy.mem (b.tidy.offset + lin b.tidy.shape idx) = b.tidy.get idx := by
  rw [(tidy_shape b).1, tidy_read b h, tidy_get b h]

theorem struct_chunk {a : Arr α} {i : ℕ} : ∀ (used : List ℕ) (w : World α), (w.fields i).data = a →
    (∃ b, (w.fields i).chunk = some b ∧ Good a b ∧ (i ∈ used ∨ ∃ c : Arr α, Good a c ∧ b = c.tidy)) →
    ∃ c, ((used.foldl struct w).fields i).chunk = some c.tidy ∧ Good a c ∧ ((used.foldl struct w).fields i).grid = (w.fields i).grid
  | [], w, ha, ⟨b, h1, h2, h3⟩ => by
    rcases h3 with h3 | ⟨c, h3, rfl⟩
    · cases h3
    · exact ⟨c, h1, h3, rfl⟩
  | j :: l, w, ha, ⟨b, h1, h2, h3⟩ => by
    rw [List.foldl_cons]
    have hg : ((struct w j).fields i).grid = (w.fields i).grid := by
      unfold struct
      simp only [Function.update_apply]
      split
      · subst_vars; rfl
      · rfl
    have hd : ((struct w j).fields i).data = a := by
      unfold struct
      simp only [Function.update_apply]
      split
      · subst_vars; rfl
      · exact ha
    rw [← hg]
    refine struct_chunk l _ hd ?_
    by_cases e : i = j
    · subst e
      refine ⟨b.tidy, by simp [struct, h1], h2.tidy, Or.inr ⟨b, h2, rfl⟩⟩
    · refine ⟨b, ?_, h2, ?_⟩
      · unfold struct
        simp only [Function.update_apply, if_neg e]
        exact h1
      · rcases h3 with h3 | h3
        · rcases List.mem_cons.mp h3 with h3 | h3
          · exact absurd h3 e
          · exact Or.inl h3
        · exact Or.inr h3

/-- What the C code reads of a field. -/
theorem call_field {array : Arr α → Arr α} (hA : IsArray array) {w0 w : World α} (h0 : Fresh w0) (h : Inv w0 w) (members gset used : List ℕ) (i : ℕ)
    (hu : i ∈ used) (hm : i ∈ members) (idx : List ℕ) (hi : InBounds idx (w.fields i).data.shape) :
    cField (prepare array members gset used w) i idx = some ((w.fields i).data.get idx) := by
  have hdat : ∀ (members : List ℕ) (w : World α), ((members.foldl (eachField array used) w).fields i).data = (w.fields i).data := by
    intro members
    induction members with
    | nil => intro w; rfl
    | cons j l ih => intro w; rw [List.foldl_cons, ih, keep_data]
  have hL := fields_loaded h0 hu members w h (Or.inl hm) (array := array)
  have hI := foldl_inv (P := Inv w0) (g := eachField array used) (fun _ b h => eachField_inv h0 used h b) members w h
  have hd1 := hdat members w
  have hP := prepare_inv (array := array) h0 h members gset used
  unfold prepare at hP ⊢
  generalize members.foldl (eachField array used) w = w1 at *
  have hgf := grids_fields gset w1
  have hgl := grids_load gset w1 _ hL.load
  have hset : (w1.fields i).chunkSet = true := hL.set_
  have hinfo := (hI.set_ i hset).1
  generalize hw2 : gset.foldl eachGrid w1 = w2 at *
  have hinv2 : Inv w0 w2 := by rw [← hw2]; exact foldl_inv (P := Inv w0) (fun _ b h => eachGrid_inv h b) _ _ hI
  have hgood : Good (w.fields i).data (array (w1.fields i).data) := by
    rw [hd1]
    obtain ⟨a1, a2, a3⟩ := hA (w.fields i).data
    exact ⟨a1, a2, a3⟩
  obtain ⟨c, k1, k2, k3⟩ := struct_chunk (a := (w.fields i).data) (i := i) used w2 (by rw [hgf, hd1])
    ⟨_, by rw [hgf]; exact hL.chunk, hgood, Or.inl hu⟩
  have hset2 : (w2.fields i).chunkSet = true := by rw [hgf]; exact hset
  have hinfo2 := (hinv2.set_ i hset2).1
  unfold cField
  dsimp only
  rw [struct_grids, k3, k1, hgf, hgl]
  rw [hgf] at hinfo2
  simp only [le_refl, if_true]
  unfold Arr.read
  rw [(tidy_shape c).2, k2.dtype, h.dtype i, if_pos rfl, hinfo2, ← h.shape i]
  obtain ⟨d, ds, hds⟩ := List.exists_cons_of_ne_nil (show (w.fields i).data.shape ≠ [] by rw [h.shape]; exact (h0.data i).2.1)
  have hcs : c.shape = d :: ds := by rw [k2.shape, hds]
  rw [hds, sizes_info, lin_first 0 d, ← hcs, tidy_read c (by rw [k2.shape]; exact hi), k2.get idx hi]
  simp

theorem eachField_coords {array : Arr α → Arr α} (used : List ℕ) (w : World α) (i g : ℕ) :
    ((eachField array used w i).grids g).lon = (w.grids g).lon ∧ ((eachField array used w i).grids g).lat = (w.grids g).lat ∧
    ((eachField array used w i).grids g).depth = (w.grids g).depth := by
  have hs : ∀ g, ((if (w.fields i).chunkSet then w else setup w i).grids g).lon = (w.grids g).lon ∧
      ((if (w.fields i).chunkSet then w else setup w i).grids g).lat = (w.grids g).lat ∧
      ((if (w.fields i).chunkSet then w else setup w i).grids g).depth = (w.grids g).depth := by
    intro g
    split
    · exact ⟨rfl, rfl, rfl⟩
    · simp only [setup, Function.update_apply]
      split
      · rename_i e; rw [e]; exact ⟨rfl, rfl, rfl⟩
      · exact ⟨rfl, rfl, rfl⟩
  unfold eachField chunkData
  split
  · dsimp only
    generalize (if (w.fields i).chunkSet then w else setup w i) = w1 at hs
    simp only [Function.update_apply]
    split
    · rename_i e; rw [e]; exact hs _
    · exact hs g
  · exact ⟨rfl, rfl, rfl⟩

theorem tidy_tidy (a : Arr α) (idx : List ℕ) (t : DType) (ht : a.dtype = t) (h : InBounds idx a.shape) : cCoord a.tidy.tidy t idx = cCoord a.tidy t idx := by
  rw [coord_read a.tidy t (by rw [(tidy_shape a).2, ht]) (by rw [(tidy_shape a).1]; exact h), coord_read a t ht h, tidy_get a h]

/-- Coordinates after the loop over the grids: tidied at least once. -/
theorem grids_coord (sel : Grd α → Arr α) (hsel : ∀ (w : World α) (g : ℕ), sel ((eachGrid w g).grids g) = (sel (w.grids g)).tidy) {g : ℕ} {idx : List ℕ} {t : DType} {a : Arr α}
    (ht : a.dtype = t) (hi : InBounds idx a.shape) : ∀ (gset : List ℕ) (w : World α),
    ((sel (w.grids g) = a ∧ g ∈ gset) ∨ ∃ c : Arr α, Good a c ∧ sel (w.grids g) = c.tidy) →
    cCoord (sel ((gset.foldl eachGrid w).grids g)) t idx = some (a.get idx)
  | [], w, h => by
    rcases h with ⟨-, h⟩ | ⟨c, h1, h2⟩
    · cases h
    · rw [List.foldl_nil, h2, coord_read c t (by rw [h1.dtype, ht]) (by rw [h1.shape]; exact hi), h1.get idx hi]
  | g' :: l, w, h => by
    rw [List.foldl_cons]
    refine grids_coord sel hsel ht hi l _ ?_
    by_cases e : g = g'
    · subst e
      right
      rw [hsel]
      rcases h with ⟨h, -⟩ | ⟨c, h1, h2⟩
      · rw [h]
        exact ⟨a, ⟨rfl, rfl, fun _ _ => rfl⟩, rfl⟩
      · rw [h2]
        exact ⟨c.tidy, h1.tidy, rfl⟩
    · have hk : (eachGrid w g').grids g = w.grids g := by
        unfold eachGrid
        simp only [Function.update_apply, if_neg e]
      rw [hk]
      rcases h with ⟨h, hm⟩ | h
      · left
        rcases List.mem_cons.mp hm with hm | hm
        · exact absurd hm e
        · exact ⟨h, hm⟩
      · exact Or.inr h

theorem time_read {q : Grd α} {shift : α → α} {n : ℕ} {s : ℤ} (hd : q.time.dtype = .f64) (hs : q.time.shape = [n]) (hst : q.time.strides = [s]) {k : ℕ} (hk : k < n) :
    cCoord (complete shift q).time .f64 [k] = some ((complete shift q).time.get [k]) := by
  unfold complete
  split
  · rename_i h1
    obtain rfl : n = 1 := by rw [hs] at h1; simpa using h1
    obtain rfl : k = 0 := by omega
    simp [cCoord, Arr.read, hd, hs, lin, Arr.get, hst, addr]
  · simp [cCoord, Arr.read, hd, hs, lin, Arr.get, addr, Arr.copy, cStrides]

end Parcels.JitData
