import Verif.Proofs.Load4

/-!
Helper lemmas for C69: loads that succeed, and arrays given in memory.
-/

namespace Parcels.Load

variable {α : Type}

theorem onlyIf_ok {c : Prop} [Decidable c] (s : List Nat → List Nat) (f : ND α → Option (ND α)) (hf : ∀ a, f a = a.reshape (s a.shape)) (a : ND α)
    (h : c → prod a.shape = prod (s a.shape)) :
    ∃ b, onlyIf c f a = some b ∧ b.shape = if c then s a.shape else a.shape := by
  unfold onlyIf
  by_cases hc : c
  · rw [if_pos hc, if_pos hc, hf]
    unfold ND.reshape
    rw [if_pos (h hc)]
    exact ⟨_, rfl, rfl⟩
  · rw [if_neg hc, if_neg hc]
    exact ⟨_, rfl, rfl⟩

/-- What `fitAxes` makes of a shape. -/
def fit1 (X Y : Nat) (s : List Nat) : List Nat := if X = 1 ∨ Y = 1 then s.filter (· ≠ 1) else s
def fit2 (X : Nat) (s : List Nat) : List Nat := if X = 1 ∧ s.length < 4 then s ++ [1] else s
def fit3 (Y : Nat) (s : List Nat) : List Nat := if Y = 1 ∧ s.length < 4 then s.dropLast ++ [1] ++ s.drop (s.length - 1) else s
def fit4 (T : Nat) (s : List Nat) : List Nat := if T = 1 ∧ s.length < 4 then 1 :: s else s
def fit5 (D : Nat) (s : List Nat) : List Nat := if D = 1 ∧ s.length = 4 then s.headD 0 :: s.drop 2 else s

theorem prod_append (s t : List Nat) : prod (s ++ t) = prod s * prod t := by
  induction s with
  | nil => simp [prod]
  | cons n s ih => simp [prod, ih, Nat.mul_assoc]

theorem prod_filter (s : List Nat) : prod (s.filter (· ≠ 1)) = prod s := by
  induction s with
  | nil => rfl
  | cons n s ih =>
    by_cases c : n = 1
    · subst c
      rw [List.filter_cons_of_neg (by simp), ih, prod, Nat.one_mul]
    · rw [List.filter_cons_of_pos (by simpa using c), prod, prod, ih]

theorem prod_mid (s : List Nat) : prod (s.dropLast ++ [1] ++ s.drop (s.length - 1)) = prod s := by
  rw [prod_append, prod_append]
  simp only [prod, Nat.mul_one]
  rw [← prod_append, List.dropLast_eq_take, List.take_append_drop]

theorem fitAxes_shape (g : Grid) (T : Nat) (a : ND α)
    (h : let s := fit4 T (fit3 g.ydim (fit2 g.xdim (fit1 g.xdim g.ydim a.shape)))
      g.depth.length = 1 ∧ s.length = 4 → s.getD 1 0 = 1) :
    ∃ b, fitAxes g T a = some b ∧
      b.shape = fit5 g.depth.length (fit4 T (fit3 g.ydim (fit2 g.xdim (fit1 g.xdim g.ydim a.shape)))) := by
  unfold fitAxes
  obtain ⟨a1, h1, e1⟩ := onlyIf_ok (c := g.xdim = 1 ∨ g.ydim = 1) (fun s => s.filter (· ≠ 1)) squeeze (fun _ => rfl) a (fun _ => (prod_filter _).symm)
  obtain ⟨a2, h2, e2⟩ := onlyIf_ok (c := g.xdim = 1 ∧ a1.shape.length < 4) (fun s => s ++ [1]) expandLast (fun _ => rfl) a1
    (fun _ => by rw [prod_append]; simp [prod])
  obtain ⟨a3, h3, e3⟩ := onlyIf_ok (c := g.ydim = 1 ∧ a2.shape.length < 4) (fun s => s.dropLast ++ [1] ++ s.drop (s.length - 1)) expandMid
    (fun _ => rfl) a2 (fun _ => (prod_mid _).symm)
  obtain ⟨a4, h4, e4⟩ := onlyIf_ok (c := T = 1 ∧ a3.shape.length < 4) (fun s => 1 :: s) (fun a => a.reshape (1 :: a.shape)) (fun _ => rfl) a3
    (fun _ => by simp [prod])
  have f1 : a1.shape = fit1 g.xdim g.ydim a.shape := e1
  have f2 : a2.shape = fit2 g.xdim (fit1 g.xdim g.ydim a.shape) := by rw [← f1]; exact e2
  have f3 : a3.shape = fit3 g.ydim (fit2 g.xdim (fit1 g.xdim g.ydim a.shape)) := by rw [← f2]; exact e3
  have f4 : a4.shape = fit4 T (fit3 g.ydim (fit2 g.xdim (fit1 g.xdim g.ydim a.shape))) := by rw [← f3]; exact e4
  simp only [] at h
  rw [← f4] at h
  obtain ⟨a5, h5, e5⟩ := onlyIf_ok (c := g.depth.length = 1 ∧ a4.shape.length = 4) (fun s => s.headD 0 :: s.drop 2)
    (fun a => a.reshape (a.shape.headD 0 :: a.shape.drop 2)) (fun _ => rfl) a4 (by
      intro hc
      have := h hc
      generalize a4.shape = s at *
      rcases s with _ | ⟨s0, _ | ⟨s1, s⟩⟩ <;> simp at hc
      simp only [List.getD_cons_succ, List.getD_cons_zero] at this
      subst this
      simp [prod])
  refine ⟨a5, ?_, ?_⟩
  · rw [h1, Option.bind_some, h2, Option.bind_some, h3, Option.bind_some, h4, Option.bind_some, h5]
  · rw [← f4]; exact e5

theorem fitAxes_ok (g : Grid) (T Z : Nat) (pop : Bool) (l : Layout) (a : ND α) (hs : a.shape = l.shape T Z g.ydim g.xdim)
    (hT : l = .yx ∨ l = .zyx → T = 1) (hZ : l.hasDepth = false → Z = 1)
    (hD : Z = g.depth.length ∨ (pop = true ∧ Z + 1 = g.depth.length ∧ 1 ≤ Z)) :
    ∃ b, fitAxes g T a = some b ∧ shapeOk g T pop b.shape = true := by
  have key : (let s := fit4 T (fit3 g.ydim (fit2 g.xdim (fit1 g.xdim g.ydim a.shape)))
      g.depth.length = 1 ∧ s.length = 4 → s.getD 1 0 = 1) ∧
      shapeOk g T pop (fit5 g.depth.length (fit4 T (fit3 g.ydim (fit2 g.xdim (fit1 g.xdim g.ydim a.shape))))) = true := by
    rw [hs]
    unfold shapeOk
    generalize g.ydim = Y
    generalize g.xdim = X
    generalize g.depth.length = D at *
    have hD1 : D = 1 → Z = 1 := by rintro rfl; omega
    replace hD : Z = D ∨ (pop = true ∧ Z + 1 = D) := hD.imp id (fun h => ⟨h.1, h.2.1⟩)
    by_cases cX : X = 1 <;> by_cases cY : Y = 1 <;> by_cases cT : T = 1 <;> by_cases cZ : Z = 1 <;> by_cases cD : D = 1 <;>
      rcases l with _ | _ | _ | _ <;>
      simp_all [fit1, fit2, fit3, fit4, fit5, Layout.shape, Layout.hasDepth]
  obtain ⟨b, h1, h2⟩ := fitAxes_shape g T a key.1
  exact ⟨b, h1, by rw [h2]; exact key.2⟩

theorem flip_layout (l : Layout) (T Z Y X : Nat) (a b : ND α) (hs : a.shape = l.shape T Z Y X) (h : a.flip2 = some b) :
    b.shape = l.shape T Z Y X ∧ ∀ t z y x, b.get (l.index t z y x) = a.get (l.index t z (Y - 1 - y) x) := by
  unfold ND.flip2 at h
  rw [hs] at h
  cases l <;> simp only [Layout.shape, List.reverse_cons, List.reverse_nil, List.nil_append, List.cons_append] at h <;> cases h <;>
    exact ⟨rfl, fun _ _ _ _ => rfl⟩

theorem flip_ok (l : Layout) (T Z Y X : Nat) (a : ND α) (hs : a.shape = l.shape T Z Y X) : ∃ b, a.flip2 = some b := by
  unfold ND.flip2
  rw [hs]
  cases l <;> exact ⟨_, rfl⟩

theorem layout_prod (l : Layout) (T Z Y X : Nat) (hT : l = .yx ∨ l = .zyx → T = 1) (hZ : l.hasDepth = false → Z = 1) :
    prod (l.shape T Z Y X) = prod [T, Z, Y, X] := by
  cases l <;> simp_all [Layout.shape, Layout.hasDepth, prod]

theorem layout_ravel (l : Layout) (T Z Y X t z y x : Nat) (hT : l = .yx ∨ l = .zyx → T = 1) (hZ : l.hasDepth = false → Z = 1)
    (ht : t < T) (hz : z < Z) (hy : y < Y) (hx : x < X) :
    InR (l.shape T Z Y X) (l.index t z y x) ∧ ravel (l.shape T Z Y X) (l.index t z y x) = ravel [T, Z, Y, X] [t, z, y, x] := by
  cases l
  · have e1 := hT (Or.inl rfl)
    have e2 := hZ rfl
    have : t = 0 := by omega
    have : z = 0 := by omega
    subst_vars
    exact ⟨⟨hy, hx, trivial⟩, by simp [Layout.shape, Layout.index, ravel, prod]⟩
  · have e2 := hZ rfl
    have : z = 0 := by omega
    subst_vars
    exact ⟨⟨ht, hy, hx, trivial⟩, by simp [Layout.shape, Layout.index, ravel, prod]⟩
  · have e1 := hT (Or.inr rfl)
    have : t = 0 := by omega
    subst_vars
    exact ⟨⟨hz, hy, hx, trivial⟩, by simp [Layout.shape, Layout.index, ravel, prod]⟩
  · exact ⟨⟨ht, hz, hy, hx, trivial⟩, rfl⟩

/-- `Field.reshape` of an array with documented shape. -/
theorem reshape_documented (g : Grid) (T Z : Nat) (pop : Bool) (l : Layout) (a : ND α) (hs : a.shape = l.shape T Z g.ydim g.xdim)
    (hT : l = .yx ∨ l = .zyx → T = 1) (hZ : l.hasDepth = false → Z = 1)
    (hD : Z = g.depth.length ∨ (pop = true ∧ Z + 1 = g.depth.length ∧ 1 ≤ Z)) :
    ∃ b, fieldReshape g T pop false a = some b ∧ ∀ t z y x, t < T → z < Z → y < g.ydim → x < g.xdim →
      nodeValue b t z y x = a.get (l.index t z (g.rowOf y) x) := by
  have h1 : ∃ a1, onlyIf (g.flipped = true) ND.flip2 a = some a1 ∧ a1.shape = l.shape T Z g.ydim g.xdim ∧
      ∀ t z y x, a1.get (l.index t z y x) = a.get (l.index t z (g.rowOf y) x) := by
    unfold onlyIf Grid.rowOf
    by_cases hf : g.flipped = true
    · rw [if_pos hf]
      obtain ⟨b, hb⟩ := flip_ok l T Z g.ydim g.xdim a hs
      obtain ⟨c1, c2⟩ := flip_layout l T Z g.ydim g.xdim a b hs hb
      exact ⟨b, hb, c1, fun t z y x => by rw [c2]; simp only [if_pos hf]⟩
    · rw [if_neg hf]
      exact ⟨a, rfl, hs, fun t z y x => by simp only [if_neg hf]⟩
  obtain ⟨a1, e1, e2, e3⟩ := h1
  obtain ⟨b, f1, f2⟩ := fitAxes_ok g T Z pop l a1 e2 hT hZ hD
  refine ⟨b, ?_, ?_⟩
  · unfold fieldReshape
    simp only [Bool.false_eq_true, if_false]
    rw [e1, Option.bind_some, f1, Option.bind_some, if_pos f2]
  · intro t z y x ht hz hy hx
    rw [nodeValue_flat g T Z pop a1 b (fitAxes_flat g T a1 b f1) (by rw [e2]; exact layout_prod l T Z _ _ hT hZ) f2 t z y x ht hz hy hx]
    obtain ⟨r1, r2⟩ := layout_ravel l T Z g.ydim g.xdim t z y x hT hZ ht hz hy hx
    rw [← e3, get_flat a1 _ (by rw [e2]; exact r1), e2, r2]

theorem fieldReshape_transpose (g : Grid) (T : Nat) (pop tr : Bool) (a : ND α) :
    fieldReshape g T pop tr a = fieldReshape g T pop false (if tr then a.transpose else a) := by
  unfold fieldReshape
  simp

/-- The grid made of vectors, or of matrices. -/
theorem createGrid_nodes (lon lat : ND ℚ) (depth time : List ℚ) (X Y : Nat)
    (hs : (lon.shape = [X] ∧ lat.shape = [Y]) ∨ (lon.shape = [Y, X] ∧ lat.shape = [Y, X])) :
    let g := createGrid lon lat depth time
    g.xdim = X ∧ g.ydim = Y ∧ g.depth = depth ∧ g.time = time ∧
      ∀ y x, y < Y → g.rowOf y < Y ∧
        g.latAt y x = lat.get (if lat.shape.length = 1 then [g.rowOf y] else [g.rowOf y, x]) ∧
        g.lonAt y x = lon.get (if lon.shape.length = 1 then [x] else [g.rowOf y, x]) := by
  intro g
  rcases hs with ⟨a1, a2⟩ | ⟨a1, a2⟩
  · have hc : g.curvilinear = false := by
      unfold g Grid.curvilinear createGrid
      simp only []
      split <;> simp [a1]
    have hx : g.xdim = X := by
      unfold g Grid.xdim createGrid
      simp only []
      split <;> rw [a1] <;> rfl
    have hy : g.ydim = Y := by
      unfold Grid.ydim
      rw [hc]
      simp only [Bool.false_eq_true, if_false]
      unfold g createGrid
      simp only []
      split <;> rw [a2] <;> rfl
    refine ⟨hx, hy, ?_, ?_, fun y x hlt => ⟨?_, ?_, ?_⟩⟩
    · unfold g createGrid; simp only []; split <;> rfl
    · unfold g createGrid; simp only []; split <;> rfl
    · unfold Grid.rowOf; split <;> omega
    · rw [a2]
      unfold Grid.latAt Grid.rowOf
      rw [hc, hy]
      simp only [Bool.false_eq_true, if_false, List.length_cons, List.length_nil, if_true]
      unfold g createGrid
      simp only []
      split
      · rw [a2]; rfl
      · rfl
    · rw [a1]
      unfold Grid.lonAt
      rw [hc]
      simp only [Bool.false_eq_true, if_false, List.length_cons, List.length_nil, if_true]
      unfold g createGrid
      simp only []
      split <;> rfl
  · have he : g = ⟨lon, lat, depth, time, false⟩ := by
      unfold g createGrid
      simp only []
      rw [if_neg]
      rw [a1]; simp
    have hc : g.curvilinear = true := by
      rw [he]; unfold Grid.curvilinear; simp [a1]
    have hrow : ∀ y, g.rowOf y = y := by
      intro y; rw [he]; rfl
    refine ⟨by rw [he]; unfold Grid.xdim; rw [a1]; rfl, by unfold Grid.ydim; rw [hc, he, a1]; rfl, by rw [he], by rw [he],
      fun y x hlt => ⟨by rw [hrow]; exact hlt, ?_, ?_⟩⟩
    · unfold Grid.latAt; rw [hc, hrow, he, a2]; rfl
    · unfold Grid.lonAt; rw [hc, hrow, he, a1]; rfl

end Parcels.Load
