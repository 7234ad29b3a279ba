import Verif.Model.KernelMerge
import Mathlib.Logic.Function.Basic

/-!
C08: adding kernels.
-/

namespace Parcels.KernelMerge

variable {W V : Type}

theorem append_assoc (a b c : Code W V) : (a.append b).append c = a.append (b.append c) := by
  induction a with
  | done => rfl
  | assign x r f n ih => simp [Code.append, ih]
  | effect r f n ih => simp [Code.append, ih]
  | ret r f => rfl
  | ite r c t e n _ _ ih => simp [Code.append, ih]

/-- C08. Addition of kernels is associative. -/
theorem C08_addition_associative (k1 k2 k3 : Kernel W V) :
    merge (merge k1 k2) k3 = merge k1 (merge k2 k3) := by
  simp [merge, append_assoc, String.append_assoc, Bool.and_assoc]

/-- C08. A bare function on either side of `+` behaves like the kernel made of it. -/
theorem C08_bare_function (k : Kernel W V) (n : String) (a : String × String × String)
    (b : Code W V) (v : List String) :
    add (.kernel k) (.function n a b v) = add (.kernel k) (.kernel (ofFunction n a b v)) ∧
    add (.function n a b v) (.kernel k) = add (.kernel (ofFunction n a b v)) (.kernel k) := ⟨rfl, rfl⟩

/-- The bound names of `e2` have the same values in `e1`. -/
def Sub (e2 e1 : String → Option V) : Prop := ∀ x v, e2 x = some v → e1 x = some v

theorem Sub.update {e2 e1 : String → Option V} (h : Sub e2 e1) (x : String) (v : V) :
    Sub (Function.update e2 x (some v)) (Function.update e1 x (some v)) := by
  intro y u hy
  by_cases e : y = x
  · subst e; simpa using hy
  · simp only [Function.update_of_ne e] at hy ⊢; exact h y u hy

theorem lookups_sub {l1 l2 : List String} {glob e1 e2 : String → Option V} (hs : Sub e2 e1)
    (xs : List String) (hl : ∀ x ∈ xs, (x ∈ l1 ↔ x ∈ l2)) (vs : List V)
    (h : lookups l2 glob e2 xs = .ok vs) : lookups l1 glob e1 xs = .ok vs := by
  induction xs generalizing vs with
  | nil => simpa [lookups] using h
  | cons x xs ih =>
    have hx : ∀ v, lookup l2 glob e2 x = some v → lookup l1 glob e1 x = some v := by
      intro v hv
      unfold lookup at hv ⊢
      by_cases m : x ∈ l2
      · rw [if_pos m] at hv
        rw [if_pos ((hl x (by simp)).mpr m)]
        exact hs x v hv
      · rw [if_neg m] at hv
        rw [if_neg (fun k => m ((hl x (by simp)).mp k))]
        exact hv
    simp only [lookups] at h ⊢
    rcases hv : lookup l2 glob e2 x with _ | v
    · rw [hv] at h; cases h
    · rw [hv] at h
      rw [hx v hv]
      simp only [] at h ⊢
      rcases hr : lookups l2 glob e2 xs with y | us
      · rw [hr] at h; cases h
      · rw [hr] at h
        rw [ih (fun y hy => hl y (by simp [hy])) us hr]
        exact h

/-- Results of two runs that may differ in extra local names only. -/
def FlowSub : Flow W V → Flow W V → Prop
  | .normal w2 e2, .normal w1 e1 => w2 = w1 ∧ Sub e2 e1
  | .ret w2 v2, .ret w1 v1 => w2 = w1 ∧ v2 = v1
  | .raise w2 m2, .raise w1 m1 => w2 = w1 ∧ m2 = m1
  | .nameError .., _ => True
  | _, _ => False

theorem exec_sub {l1 l2 : List String} {glob : String → Option V} (c : Code W V)
    (hl : ∀ x ∈ c.names, (x ∈ l1 ↔ x ∈ l2)) : ∀ (w : W) (e1 e2 : String → Option V), Sub e2 e1 →
    FlowSub (exec l2 glob c w e2) (exec l1 glob c w e1) := by
  induction c with
  | done => intro w e1 e2 h; exact ⟨rfl, h⟩
  | assign x r f n ih =>
    intro w e1 e2 h
    simp only [exec]
    rcases hv : lookups l2 glob e2 r with y | vs
    · simp [FlowSub]
    · rw [lookups_sub h r (fun y hy => hl y (by simp [Code.names, hy])) vs hv]
      simp only []
      rcases f vs w with m | v
      · exact ⟨rfl, rfl⟩
      · exact ih (fun y hy => hl y (by simp [Code.names, hy])) w _ _ (h.update x v)
  | effect r f n ih =>
    intro w e1 e2 h
    simp only [exec]
    rcases hv : lookups l2 glob e2 r with y | vs
    · simp [FlowSub]
    · rw [lookups_sub h r (fun y hy => hl y (by simp [Code.names, hy])) vs hv]
      simp only []
      rcases f vs w with m | w'
      · exact ⟨rfl, rfl⟩
      · exact ih (fun y hy => hl y (by simp [Code.names, hy])) w' _ _ h
  | ret r f =>
    intro w e1 e2 h
    simp only [exec]
    rcases hv : lookups l2 glob e2 r with y | vs
    · simp [FlowSub]
    · rw [lookups_sub h r (fun y hy => hl y (by simp [Code.names, hy])) vs hv]
      simp only []
      rcases f vs w with m | v
      · exact ⟨rfl, rfl⟩
      · exact ⟨rfl, rfl⟩
  | ite r c t e n iht ihe ihn =>
    intro w e1 e2 h
    have hn := ihn (fun y hy => hl y (by simp [Code.names, hy]))
    simp only [exec]
    rcases hv : lookups l2 glob e2 r with y | vs
    · simp [FlowSub]
    · rw [lookups_sub h r (fun y hy => hl y (by simp [Code.names, hy])) vs hv]
      simp only []
      rcases c vs w with m | b
      · exact ⟨rfl, rfl⟩
      · cases b
        · have := ihe (fun y hy => hl y (by simp [Code.names, hy])) w e1 e2 h
          simp only []
          rcases h2 : exec l2 glob e w e2 with ⟨w2, f2⟩ | ⟨w2, v2⟩ | ⟨w2, m2⟩ | ⟨w2, x2⟩ <;>
            rcases h1 : exec l1 glob e w e1 with ⟨w1, f1⟩ | ⟨w1, v1⟩ | ⟨w1, m1⟩ | ⟨w1, x1⟩ <;>
            rw [h1, h2] at this <;> simp only [FlowSub] at this ⊢ <;> try (first | exact this | trivial)
          obtain ⟨rfl, hs⟩ := this
          exact hn w2 _ _ hs
        · have := iht (fun y hy => hl y (by simp [Code.names, hy])) w e1 e2 h
          simp only []
          rcases h2 : exec l2 glob t w e2 with ⟨w2, f2⟩ | ⟨w2, v2⟩ | ⟨w2, m2⟩ | ⟨w2, x2⟩ <;>
            rcases h1 : exec l1 glob t w e1 with ⟨w1, f1⟩ | ⟨w1, v1⟩ | ⟨w1, m1⟩ | ⟨w1, x1⟩ <;>
            rw [h1, h2] at this <;> simp only [FlowSub] at this ⊢ <;> try (first | exact this | trivial)
          obtain ⟨rfl, hs⟩ := this
          exact hn w2 _ _ hs

theorem exec_append {l : List String} {glob : String → Option V} (a b : Code W V) :
    ∀ (w : W) (e : String → Option V), exec l glob (a.append b) w e =
      match exec l glob a w e with
      | .normal w' e' => exec l glob b w' e'
      | other => other := by
  induction a with
  | done => intro w e; rfl
  | assign x r f n ih =>
    intro w e
    simp only [Code.append, exec]
    rcases lookups l glob e r with y | vs
    · rfl
    · simp only []
      rcases f vs w with m | v
      · rfl
      · exact ih _ _
  | effect r f n ih =>
    intro w e
    simp only [Code.append, exec]
    rcases lookups l glob e r with y | vs
    · rfl
    · simp only []
      rcases f vs w with m | v
      · rfl
      · exact ih _ _
  | ret r f =>
    intro w e
    simp only [Code.append, exec]
    rcases lookups l glob e r with y | vs
    · rfl
    · simp only []
      rcases f vs w with m | v <;> rfl
  | ite r c t e n _ _ ih =>
    intro w env
    simp only [Code.append, exec]
    rcases lookups l glob env r with y | vs
    · rfl
    · simp only []
      rcases c vs w with m | bb
      · rfl
      · cases bb <;> simp only []
        · rcases exec l glob e w env with ⟨w2, f2⟩ | ⟨w2, v2⟩ | ⟨w2, m2⟩ | ⟨w2, x2⟩ <;> simp only []
          exact ih _ _
        · rcases exec l glob t w env with ⟨w2, f2⟩ | ⟨w2, v2⟩ | ⟨w2, m2⟩ | ⟨w2, x2⟩ <;> simp only []
          exact ih _ _

/-- The environment keeps what was bound, except names assigned by the body. -/
theorem exec_keeps {l : List String} {glob : String → Option V} (c : Code W V) (x : String)
    (hx : x ∉ c.assigned) : ∀ (w w' : W) (e e' : String → Option V),
    exec l glob c w e = .normal w' e' → e' x = e x := by
  induction c with
  | done => intro w w' e e' h; simp only [exec] at h; cases h; rfl
  | assign y r f n ih =>
    intro w w' e e' h
    simp only [Code.assigned, List.mem_cons, not_or] at hx
    simp only [exec] at h
    rcases hv : lookups l glob e r with z | vs
    · rw [hv] at h; cases h
    · rw [hv] at h; simp only [] at h
      rcases hf : f vs w with m | v
      · rw [hf] at h; cases h
      · rw [hf] at h
        rw [ih hx.2 _ _ _ _ h, Function.update_of_ne hx.1]
  | effect r f n ih =>
    intro w w' e e' h
    simp only [exec] at h
    rcases hv : lookups l glob e r with z | vs
    · rw [hv] at h; cases h
    · rw [hv] at h; simp only [] at h
      rcases hf : f vs w with m | v
      · rw [hf] at h; cases h
      · rw [hf] at h
        exact ih hx _ _ _ _ h
  | ret r f =>
    intro w w' e e' h
    simp only [exec] at h
    rcases hv : lookups l glob e r with z | vs
    · rw [hv] at h; cases h
    · rw [hv] at h; simp only [] at h
      rcases hf : f vs w with m | v <;> rw [hf] at h <;> cases h
  | ite r c t el n iht ihe ihn =>
    intro w w' e e' h
    simp only [Code.assigned, List.mem_append, not_or] at hx
    simp only [exec] at h
    rcases hv : lookups l glob e r with z | vs
    · rw [hv] at h; cases h
    · rw [hv] at h; simp only [] at h
      rcases hf : c vs w with m | b
      · rw [hf] at h; cases h
      · rw [hf] at h
        cases b <;> simp only [] at h
        · rcases h2 : exec l glob el w e with ⟨w2, f2⟩ | ⟨w2, v2⟩ | ⟨w2, m2⟩ | ⟨w2, x2⟩ <;>
            rw [h2] at h <;> simp only [] at h
          · rw [ihn hx.2 _ _ _ _ h, ihe hx.1.2 _ _ _ _ h2]
          · cases h
          · cases h
          · cases h
        · rcases h2 : exec l glob t w e with ⟨w2, f2⟩ | ⟨w2, v2⟩ | ⟨w2, m2⟩ | ⟨w2, x2⟩ <;>
            rw [h2] at h <;> simp only [] at h
          · rw [ihn hx.2 _ _ _ _ h, iht hx.1.1 _ _ _ _ h2]
          · cases h
          · cases h
          · cases h

theorem append_assigned (a b : Code W V) : (∀ x ∈ (a.append b).assigned, x ∈ a.assigned ∨ x ∈ b.assigned) := by
  induction a with
  | done => intro x hx; exact Or.inr hx
  | assign y r f n ih =>
    intro x hx
    simp only [Code.append, Code.assigned, List.mem_cons] at hx ⊢
    rcases hx with h | h
    · exact Or.inl (Or.inl h)
    · rcases ih x h with h | h
      · exact Or.inl (Or.inr h)
      · exact Or.inr h
  | effect r f n ih => exact ih
  | ret r f => intro x hx; simp [Code.append, Code.assigned] at hx
  | ite r c t e n _ _ ih =>
    intro x hx
    simp only [Code.append, Code.assigned, List.mem_append] at hx ⊢
    rcases hx with h | h
    · exact Or.inl (Or.inl h)
    · rcases ih x h with h | h
      · exact Or.inl (Or.inr h)
      · exact Or.inr h

theorem assigned_left (a b : Code W V) : ∀ x ∈ a.assigned, x ∈ (a.append b).assigned := by
  induction a with
  | done => intro x hx; simp [Code.assigned] at hx
  | assign y r f n ih =>
    intro x hx
    simp only [Code.append, Code.assigned, List.mem_cons] at hx ⊢
    exact hx.imp id (ih x)
  | effect r f n ih => exact ih
  | ret r f => intro x hx; simp [Code.assigned] at hx
  | ite r c t e n _ _ ih =>
    intro x hx
    simp only [Code.append, Code.assigned, List.mem_append] at hx ⊢
    exact hx.imp id (ih x)

/-- A body without `return` as its last top-level statement, so that what follows is reachable. -/
def Code.open : Code W V → Bool
  | .done => true
  | .assign _ _ _ n => n.open
  | .effect _ _ n => n.open
  | .ret _ _ => false
  | .ite _ _ _ _ n => n.open

theorem assigned_right (a b : Code W V) (ho : a.open = true) :
    ∀ x ∈ b.assigned, x ∈ (a.append b).assigned := by
  induction a with
  | done => intro x hx; exact hx
  | assign y r f n ih =>
    intro x hx
    simp only [Code.append, Code.assigned, List.mem_cons]
    exact Or.inr (ih ho x hx)
  | effect r f n ih => exact ih ho
  | ret r f => simp [Code.open] at ho
  | ite r c t e n _ _ ih =>
    intro x hx
    simp only [Code.append, Code.assigned, List.mem_append]
    exact Or.inr (ih ho x hx)

/-- Two kernels are compatible: they use the same argument names, neither assigns a name that the
other one takes from the module level, and neither assigns to its arguments. -/
structure Compatible (k1 k2 : Kernel W V) : Prop where
  args : k1.args = k2.args
  capture1 : ∀ x ∈ k1.body.names, x ∉ k1.locals → x ∉ k2.locals
  capture2 : ∀ x ∈ k2.body.names, x ∉ k2.locals → x ∉ k1.locals
  noArg : k1.args.1 ∉ k1.body.assigned ∧ k1.args.2.1 ∉ k1.body.assigned ∧ k1.args.2.2 ∉ k1.body.assigned
  reach : k1.body.open = true

/-- C08. For compatible kernels the sum does on the particle what the first kernel does followed by
what the second does, whenever the first runs to its end without `return` or exception. (The second
kernel, run alone, must not fail with an undefined name.) -/
theorem C08_sum_runs_both_partial (glob : String → Option V) (k1 k2 : Kernel W V)
    (hc : Compatible k1 k2) (p f t : V) (w w1 : W)
    (h1 : call glob k1 p f t w = .value w1 none)
    (hne : ∀ w' x, call glob k2 p f t w1 ≠ .nameError w' x) :
    call glob (merge k1 k2) p f t w = call glob k2 p f t w1 := by
  -- locals of the merged function
  have hloc : ∀ x, x ∈ (merge k1 k2).locals ↔ x ∈ k1.locals ∨ x ∈ k2.locals := by
    intro x
    have ha := hc.args
    simp only [Kernel.locals, merge, List.mem_cons]
    constructor
    · rintro (h | h | h | h)
      · exact Or.inl (Or.inl h)
      · exact Or.inl (Or.inr (Or.inl h))
      · exact Or.inl (Or.inr (Or.inr (Or.inl h)))
      · rcases append_assigned _ _ x h with h | h
        · exact Or.inl (Or.inr (Or.inr (Or.inr h)))
        · exact Or.inr (Or.inr (Or.inr (Or.inr h)))
    · rintro ((h | h | h | h) | (h | h | h | h))
      · exact Or.inl h
      · exact Or.inr (Or.inl h)
      · exact Or.inr (Or.inr (Or.inl h))
      · exact Or.inr (Or.inr (Or.inr (assigned_left _ _ x h)))
      · rw [ha]; exact Or.inl h
      · rw [ha]; exact Or.inr (Or.inl h)
      · rw [ha]; exact Or.inr (Or.inr (Or.inl h))
      · exact Or.inr (Or.inr (Or.inr (assigned_right _ _ hc.reach x h)))
  -- first body
  unfold call at h1
  rcases hx1 : exec k1.locals glob k1.body w (bind3 k1.args p f t) with ⟨w1', e1⟩ | ⟨w', v⟩ | ⟨w', m⟩ | ⟨w', x⟩ <;>
    rw [hx1] at h1 <;> simp only [Result.value.injEq, reduceCtorEq, and_false] at h1
  obtain ⟨rfl, -⟩ := h1
  have hm1 : ∃ e', exec (merge k1 k2).locals glob k1.body w (bind3 k1.args p f t) = .normal w1' e' ∧ Sub e1 e' := by
    have := exec_sub (l1 := (merge k1 k2).locals) (l2 := k1.locals) (glob := glob) k1.body (by
      intro x hx
      rw [hloc]
      constructor
      · rintro (h | h)
        · exact h
        · by_contra hn; exact hc.capture1 x hx hn h
      · exact Or.inl) w (bind3 k1.args p f t) (bind3 k1.args p f t) (fun _ _ h => h)
    rw [hx1] at this
    rcases h' : exec (merge k1 k2).locals glob k1.body w (bind3 k1.args p f t) with ⟨w', e'⟩ | ⟨w', v⟩ | ⟨w', m⟩ | ⟨w', x⟩ <;>
      rw [h'] at this <;> simp only [FlowSub] at this
    exact ⟨e', by rw [this.1], this.2⟩
  obtain ⟨e', hm, hsub⟩ := hm1
  -- the arguments are still bound
  have hbind : Sub (bind3 k2.args p f t) e' := by
    intro x v hv
    rw [← hc.args] at hv
    have hx : x ∉ k1.body.assigned := by
      obtain ⟨n1, n2, n3⟩ := hc.noArg
      intro hmem
      have : bind3 k1.args p f t x = none := by
        have q1 : x ≠ k1.args.1 := fun e => n1 (e ▸ hmem)
        have q2 : x ≠ k1.args.2.1 := fun e => n2 (e ▸ hmem)
        have q3 : x ≠ k1.args.2.2 := fun e => n3 (e ▸ hmem)
        simp [bind3, Function.update_of_ne, q1, q2, q3]
      rw [this] at hv; cases hv
    rw [exec_keeps k1.body x hx _ _ _ _ hm]
    exact hv
  have hx2 := exec_sub (l1 := (merge k1 k2).locals) (l2 := k2.locals) (glob := glob) k2.body (by
      intro x hx
      rw [hloc]
      constructor
      · rintro (h | h)
        · by_contra hn; exact hc.capture2 x hx hn h
        · exact h
      · exact Or.inr) w1' e' (bind3 k2.args p f t) hbind
  have hmm : exec (merge k1 k2).locals glob (merge k1 k2).body w (bind3 (merge k1 k2).args p f t) =
      exec (merge k1 k2).locals glob k2.body w1' e' := by
    show exec (merge k1 k2).locals glob (k1.body.append k2.body) w (bind3 k1.args p f t) = _
    rw [exec_append, hm]
  unfold call at hne ⊢
  rw [hmm]
  rcases h2 : exec k2.locals glob k2.body w1' (bind3 k2.args p f t) with ⟨w2, f2⟩ | ⟨w2, v2⟩ | ⟨w2, m2⟩ | ⟨w2, x2⟩
  · rw [h2] at hx2
    rcases h3 : exec (merge k1 k2).locals glob k2.body w1' e' with ⟨w3, f3⟩ | ⟨w3, v3⟩ | ⟨w3, m3⟩ | ⟨w3, x3⟩ <;>
      rw [h3] at hx2 <;> simp only [FlowSub] at hx2
    simp [hx2.1]
  · rw [h2] at hx2
    rcases h3 : exec (merge k1 k2).locals glob k2.body w1' e' with ⟨w3, f3⟩ | ⟨w3, v3⟩ | ⟨w3, m3⟩ | ⟨w3, x3⟩ <;>
      rw [h3] at hx2 <;> simp only [FlowSub] at hx2
    simp [hx2.1, hx2.2]
  · rw [h2] at hx2
    rcases h3 : exec (merge k1 k2).locals glob k2.body w1' e' with ⟨w3, f3⟩ | ⟨w3, v3⟩ | ⟨w3, m3⟩ | ⟨w3, x3⟩ <;>
      rw [h3] at hx2 <;> simp only [FlowSub] at hx2
    simp [hx2.1, hx2.2]
  · exact absurd (by rw [h2]) (hne w2 x2)

/-- C08. If the first kernel fails or returns, the sum does exactly the same and the second kernel's
body is not executed. -/
theorem C08_first_return_ends_sum (glob : String → Option V) (k1 k2 : Kernel W V)
    (hc : Compatible k1 k2) (p f t : V) (w : W) :
    (∀ w1 v, call glob k1 p f t w = .value w1 (some v) →
      call glob (merge k1 k2) p f t w = .value w1 (some v)) ∧
    (∀ w1 m, call glob k1 p f t w = .raise w1 m →
      call glob (merge k1 k2) p f t w = .raise w1 m) := by
  have hloc : ∀ x ∈ k1.body.names, (x ∈ (merge k1 k2).locals ↔ x ∈ k1.locals) := by
    intro x hx
    have ha := hc.args
    constructor
    · intro h
      by_contra hn
      have h2 := hc.capture1 x hx hn
      simp only [Kernel.locals, merge, List.mem_cons, not_or] at h hn h2
      rcases h with h | h | h | h
      · exact hn.1 h
      · exact hn.2.1 h
      · exact hn.2.2.1 h
      · rcases append_assigned _ _ x h with h | h
        · exact hn.2.2.2 h
        · exact h2.2.2.2 h
    · intro h
      simp only [Kernel.locals, merge, List.mem_cons] at h ⊢
      rcases h with h | h | h | h
      · exact Or.inl h
      · exact Or.inr (Or.inl h)
      · exact Or.inr (Or.inr (Or.inl h))
      · exact Or.inr (Or.inr (Or.inr (assigned_left _ _ x h)))
  have hs := exec_sub (l1 := (merge k1 k2).locals) (l2 := k1.locals) (glob := glob) k1.body hloc w
    (bind3 k1.args p f t) (bind3 k1.args p f t) (fun _ _ h => h)
  have hmm : exec (merge k1 k2).locals glob (merge k1 k2).body w (bind3 (merge k1 k2).args p f t) =
      match exec (merge k1 k2).locals glob k1.body w (bind3 k1.args p f t) with
      | .normal w' e' => exec (merge k1 k2).locals glob k2.body w' e'
      | other => other := exec_append _ _ _ _
  constructor
  · intro w1 v h
    unfold call at h ⊢
    rw [hmm]
    rcases h2 : exec k1.locals glob k1.body w (bind3 k1.args p f t) with ⟨w2, f2⟩ | ⟨w2, v2⟩ | ⟨w2, m2⟩ | ⟨w2, x2⟩ <;>
      rw [h2] at h hs <;> simp only [Result.value.injEq, reduceCtorEq, and_false, Option.some.injEq] at h
    rcases h3 : exec (merge k1 k2).locals glob k1.body w (bind3 k1.args p f t) with ⟨w3, f3⟩ | ⟨w3, v3⟩ | ⟨w3, m3⟩ | ⟨w3, x3⟩ <;>
      rw [h3] at hs <;> simp only [FlowSub] at hs
    simp [← hs.1, ← hs.2, h.1, h.2]
  · intro w1 m h
    unfold call at h ⊢
    rw [hmm]
    rcases h2 : exec k1.locals glob k1.body w (bind3 k1.args p f t) with ⟨w2, f2⟩ | ⟨w2, v2⟩ | ⟨w2, m2⟩ | ⟨w2, x2⟩ <;>
      rw [h2] at h hs <;> simp only [Result.raise.injEq, reduceCtorEq] at h
    rcases h3 : exec (merge k1 k2).locals glob k1.body w (bind3 k1.args p f t) with ⟨w3, f3⟩ | ⟨w3, v3⟩ | ⟨w3, m3⟩ | ⟨w3, x3⟩ <;>
      rw [h3] at hs <;> simp only [FlowSub] at hs
    simp [← hs.1, ← hs.2, h.1, h.2]

/-! ### Where the full property fails -/

/-- `def Move(particle, fieldset, time): particle.lon += 1` (the world is the longitude). -/
def move : Kernel Int Int :=
  { funcname := "Move", args := ("particle", "fieldset", "time"),
    body := .effect ["particle"] (fun _ w => .ok (w + 1)) .done,
    funcvars := [], cInclude := "", deleteCfiles := true }

/-- `def Stay(particle, fieldset, time): if particle.lon < 10: return` -/
def early : Kernel Int Int :=
  { funcname := "Early", args := ("particle", "fieldset", "time"),
    body := .ite ["particle"] (fun _ w => .ok (decide (w < 10))) (.ret [] fun _ _ => .ok 0) .done .done,
    funcvars := [], cInclude := "", deleteCfiles := true }

/-- `def Move2(p, fieldset, time): p.lon += 1` -/
def move2 : Kernel Int Int :=
  { move with args := ("p", "fieldset", "time"), body := .effect ["p"] (fun _ w => .ok (w + 1)) .done }

/-- C08 fails when the first kernel returns successfully (code 0 = Success): the second is skipped. -/
theorem C08_early_return_skips_second :
    call (fun _ => none) early 0 0 0 (0 : Int) = .value 0 (some 0) ∧
    call (fun _ => none) (merge early move) 0 0 0 (0 : Int) = .value 0 (some 0) ∧
    call (fun _ => none) move 0 0 0 (0 : Int) = .value 1 none := by
  refine ⟨?_, ?_, ?_⟩ <;> simp [call, merge, early, move, Code.append, exec, lookups, lookup,
    Kernel.locals, Code.assigned, bind3, Function.update]

/-- C08 fails when the second kernel names its arguments differently: its names are unbound. -/
theorem C08_argument_names_differ :
    call (fun _ => none) move2 0 0 0 (0 : Int) = .value 1 none ∧
    call (fun _ => none) (merge move move2) 0 0 0 (0 : Int) = .nameError 1 "p" := by
  refine ⟨?_, ?_⟩ <;> simp [call, merge, move2, move, Code.append, exec, lookups, lookup,
    Kernel.locals, Code.assigned, bind3, Function.update]

/-- C08 fails when the first kernel reads a module-level name that the second assigns: the name
becomes local to the merged function. -/
theorem C08_shared_names :
    let k1 : Kernel Int Int := { move with body := .effect ["step"] (fun vs w => .ok (w + vs.sum)) .done }
    let k2 : Kernel Int Int := { move with body := .assign "step" [] (fun _ _ => .ok 5) .done }
    let glob : String → Option Int := fun x => if x = "step" then some 1 else none
    call glob k1 0 0 0 (0 : Int) = .value 1 none ∧
    call glob (merge k1 k2) 0 0 0 (0 : Int) = .nameError 0 "step" := by
  refine ⟨?_, ?_⟩ <;> simp [call, merge, move, Code.append, exec, lookups, lookup,
    Kernel.locals, Code.assigned, bind3, Function.update]

/-- `d = 2 * particle.lon; particle.lon += d` -/
def triple : Kernel Int Int :=
  { move with
    body := .assign "d" ["particle"] (fun _ w => .ok (2 * w)) (.effect ["d"] (fun vs w => .ok (w + vs.sum)) .done) }

/-- The hypotheses of the positive theorem are met by ordinary kernels: `move` added to a kernel with
a local variable. -/
example : Compatible move triple ∧ call (fun _ => none) move 0 0 0 (3 : Int) = .value 4 none ∧
    call (fun _ => none) (merge move triple) 0 0 0 (3 : Int) = .value 12 none := by
  refine ⟨⟨rfl, ?_, ?_, ?_, rfl⟩, ?_, ?_⟩ <;> simp [call, merge, move, triple, Code.append, exec, lookups,
    lookup, Kernel.locals, Code.assigned, Code.names, bind3, Function.update]

end Parcels.KernelMerge
