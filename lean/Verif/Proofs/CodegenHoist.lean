import Verif.Proofs.CodegenEval
import Verif.Spec.CodegenStmt

/-!
Taking samples out of expressions: what it keeps (statically), and what it does (when run).
-/

namespace Parcels.Codegen

/-! ### Names -/

theorem belowN_mono {k k' : Nat} (h : k ≤ k') {x : Name} (hx : belowN k x = true) : belowN k' x = true := by
  cases x with
  | user s => rfl
  | tmp i => simp only [belowN, decide_eq_true_eq] at hx ⊢; omega
  | deleted => cases hx

mutual
theorem below_mono {k k' : Nat} (h : k ≤ k') : ∀ e : PE, below k e = true → below k' e = true
  | .int _, _ => rfl
  | .flt _, _ => rfl
  | .var x, hx => belowN_mono h hx
  | .names x xs, hx => by
    simp only [below, Bool.and_eq_true, List.all_eq_true] at hx ⊢
    exact ⟨belowN_mono h hx.1, fun y hy => belowN_mono h (hx.2 y hy)⟩
  | .bin _ l r, hx => by
    simp only [below, Bool.and_eq_true] at hx ⊢
    exact ⟨below_mono h l hx.1, below_mono h r hx.2⟩
  | .pow l r, hx => by
    simp only [below, Bool.and_eq_true] at hx ⊢
    exact ⟨below_mono h l hx.1, below_mono h r hx.2⟩
  | .una _ e, hx => by
    simp only [below] at hx ⊢
    exact below_mono h e hx
  | .cmp _ l r, hx => by
    simp only [below, Bool.and_eq_true] at hx ⊢
    exact ⟨below_mono h l hx.1, below_mono h r hx.2⟩
  | .bool _ f r, hx => by
    simp only [below, Bool.and_eq_true] at hx ⊢
    exact ⟨below_mono h f hx.1, belowL_mono h r hx.2⟩
  | .call _ as, hx => by
    simp only [below] at hx ⊢
    exact belowL_mono h as hx
  | .sample _ _ as, hx => by
    simp only [below] at hx ⊢
    exact belowL_mono h as hx

theorem belowL_mono {k k' : Nat} (h : k ≤ k') : ∀ es : PEs, belowL k es = true → belowL k' es = true
  | .nil, _ => rfl
  | .cons e es, hx => by
    simp only [belowL, Bool.and_eq_true] at hx ⊢
    exact ⟨below_mono h e hx.1, belowL_mono h es hx.2⟩
end

/-- Agreement of states on the variables of `reads`. -/
def Agree (P : Name → Prop) (σ σ' : St) : Prop := ∀ x, P x → σ x = σ' x

theorem sumNames_congr (σ σ' : St) : ∀ (xs : List Name) (x : Name), (∀ y ∈ x :: xs, σ y = σ' y) →
    sumNames σ x xs = sumNames σ' x xs := by
  intro xs x h
  unfold sumNames
  rw [h x List.mem_cons_self]
  have hx : ∀ y ∈ xs, σ y = σ' y := fun y hy => h y (List.mem_cons_of_mem _ hy)
  clear h
  generalize σ' x = a
  induction xs generalizing a with
  | nil => rfl
  | cons y ys ih =>
    simp only [List.foldl_cons]
    rw [hx y List.mem_cons_self]
    exact ih (fun z hz => hx z (List.mem_cons_of_mem _ hz)) _

mutual
/-- Sample-free expressions depend only on the variables they read. -/
theorem pyEval_reads (E : Env) (σ σ' : St) : ∀ e : PE, noSamples e = true → (∀ x, reads x e = true → σ x = σ' x) →
    pyEval E σ e = pyEval E σ' e
  | .int _, _, _ => rfl
  | .flt _, _, _ => rfl
  | .var x, _, h => by
    simp only [pyEval]
    rw [h x (by simp [reads])]
  | .names x xs, _, h => by
    simp only [pyEval]
    rw [sumNames_congr σ σ' xs x fun y hy => h y (by simp only [reads, decide_eq_true_eq]; exact hy)]
  | .bin op l r, hn, h => by
    simp only [noSamples, Bool.and_eq_true] at hn
    simp only [pyEval]
    rw [pyEval_reads E σ σ' l hn.1 fun x hx => h x (by simp [reads, hx]),
      pyEval_reads E σ σ' r hn.2 fun x hx => h x (by simp [reads, hx])]
  | .pow l r, hn, h => by
    simp only [noSamples, Bool.and_eq_true] at hn
    simp only [pyEval]
    rw [pyEval_reads E σ σ' l hn.1 fun x hx => h x (by simp [reads, hx]),
      pyEval_reads E σ σ' r hn.2 fun x hx => h x (by simp [reads, hx])]
  | .una _ e, hn, h => by
    simp only [noSamples] at hn
    simp only [pyEval]
    rw [pyEval_reads E σ σ' e hn fun x hx => h x (by simp [reads, hx])]
  | .cmp _ l r, hn, h => by
    simp only [noSamples, Bool.and_eq_true] at hn
    simp only [pyEval]
    rw [pyEval_reads E σ σ' l hn.1 fun x hx => h x (by simp [reads, hx]),
      pyEval_reads E σ σ' r hn.2 fun x hx => h x (by simp [reads, hx])]
  | .bool i f r, hn, h => by
    simp only [noSamples, Bool.and_eq_true] at hn
    simp only [pyEval]
    rw [pyEval_reads E σ σ' f hn.1 fun x hx => h x (by simp [reads, hx])]
    cases pyEval E σ' f with
    | error x => rfl
    | ok a => exact pyBool_reads E σ σ' r i a hn.2 fun x hx => h x (by simp [reads, hx])
  | .call f as, hn, h => by
    simp only [noSamples] at hn
    simp only [pyEval]
    rw [pyArgs_reads E σ σ' as hn fun x hx => h x (by simp [reads, hx])]
  | .sample _ _ _, hn, _ => by simp [noSamples] at hn

theorem pyBool_reads (E : Env) (σ σ' : St) : ∀ (es : PEs) (i : Bool) (a : ℚ), noSamplesL es = true →
    (∀ x, readsL x es = true → σ x = σ' x) → pyBool E σ i a es = pyBool E σ' i a es
  | .nil, _, _, _, _ => rfl
  | .cons e es, i, a, hn, h => by
    simp only [noSamplesL, Bool.and_eq_true] at hn
    simp only [pyBool]
    rw [pyEval_reads E σ σ' e hn.1 fun x hx => h x (by simp [readsL, hx])]
    split
    · rfl
    · cases pyEval E σ' e with
      | error x => rfl
      | ok b => exact pyBool_reads E σ σ' es i b hn.2 fun x hx => h x (by simp [readsL, hx])

theorem pyArgs_reads (E : Env) (σ σ' : St) : ∀ es : PEs, noSamplesL es = true →
    (∀ x, readsL x es = true → σ x = σ' x) → pyArgs E σ es = pyArgs E σ' es
  | .nil, _, _ => rfl
  | .cons e es, hn, h => by
    simp only [noSamplesL, Bool.and_eq_true] at hn
    simp only [pyArgs]
    rw [pyEval_reads E σ σ' e hn.1 fun x hx => h x (by simp [readsL, hx]),
      pyArgs_reads E σ σ' es hn.2 fun x hx => h x (by simp [readsL, hx])]
end

mutual
/-- An expression depends only on the names in it. -/
theorem pyEval_below (E : Env) (σ σ' : St) (k : Nat) (h : ∀ x, belowN k x = true → σ x = σ' x) :
    ∀ e : PE, below k e = true → pyEval E σ e = pyEval E σ' e
  | .int _, _ => rfl
  | .flt _, _ => rfl
  | .var x, hx => by
    simp only [pyEval]
    rw [h x hx]
  | .names x xs, hx => by
    simp only [below, Bool.and_eq_true, List.all_eq_true] at hx
    simp only [pyEval]
    rw [sumNames_congr σ σ' xs x]
    intro y hy
    rcases List.mem_cons.mp hy with rfl | hy
    · exact h _ hx.1
    · exact h _ (hx.2 y hy)
  | .bin op l r, hx => by
    simp only [below, Bool.and_eq_true] at hx
    simp only [pyEval]
    rw [pyEval_below E σ σ' k h l hx.1, pyEval_below E σ σ' k h r hx.2]
  | .pow l r, hx => by
    simp only [below, Bool.and_eq_true] at hx
    simp only [pyEval]
    rw [pyEval_below E σ σ' k h l hx.1, pyEval_below E σ σ' k h r hx.2]
  | .una _ e, hx => by
    simp only [below] at hx
    simp only [pyEval]
    rw [pyEval_below E σ σ' k h e hx]
  | .cmp _ l r, hx => by
    simp only [below, Bool.and_eq_true] at hx
    simp only [pyEval]
    rw [pyEval_below E σ σ' k h l hx.1, pyEval_below E σ σ' k h r hx.2]
  | .bool i f r, hx => by
    simp only [below, Bool.and_eq_true] at hx
    simp only [pyEval]
    rw [pyEval_below E σ σ' k h f hx.1]
    cases pyEval E σ' f with
    | error x => rfl
    | ok a => exact pyBool_below E σ σ' k h r i a hx.2
  | .call f as, hx => by
    simp only [below] at hx
    simp only [pyEval]
    rw [pyArgs_below E σ σ' k h as hx]
  | .sample _ _ as, hx => by
    simp only [below] at hx
    simp only [pyEval]
    rw [pyArgs_below E σ σ' k h as hx]

theorem pyBool_below (E : Env) (σ σ' : St) (k : Nat) (h : ∀ x, belowN k x = true → σ x = σ' x) :
    ∀ (es : PEs) (i : Bool) (a : ℚ), belowL k es = true → pyBool E σ i a es = pyBool E σ' i a es
  | .nil, _, _, _ => rfl
  | .cons e es, i, a, hx => by
    simp only [belowL, Bool.and_eq_true] at hx
    simp only [pyBool]
    rw [pyEval_below E σ σ' k h e hx.1]
    split
    · rfl
    · cases pyEval E σ' e with
      | error x => rfl
      | ok b => exact pyBool_below E σ σ' k h es i b hx.2

theorem pyArgs_below (E : Env) (σ σ' : St) (k : Nat) (h : ∀ x, belowN k x = true → σ x = σ' x) :
    ∀ es : PEs, belowL k es = true → pyArgs E σ es = pyArgs E σ' es
  | .nil, _ => rfl
  | .cons e es, hx => by
    simp only [belowL, Bool.and_eq_true] at hx
    simp only [pyArgs]
    rw [pyEval_below E σ σ' k h e hx.1, pyArgs_below E σ σ' k h es hx.2]
end

/-! ### What hoisting keeps -/

mutual
theorem hoist_noSamples : ∀ (e : PE) (n : Nat), noSamples e = true → hoist e n = (e, [], n)
  | .int _, _, _ => rfl
  | .flt _, _, _ => rfl
  | .var _, _, _ => rfl
  | .names _ _, _, _ => rfl
  | .bin _ l r, n, h => by
    simp only [noSamples, Bool.and_eq_true] at h
    simp only [hoist, hoist_noSamples l n h.1, hoist_noSamples r n h.2, List.append_nil]
  | .pow l r, n, h => by
    simp only [noSamples, Bool.and_eq_true] at h
    simp only [hoist, hoist_noSamples l n h.1, hoist_noSamples r n h.2, List.append_nil]
  | .una _ e, n, h => by
    simp only [noSamples] at h
    simp only [hoist, hoist_noSamples e n h]
  | .cmp _ l r, n, h => by
    simp only [noSamples, Bool.and_eq_true] at h
    simp only [hoist, hoist_noSamples l n h.1, hoist_noSamples r n h.2, List.append_nil]
  | .bool _ f r, n, h => by
    simp only [noSamples, Bool.and_eq_true] at h
    simp only [hoist, hoist_noSamples f n h.1, hoistArgs_noSamples r n h.2, List.append_nil]
  | .call _ as, n, h => by
    simp only [noSamples] at h
    simp only [hoist, hoistArgs_noSamples as n h]
  | .sample _ _ _, _, h => by simp [noSamples] at h

theorem hoistArgs_noSamples : ∀ (es : PEs) (n : Nat), noSamplesL es = true → hoistArgs es n = (es, [], n)
  | .nil, _, _ => rfl
  | .cons e es, n, h => by
    simp only [noSamplesL, Bool.and_eq_true] at h
    simp only [hoistArgs, hoist_noSamples e n h.1, hoistArgs_noSamples es n h.2, List.append_nil]
end

mutual
theorem hoist_le : ∀ (e : PE) (n : Nat), n ≤ (hoist e n).2.2
  | .int _, _ => le_refl _
  | .flt _, _ => le_refl _
  | .var _, _ => le_refl _
  | .names _ _, _ => le_refl _
  | .bin _ l r, n => le_trans (hoist_le l n) (hoist_le r _)
  | .pow l r, n => le_trans (hoist_le l n) (hoist_le r _)
  | .una _ e, n => hoist_le e n
  | .cmp _ l r, n => le_trans (hoist_le l n) (hoist_le r _)
  | .bool _ f r, n => le_trans (hoist_le f n) (hoistArgs_le r _)
  | .call _ as, n => hoistArgs_le as n
  | .sample _ fs as, n => by
    have := hoistArgs_le as n
    simp only [hoist]
    omega

theorem hoistArgs_le : ∀ (es : PEs) (n : Nat), n ≤ (hoistArgs es n).2.2
  | .nil, _ => le_refl _
  | .cons e es, n => le_trans (hoist_le e n) (hoistArgs_le es _)
end

theorem hoistArgs_nil (es : PEs) (n : Nat) : (hoistArgs es n).1 = .nil ↔ es = .nil := by
  cases es with
  | nil => simp [hoistArgs]
  | cons e es => simp [hoistArgs]

theorem hoistArgs_length : ∀ (es : PEs) (n : Nat), (hoistArgs es n).1.length = es.length
  | .nil, _ => rfl
  | .cons e es, n => by
    simp only [hoistArgs, PEs.length]
    rw [hoistArgs_length es]

theorem mem_tmps {i n : Nat} {x : Name} : x ∈ tmps i n ↔ ∃ j, x = .tmp j ∧ i ≤ j ∧ j < i + n := by
  unfold tmps
  simp only [List.mem_map, List.mem_range]
  constructor
  · rintro ⟨k, hk, rfl⟩
    exact ⟨i + k, rfl, by omega, by omega⟩
  · rintro ⟨j, rfl, h1, h2⟩
    exact ⟨j - i, by omega, by congr 1; omega⟩

theorem tmps_length (i n : Nat) : (tmps i n).length = n := by simp [tmps]

theorem tmps_succ (i n : Nat) : tmps i (n + 1) = .tmp i :: tmps (i + 1) n := by
  unfold tmps
  rw [List.range_succ_eq_map]
  simp only [List.map_cons, List.map_map, Nat.add_zero, List.cons.injEq, true_and]
  apply List.map_congr_left
  intro k _
  simp only [Function.comp, Nat.succ_eq_add_one]
  congr 1
  omega

theorem prec_hoist (e : PE) (n : Nat) : prec (hoist e n).1 = prec e := by
  cases e with
  | sample f fs as =>
    cases fs with
    | nil => rfl
    | cons g gs =>
      simp only [hoist, List.length_cons]
      rw [tmps_succ]
      rfl
  | names x xs => rfl
  | _ => rfl

mutual
theorem boolean_hoist : ∀ (e : PE) (n : Nat), boolean (hoist e n).1 = boolean e
  | .int _, _ => rfl
  | .flt _, _ => rfl
  | .var _, _ => rfl
  | .names _ _, _ => rfl
  | .bin _ _ _, _ => by simp [hoist, boolean]
  | .pow _ _, _ => by simp [hoist, boolean]
  | .una .neg _, _ => by simp [hoist, boolean]
  | .una .pos _, _ => by simp [hoist, boolean]
  | .una .not _, _ => by simp [hoist, boolean]
  | .cmp _ _ _, _ => by simp [hoist, boolean]
  | .bool _ f r, n => by
    simp only [hoist, boolean]
    rw [boolean_hoist f, allBoolean_hoist r]
  | .call _ _, _ => by simp [hoist, boolean]
  | .sample _ _ _, _ => by simp [hoist, boolean]

theorem allBoolean_hoist : ∀ (es : PEs) (n : Nat), allBoolean (hoistArgs es n).1 = allBoolean es
  | .nil, _ => rfl
  | .cons e es, n => by
    simp only [hoistArgs, allBoolean]
    rw [boolean_hoist e, allBoolean_hoist es]
end

theorem valued_hoist (e : PE) (n : Nat) : valued (hoist e n).1 = valued e := by
  cases e with
  | bool i f r =>
    have := boolean_hoist (.bool i f r) n
    simp only [hoist] at this ⊢
    exact this
  | _ => rfl

theorem tyOf_hoist (ty : Name → Ty) : ∀ (e : PE) (n : Nat), tyOf ty (hoist e n).1 = tyOf ty e
  | .int _, _ => rfl
  | .flt _, _ => rfl
  | .var _, _ => rfl
  | .names _ _, _ => rfl
  | .bin _ l r, n => by
    simp only [hoist, tyOf]
    rw [tyOf_hoist ty l, tyOf_hoist ty r]
  | .pow _ _, _ => rfl
  | .una .not _, _ => rfl
  | .una .neg e, n => tyOf_hoist ty e n
  | .una .pos e, n => tyOf_hoist ty e n
  | .cmp _ _ _, _ => rfl
  | .bool _ _ _, _ => rfl
  | .call _ _, _ => rfl
  | .sample _ _ _, _ => rfl

mutual
theorem below_hoist : ∀ (e : PE) (n : Nat), below 0 e = true → below (hoist e n).2.2 (hoist e n).1 = true
  | .int _, _, _ => rfl
  | .flt _, _, _ => rfl
  | .var x, n, h => belowN_mono (Nat.zero_le _) h
  | .names x xs, n, h => below_mono (Nat.zero_le _) (.names x xs) h
  | .bin _ l r, n, h => by
    simp only [below, Bool.and_eq_true] at h
    simp only [hoist, below, Bool.and_eq_true]
    exact ⟨below_mono (hoist_le r _) _ (below_hoist l n h.1), below_hoist r _ h.2⟩
  | .pow l r, n, h => by
    simp only [below, Bool.and_eq_true] at h
    simp only [hoist, below, Bool.and_eq_true]
    exact ⟨below_mono (hoist_le r _) _ (below_hoist l n h.1), below_hoist r _ h.2⟩
  | .una _ e, n, h => by
    simp only [below] at h
    simp only [hoist, below]
    exact below_hoist e n h
  | .cmp _ l r, n, h => by
    simp only [below, Bool.and_eq_true] at h
    simp only [hoist, below, Bool.and_eq_true]
    exact ⟨below_mono (hoist_le r _) _ (below_hoist l n h.1), below_hoist r _ h.2⟩
  | .bool _ f r, n, h => by
    simp only [below, Bool.and_eq_true] at h
    simp only [hoist, below, Bool.and_eq_true]
    exact ⟨below_mono (hoistArgs_le r _) _ (below_hoist f n h.1), belowL_hoist r _ h.2⟩
  | .call _ as, n, h => by
    simp only [below] at h
    simp only [hoist, below]
    exact belowL_hoist as n h
  | .sample f fs as, n, h => by
    simp only [hoist, below, Bool.and_eq_true, List.all_eq_true]
    constructor
    · simp only [belowN, decide_eq_true_eq]; omega
    · intro y hy
      obtain ⟨j, rfl, h1, h2⟩ := mem_tmps.mp hy
      simp only [belowN, decide_eq_true_eq]; omega

theorem belowL_hoist : ∀ (es : PEs) (n : Nat), belowL 0 es = true → belowL (hoistArgs es n).2.2 (hoistArgs es n).1 = true
  | .nil, _, _ => rfl
  | .cons e es, n, h => by
    simp only [belowL, Bool.and_eq_true] at h
    simp only [hoistArgs, belowL, Bool.and_eq_true]
    exact ⟨below_mono (hoistArgs_le es _) _ (below_hoist e n h.1), belowL_hoist es _ h.2⟩
end

mutual
theorem safe_hoist (ty : Name → Ty) (ht : ∀ i, ty (.tmp i) = .dbl) : ∀ (e : PE) (n : Nat), safe ty e = true →
    safe ty (hoist e n).1 = true ∧ noSamples (hoist e n).1 = true
  | .int _, _, _ => ⟨rfl, rfl⟩
  | .flt _, _, _ => ⟨rfl, rfl⟩
  | .var _, _, _ => ⟨rfl, rfl⟩
  | .names _ _, _, h => ⟨h, rfl⟩
  | .bin op l r, n, h => by
    simp only [safe, Bool.and_eq_true] at h
    obtain ⟨⟨⟨⟨⟨⟨⟨hl, hr⟩, vl⟩, vr⟩, pl⟩, pr⟩, hm⟩, hd⟩ := h
    have a := safe_hoist ty ht l n hl
    have b := safe_hoist ty ht r (hoist l n).2.2 hr
    simp only [hoist, safe, noSamples, Bool.and_eq_true, prec_hoist, valued_hoist, tyOf_hoist]
    exact ⟨⟨⟨⟨⟨⟨⟨⟨a.1, b.1⟩, vl⟩, vr⟩, pl⟩, pr⟩, hm⟩, hd⟩, a.2, b.2⟩
  | .pow l r, n, h => by
    simp only [safe, Bool.and_eq_true] at h
    obtain ⟨⟨⟨hl, hr⟩, vl⟩, vr⟩ := h
    have a := safe_hoist ty ht l n hl
    have b := safe_hoist ty ht r (hoist l n).2.2 hr
    simp only [hoist, safe, noSamples, Bool.and_eq_true, valued_hoist]
    exact ⟨⟨⟨⟨a.1, b.1⟩, vl⟩, vr⟩, a.2, b.2⟩
  | .una op e, n, h => by
    simp only [safe, Bool.and_eq_true] at h
    have a := safe_hoist ty ht e n h.1
    simp only [hoist, safe, noSamples, Bool.and_eq_true, valued_hoist]
    exact ⟨⟨a.1, h.2⟩, a.2⟩
  | .cmp op l r, n, h => by
    simp only [safe, Bool.and_eq_true] at h
    obtain ⟨⟨⟨⟨⟨hl, hr⟩, vl⟩, vr⟩, pl⟩, pr⟩ := h
    have a := safe_hoist ty ht l n hl
    have b := safe_hoist ty ht r (hoist l n).2.2 hr
    simp only [hoist, safe, noSamples, Bool.and_eq_true, prec_hoist, valued_hoist]
    exact ⟨⟨⟨⟨⟨⟨a.1, b.1⟩, vl⟩, vr⟩, pl⟩, pr⟩, a.2, b.2⟩
  | .bool i f r, n, h => by
    simp only [safe, Bool.and_eq_true] at h
    obtain ⟨⟨⟨⟨hf, pf⟩, hr⟩, hn⟩, hne⟩ := h
    have a := safe_hoist ty ht f n hf
    simp only [hoist, safe, noSamples, Bool.and_eq_true, prec_hoist, hoistArgs_noSamples r _ hn]
    exact ⟨⟨⟨⟨⟨a.1, pf⟩, hr⟩, hn⟩, hne⟩, a.2, hn⟩
  | .call _ as, n, h => by
    simp only [safe] at h
    simp only [hoist, safe, noSamples]
    exact safeArgs_hoist ty ht as n h
  | .sample f fs as, n, h => by
    simp only [hoist, safe, noSamples, Bool.and_eq_true, List.all_eq_true, decide_eq_true_eq, and_true]
    refine ⟨ht _, fun y hy => ?_⟩
    obtain ⟨j, rfl, _⟩ := mem_tmps.mp hy
    exact ht _

theorem safeArgs_hoist (ty : Name → Ty) (ht : ∀ i, ty (.tmp i) = .dbl) : ∀ (es : PEs) (n : Nat), safeArgs ty es = true →
    safeArgs ty (hoistArgs es n).1 = true ∧ noSamplesL (hoistArgs es n).1 = true
  | .nil, _, _ => ⟨rfl, rfl⟩
  | .cons e es, n, h => by
    simp only [safeArgs, Bool.and_eq_true] at h
    have a := safe_hoist ty ht e n h.1.1
    have b := safeArgs_hoist ty ht es (hoist e n).2.2 h.2
    simp only [hoistArgs, safeArgs, noSamplesL, Bool.and_eq_true, valued_hoist]
    exact ⟨⟨⟨a.1, h.1.2⟩, b.1⟩, a.2, b.2⟩
end

mutual
theorem reads_hoist (x : String) : ∀ (e : PE) (n : Nat), reads (.user x) (hoist e n).1 = reads (.user x) e
  | .int _, _ => rfl
  | .flt _, _ => rfl
  | .var _, _ => rfl
  | .names _ _, _ => rfl
  | .bin _ l r, n => by simp only [hoist, reads]; rw [reads_hoist x l, reads_hoist x r]
  | .pow l r, n => by simp only [hoist, reads]; rw [reads_hoist x l, reads_hoist x r]
  | .una _ e, n => by simp only [hoist, reads]; rw [reads_hoist x e]
  | .cmp _ l r, n => by simp only [hoist, reads]; rw [reads_hoist x l, reads_hoist x r]
  | .bool _ f r, n => by simp only [hoist, reads]; rw [reads_hoist x f, readsL_hoist x r]
  | .call _ as, n => by simp only [hoist, reads]; rw [readsL_hoist x as]
  | .sample f fs as, n => by
    simp only [hoist, reads, decide_eq_false_iff_not, List.mem_cons, reduceCtorEq, false_or]
    intro h
    obtain ⟨j, hj, _⟩ := mem_tmps.mp h
    cases hj

theorem readsL_hoist (x : String) : ∀ (es : PEs) (n : Nat), readsL (.user x) (hoistArgs es n).1 = readsL (.user x) es
  | .nil, _ => rfl
  | .cons e es, n => by simp only [hoistArgs, readsL]; rw [reads_hoist x e, readsL_hoist x es]
end

theorem tmpCount_append (a b : List Tok) : tmpCount (a ++ b) = tmpCount a + tmpCount b := by
  simp [tmpCount]

theorem tmpCount_cons (t : Tok) (b : List Tok) : tmpCount (t :: b) = (if isTmp t then 1 else 0) + tmpCount b := by
  unfold tmpCount
  by_cases h : isTmp t <;> simp [h]
  omega

mutual
/-- The text of a test has as many temporaries as there are field evaluations, if the samples are simple. -/
theorem tmpCount_hoist : ∀ (e : PE) (n : Nat), below 0 e = true → simpleSamples e = true →
    tmpCount (emit (hoist e n).1) = (hoist e n).2.1.length
  | .int _, _, _, _ => rfl
  | .flt _, _, _, _ => rfl
  | .var x, _, h, _ => by
    cases x with
    | user s => rfl
    | tmp i => simp [below, belowN] at h
    | deleted => simp [below, belowN] at h
  | .names x xs, _, h, _ => by
    simp only [below, Bool.and_eq_true, List.all_eq_true] at h
    simp only [hoist, emit, tmpCount_cons, List.length_nil]
    have h0 : isTmp (.id x) = false := by
      cases x with
      | user s => rfl
      | tmp i => simp [belowN] at h
      | deleted => rfl
    have h1 : ∀ ys : List Name, (∀ y ∈ ys, belowN 0 y = true) →
        tmpCount (ys.flatMap fun y => [Tok.op (.arith .add), .id y]) = 0 := by
      intro ys
      induction ys with
      | nil => intro _; rfl
      | cons y ys ih =>
        intro hy
        have hy0 := hy y List.mem_cons_self
        rw [List.flatMap_cons, tmpCount_append, ih fun z hz => hy z (List.mem_cons_of_mem _ hz)]
        cases y with
        | user s => rfl
        | tmp i => simp [belowN] at hy0
        | deleted => rfl
    rw [h0, h1 xs h.2]
    rfl
  | .bin op l r, n, h, hs => by
    simp only [below, simpleSamples, Bool.and_eq_true] at h hs
    have a := tmpCount_hoist l n h.1 hs.1
    have b := tmpCount_hoist r (hoist l n).2.2 h.2 hs.2
    simp only [hoist, emit, tmpCount_append, tmpCount_cons, List.length_append, isTmp, List.cons_append]
    rw [a, b]
    simp [tmpCount, isTmp]
  | .pow l r, n, h, hs => by
    simp only [below, simpleSamples, Bool.and_eq_true] at h hs
    have a := tmpCount_hoist l n h.1 hs.1
    have b := tmpCount_hoist r (hoist l n).2.2 h.2 hs.2
    simp only [hoist, emit, tmpCount_append, tmpCount_cons, List.length_append, isTmp, List.cons_append]
    rw [a, b]
    simp [tmpCount, isTmp]
  | .una op e, n, h, hs => by
    simp only [below, simpleSamples] at h hs
    have a := tmpCount_hoist e n h hs
    simp only [hoist, emit, tmpCount_append, tmpCount_cons, isTmp, List.cons_append]
    rw [a]
    cases op <;> simp [tmpCount, isTmp, uopTok]
  | .cmp op l r, n, h, hs => by
    simp only [below, simpleSamples, Bool.and_eq_true] at h hs
    have a := tmpCount_hoist l n h.1 hs.1
    have b := tmpCount_hoist r (hoist l n).2.2 h.2 hs.2
    simp only [hoist, emit, tmpCount_append, tmpCount_cons, List.length_append, isTmp]
    rw [a, b]
    simp
  | .bool i f r, n, h, hs => by
    simp only [below, simpleSamples, Bool.and_eq_true] at h hs
    have a := tmpCount_hoist f n h.1 hs.1
    have b := tmpCount_hoistRest (if i then .and else .or) r (hoist f n).2.2 h.2 hs.2
    simp only [hoist, emit, tmpCount_append, List.length_append]
    rw [a, b]
  | .call f as, n, h, hs => by
    simp only [below, simpleSamples] at h hs
    have a := tmpCount_hoistArgs as n h hs
    simp only [hoist, emit, tmpCount_append, tmpCount_cons, isTmp, List.cons_append]
    rw [a]
    simp [tmpCount, isTmp]
  | .sample f fs as, n, h, hs => by
    simp only [simpleSamples, Bool.and_eq_true, List.isEmpty_iff] at hs
    obtain ⟨rfl, hn⟩ := hs
    simp only [hoist, hoistArgs_noSamples as n hn]
    rfl

theorem tmpCount_hoistRest (o : BOp) : ∀ (es : PEs) (n : Nat), belowL 0 es = true → simpleSamplesL es = true →
    tmpCount (emitRest o (hoistArgs es n).1) = (hoistArgs es n).2.1.length
  | .nil, _, _, _ => rfl
  | .cons e es, n, h, hs => by
    simp only [belowL, simpleSamplesL, Bool.and_eq_true] at h hs
    have a := tmpCount_hoist e n h.1 hs.1
    have b := tmpCount_hoistRest o es (hoist e n).2.2 h.2 hs.2
    simp only [hoistArgs, emitRest, tmpCount_append, tmpCount_cons, List.length_append, isTmp, List.cons_append]
    rw [a, b]
    simp

theorem tmpCount_hoistArgs : ∀ (es : PEs) (n : Nat), belowL 0 es = true → simpleSamplesL es = true →
    tmpCount (emitArgs (hoistArgs es n).1) = (hoistArgs es n).2.1.length
  | .nil, _, _, _ => rfl
  | .cons e .nil, n, h, hs => by
    simp only [belowL, simpleSamplesL, Bool.and_eq_true] at h hs
    have a := tmpCount_hoist e n h.1 hs.1
    simp only [hoistArgs, emitArgs, List.append_nil]
    exact a
  | .cons e (.cons e' es), n, h, hs => by
    have h' := h
    have hs' := hs
    rw [belowL, Bool.and_eq_true] at h'
    rw [simpleSamplesL, Bool.and_eq_true] at hs'
    have a := tmpCount_hoist e n h'.1 hs'.1
    have b := tmpCount_hoistArgs (.cons e' es) (hoist e n).2.2 h'.2 hs'.2
    have hc : emitArgs (hoistArgs (.cons e (.cons e' es)) n).1 =
        emit (hoist e n).1 ++ (.comma :: emitArgs (hoistArgs (.cons e' es) (hoist e n).2.2).1) := by
      simp only [hoistArgs, emitArgs]
    have hl : (hoistArgs (.cons e (.cons e' es)) n).2.1 = (hoist e n).2.1 ++ (hoistArgs (.cons e' es) (hoist e n).2.2).2.1 := by
      simp only [hoistArgs]
    rw [hc, hl, tmpCount_append, tmpCount_cons, List.length_append, a, b]
    simp [isTmp]
end

end Parcels.Codegen
