import Verif.Proofs.CodegenRun

/-!
Statements: the generated C code simulates the Python kernel.
-/

namespace Parcels.Codegen

/-! ### Shape of the generated code -/

theorem splitList_append : ∀ a b : List PS, splitList (a ++ b) = splitList a ++ splitList b
  | [], b => by simp only [List.nil_append, splitList]
  | s :: a, b => by simp only [List.cons_append, splitList, splitList_append a b, List.append_assoc]

theorem genList_append : ∀ a b : List PS, genList (a ++ b) = genList a ++ genList b
  | [], b => by simp only [List.nil_append, genList]
  | s :: a, b => by simp only [List.cons_append, genList, genList_append a b]

theorem split_hoisted (hs : List Hoist) : splitList (hs.map .hoisted) = hs.map .hoisted := by
  induction hs with
  | nil => rfl
  | cons h hs ih => simp only [List.map_cons, splitList, splitStmt, ih, List.cons_append, List.nil_append]

theorem gen_hoisted (hs : List Hoist) : genList (hs.map .hoisted) = hs.map genHoist := by
  induction hs with
  | nil => rfl
  | cons h hs ih => simp only [List.map_cons, genList, gen, ih]

/-- The C code of statements after the transformation. -/
def code (l : List PS) : List CS := genList (splitList l)

theorem code_append (a b : List PS) : code (a ++ b) = code a ++ code b := by
  unfold code
  rw [splitList_append, genList_append]

theorem code_hoisted (hs : List Hoist) : code (hs.map .hoisted) = hs.map genHoist := by
  unfold code
  rw [split_hoisted, gen_hoisted]

theorem run_code_hoisted (E : Env) (fuel : Nat) (hs : List Hoist) (l : List PS) (σ : St) :
    cList E fuel (code (hs.map .hoisted ++ l)) σ = (runH E fuel hs σ).bind (cList E fuel (code l)) := by
  rw [code_append, cList_append, code_hoisted]
  rfl

theorem trList_starts (vd : Nat → Nat) (body : List PS) (n : Nat) (stk : List Hoist) (h : startsAssign body = true) :
    trList vd body (n, stk) = (stk.map .hoisted ++ (trList vd body (n, [])).1, (trList vd body (n, [])).2) := by
  cases body with
  | nil => cases h
  | cons s rest =>
    cases s with
    | assign x e => simp only [trList, trStmt, List.map_append, List.append_assoc, List.nil_append, List.map_nil]
    | tuple xs es => simp only [trList, trStmt, List.map_append, List.append_assoc, List.nil_append, List.map_nil]
    | vec xs f as => simp only [trList, trStmt, List.map_append, List.append_assoc, List.nil_append, List.map_nil]
    | aug x op e => simp only [trList, trStmt, List.map_append, List.append_assoc, List.nil_append, List.map_nil]
    | ite t b o => cases h
    | whl t b => cases h
    | ret e => cases h
    | delete => cases h
    | brk => cases h
    | pass => cases h
    | hoisted h' => cases h

mutual
/-- No field evaluation is left on the stack. -/
theorem stmt_stack (ty : Name → Ty) (vd : Nat → Nat) : ∀ (s : PS) (tail : Bool) (n : Nat), supStmt ty vd tail s = true →
    (trStmt vd s (n, [])).2.2 = []
  | .assign _ _, _, _, _ => by simp only [trStmt]
  | .tuple _ _, _, _, _ => by simp only [trStmt]
  | .vec _ _ _, _, _, _ => by simp only [trStmt]
  | .aug _ _ _, _, _, _ => by simp only [trStmt]
  | .ite t b o, tail, n, h => by
    simp only [supStmt, Bool.and_eq_true] at h
    obtain ⟨⟨⟨⟨_, _⟩, hc⟩, hb⟩, ho⟩ := h
    simp only [trStmt, List.nil_append]
    have hb0 := list_stack ty vd b tail (hoist t n).2.2 hb
    have : (trList vd b ((hoist t n).2.2, (hoist t n).2.1)).2 = ((trList vd b ((hoist t n).2.2, [])).2.1, []) := by
      rcases Bool.or_eq_true _ _ |>.mp hc with h1 | h1
      · simp only [hoist_noSamples t n h1]
        rw [hoist_noSamples t n h1] at hb0
        exact Prod.ext rfl hb0
      · rw [Bool.and_eq_true] at h1
        rw [trList_starts vd b _ _ h1.2]
        exact Prod.ext rfl hb0
    rw [this]
    exact list_stack ty vd o tail _ ho
  | .whl t b, tail, n, h => by
    simp only [supStmt, Bool.and_eq_true] at h
    obtain ⟨⟨⟨_, _⟩, hn⟩, hb⟩ := h
    simp only [trStmt, List.nil_append, hoist_noSamples t n hn]
    exact list_stack ty vd b false n hb
  | .ret e, tail, n, h => by
    simp only [supStmt, Bool.and_eq_true] at h
    simp only [trStmt, List.nil_append, hoist_noSamples e n h.2]
  | .delete, _, _, _ => by simp only [trStmt]
  | .brk, _, _, _ => by simp only [trStmt]
  | .pass, _, _, _ => by simp only [trStmt]
  | .hoisted _, _, _, h => by simp [supStmt] at h

theorem list_stack (ty : Name → Ty) (vd : Nat → Nat) : ∀ (l : List PS) (tail : Bool) (n : Nat), supList ty vd tail l = true →
    (trList vd l (n, [])).2.2 = []
  | [], _, _, _ => by simp only [trList]
  | s :: rest, tail, n, h => by
    simp only [supList, Bool.and_eq_true] at h
    have hs := stmt_stack ty vd s _ n h.1
    simp only [trList]
    have : (trStmt vd s (n, [])).2 = ((trStmt vd s (n, [])).2.1, []) := Prod.ext rfl hs
    rw [this]
    exact list_stack ty vd rest tail _ h.2
end

mutual
theorem noSamples_simple : ∀ e : PE, noSamples e = true → simpleSamples e = true
  | .int _, _ => rfl
  | .flt _, _ => rfl
  | .var _, _ => rfl
  | .names _ _, _ => rfl
  | .bin _ l r, h => by
    simp only [noSamples, simpleSamples, Bool.and_eq_true] at h ⊢
    exact ⟨noSamples_simple l h.1, noSamples_simple r h.2⟩
  | .pow l r, h => by
    simp only [noSamples, simpleSamples, Bool.and_eq_true] at h ⊢
    exact ⟨noSamples_simple l h.1, noSamples_simple r h.2⟩
  | .una _ e, h => by
    simp only [noSamples, simpleSamples] at h ⊢
    exact noSamples_simple e h
  | .cmp _ l r, h => by
    simp only [noSamples, simpleSamples, Bool.and_eq_true] at h ⊢
    exact ⟨noSamples_simple l h.1, noSamples_simple r h.2⟩
  | .bool _ f r, h => by
    simp only [noSamples, simpleSamples, Bool.and_eq_true] at h ⊢
    exact ⟨noSamples_simple f h.1, noSamples_simpleL r h.2⟩
  | .call _ as, h => by
    simp only [noSamples, simpleSamples] at h ⊢
    exact noSamples_simpleL as h
  | .sample _ _ _, h => by simp [noSamples] at h

theorem noSamples_simpleL : ∀ es : PEs, noSamplesL es = true → simpleSamplesL es = true
  | .nil, _ => rfl
  | .cons e es, h => by
    simp only [noSamplesL, simpleSamplesL, Bool.and_eq_true] at h ⊢
    exact ⟨noSamples_simple e h.1, noSamples_simpleL es h.2⟩
end

/-! ### Relation of states and results -/

/-- Python state and C state in the middle of a kernel. -/
def Rel (ty : Name → Ty) (σ σc : St) : Prop := SameVars σ σc ∧ WellTyped ty σc ∧ σ .deleted = 0

def RRel (ty : Name → Ty) (tail : Bool) : Res → Res → Prop
  | .stuck, _ => True
  | .next σ, .next σc => Rel ty σ σc
  | .next σ, .ret c σc => tail = true ∧ c = codeDelete ∧ SameVars σ σc ∧ σ .deleted ≠ 0
  | .brk σ, .brk σc => Rel ty σ σc
  | .ret c σ, .ret c' σc => c = c' ∧ SameVars σ σc ∧ σ .deleted = 0
  | _, _ => False

theorem Rel.frame {ty : Name → Ty} {σ σc σ1 : St} (ht : ∀ i, ty (.tmp i) = .dbl) (h : Rel ty σ σc) {n n' : Nat}
    (f : Frame n n' σc σ1) : Rel ty σ σ1 :=
  ⟨fun s => (h.1 s).trans (f.user s).symm, f.wellTyped ht h.2.1, h.2.2⟩

theorem Rel.agree {ty : Name → Ty} {σ σc : St} (h : Rel ty σ σc) : ∀ x, belowN 0 x = true → σ x = σc x := by
  intro x hx
  cases x with
  | user s => exact h.1 s
  | tmp i => simp [belowN] at hx
  | deleted => simp [belowN] at hx

theorem truncInt_int (z : ℤ) : Converters.truncInt (z : ℚ) = z := by
  unfold Converters.truncInt
  split <;> simp

theorem Rel.store {E : Env} {σ σc : St} (h : Rel E.ty σ σc) (x : String) (v : ℚ) :
    Rel E.ty (store E σ (.user x) v) (store E σc (.user x) v) := by
  refine ⟨fun s => ?_, fun y hy => ?_, ?_⟩
  · unfold Codegen.store
    rw [h.1 s]
  · by_cases hyx : y = .user x
    · subst hyx
      simp only [Codegen.store, if_true, hy]
      rw [truncInt_int]
    · rw [store_other E σc _ _ v hyx]
      exact h.2.1 y hy
  · rw [store_other E σ _ _ v (by simp)]
    exact h.2.2

theorem rel_expr (E : Env) (fuel : Nat) (ht : ∀ i, E.ty (.tmp i) = .dbl) (tail : Bool) (e : PE) (n : Nat) (σ σc : St)
    (hs : safe E.ty e = true) (hb : below 0 e = true) (hR : Rel E.ty σ σc) (k : ℚ → Res) (kc : St → Res)
    (hk : ∀ v σ1, Rel E.ty σ σ1 → pyEval E σ1 (hoist e n).1 = .ok v → RRel E.ty tail (k v) (kc σ1)) :
    RRel E.ty tail (onVal σ (pyEval E σ e) k) ((runH E fuel (hoist e n).2.1 σc).bind kc) := by
  have hagree := pyEval_below E σ σc 0 hR.agree e hb
  obtain ⟨h1, h2⟩ := hoist_run E fuel ht e n σc hR.2.1 hs hb
  cases he : pyEval E σ e with
  | error x =>
    cases x with
    | stuck => simp only [onVal, RRel]
    | samp c =>
      obtain ⟨σ1, r1, f1⟩ := h2 c (hagree ▸ he)
      rw [r1]
      exact ⟨rfl, (hR.frame ht f1).1, hR.2.2⟩
  | ok v =>
    obtain ⟨σ1, r1, f1, e1⟩ := h1 v (hagree ▸ he)
    rw [r1]
    exact hk v σ1 (hR.frame ht f1) e1

theorem rel_args (E : Env) (fuel : Nat) (ht : ∀ i, E.ty (.tmp i) = .dbl) (tail : Bool) (es : PEs) (n : Nat) (σ σc : St)
    (hs : safeArgs E.ty es = true) (hb : belowL 0 es = true) (hR : Rel E.ty σ σc) (k : List ℚ → Res) (kc : St → Res)
    (hk : ∀ v σ1, Rel E.ty σ σ1 → pyArgs E σ1 (hoistArgs es n).1 = .ok v → RRel E.ty tail (k v) (kc σ1)) :
    RRel E.ty tail (onVal σ (pyArgs E σ es) k) ((runH E fuel (hoistArgs es n).2.1 σc).bind kc) := by
  have hagree := pyArgs_below E σ σc 0 hR.agree es hb
  obtain ⟨h1, h2⟩ := hoistArgs_run E fuel ht es n σc hR.2.1 hs hb
  cases he : pyArgs E σ es with
  | error x =>
    cases x with
    | stuck => simp only [onVal, RRel]
    | samp c =>
      obtain ⟨σ1, r1, f1⟩ := h2 c (hagree ▸ he)
      rw [r1]
      exact ⟨rfl, (hR.frame ht f1).1, hR.2.2⟩
  | ok v =>
    obtain ⟨σ1, r1, f1, e1⟩ := h1 v (hagree ▸ he)
    rw [r1]
    exact hk v σ1 (hR.frame ht f1) e1

/-! ### Tuples -/

theorem noOverlap_hoist : ∀ (xs : List String) (es : PEs) (n : Nat), noOverlap xs (hoistArgs es n).1 = noOverlap xs es
  | [], es, n => by simp only [noOverlap]
  | x :: xs, .nil, n => rfl
  | x :: xs, .cons e es, n => by
    simp only [hoistArgs, noOverlap]
    rw [readsL_hoist, noOverlap_hoist]

theorem run_split (E : Env) (fuel : Nat) : ∀ (xs : List String) (es : PEs) (vs : List ℚ) (σ σc σ' : St), Rel E.ty σ σc →
    safeArgs E.ty es = true → noSamplesL es = true → noOverlap xs es = true → pyArgs E σc es = .ok vs →
    storeAll E σ (xs.map .user) vs = some σ' →
    ∃ σc', cList E fuel (genList (splitZip xs es)) σc = .next σc' ∧ Rel E.ty σ' σc'
  | [], es, vs, σ, σc, σ', hR, hs, hn, ho, h, hst => by
    cases vs with
    | nil =>
      simp only [List.map_nil, storeAll, Option.some.injEq] at hst
      subst hst
      exact ⟨σc, by simp only [splitZip, genList, cList], hR⟩
    | cons q qs => simp [storeAll] at hst
  | x :: xs, .nil, vs, σ, σc, σ', hR, hs, hn, ho, h, hst => by
    rw [pyArgs] at h
    rw [← Except.ok.inj h] at hst
    simp [storeAll] at hst
  | x :: xs, .cons e es, vs, σ, σc, σ', hR, hs, hn, ho, h, hst => by
    simp only [safeArgs, noSamplesL, noOverlap, Bool.and_eq_true, Bool.not_eq_true'] at hs hn ho
    rw [pyArgs] at h
    cases h1 : pyEval E σc e with
    | error y => rw [h1] at h; cases h
    | ok v =>
      rw [h1] at h
      cases h2 : pyArgs E σc es with
      | error y => rw [h2] at h; cases h
      | ok qs =>
        rw [h2] at h
        rw [← Except.ok.inj h] at hst
        simp only [List.map_cons, storeAll] at hst
        obtain ⟨w, ew, _, vw, _⟩ := cValue_emit E σc hR.2.1 e v hs.1.1 hn.1 h1
        have hR' := hR.store (E := E) x v
        have h2' : pyArgs E (store E σc (.user x) v) es = .ok qs := by
          rw [← h2]
          refine pyArgs_reads E _ _ es hn.2 fun y hy => store_other E σc _ _ v ?_
          rintro rfl
          rw [ho.1] at hy
          cases hy
        obtain ⟨σc', r, hR''⟩ := run_split E fuel xs es qs _ _ σ' hR' hs.2 hn.2 ho.2 h2' hst
        refine ⟨σc', ?_, hR''⟩
        simp only [splitZip, genList, gen, cList, cStmt, cVal, ew, vw hs.1.2]
        exact r

/-! ### Vector fields -/

theorem storeAll_length (E : Env) : ∀ (xs : List Name) (vs : List ℚ) (σ σ' : St), storeAll E σ xs vs = some σ' → xs.length = vs.length
  | [], [], _, _, _ => rfl
  | [], _ :: _, _, _, h => by simp [storeAll] at h
  | _ :: _, [], _, _, h => by simp [storeAll] at h
  | x :: xs, v :: vs, σ, σ', h => by
    simp only [storeAll] at h
    simp only [List.length_cons, storeAll_length E xs vs _ _ h]

theorem run_tmps (E : Env) (ht : ∀ i, E.ty (.tmp i) = .dbl) : ∀ (vs : List ℚ) (m : Nat) (σ : St),
    ∃ σ', storeAll E σ (tmps m vs.length) vs = some σ' ∧ Frame m (m + vs.length) σ σ' ∧
      pyArgs E σ' (namesArgs (tmps m vs.length)) = .ok vs
  | [], m, σ => ⟨σ, rfl, Frame.refl m σ, rfl⟩
  | v :: vs, m, σ => by
    obtain ⟨σ', h1, h2, h3⟩ := run_tmps E ht vs (m + 1) (store E σ (.tmp m) v)
    have hl : m + (v :: vs).length = m + 1 + vs.length := by simp only [List.length_cons]; omega
    have ht' : tmps m (v :: vs).length = .tmp m :: tmps (m + 1) vs.length := tmps_succ m vs.length
    rw [hl, ht']
    refine ⟨σ', h1, (frame_store E σ m v).trans (by omega) (by omega) h2, ?_⟩
    have hv : σ' (.tmp m) = v := by
      rw [← h2.belowN (.tmp m) (by simp [belowN])]
      exact store_same E σ _ v (ht m)
    simp only [namesArgs, pyArgs, pyEval, sumNames, List.foldl_nil, hv, h3]

theorem namesArgs_ok (ty : Name → Ty) (ht : ∀ i, ty (.tmp i) = .dbl) : ∀ (k m : Nat),
    safeArgs ty (namesArgs (tmps m k)) = true ∧ noSamplesL (namesArgs (tmps m k)) = true ∧
    (∀ x : String, readsL (.user x) (namesArgs (tmps m k)) = false) ∧
    (∀ xs : List String, noOverlap xs (namesArgs (tmps m k)) = true) ∧ (namesArgs (tmps m k)).length = k
  | 0, m => ⟨rfl, rfl, fun _ => rfl, fun xs => by cases xs <;> rfl, rfl⟩
  | k + 1, m => by
    obtain ⟨h1, h2, h3, h4, h5⟩ := namesArgs_ok ty ht k (m + 1)
    rw [tmps_succ]
    refine ⟨?_, ?_, ?_, ?_, ?_⟩
    · simp [namesArgs, safeArgs, safe, ht, valued, h1]
    · simp [namesArgs, noSamplesL, noSamples, h2]
    · intro x
      simp [namesArgs, readsL, reads, h3]
    · intro xs
      cases xs with
      | nil => rfl
      | cons x xs => simp only [namesArgs, noOverlap, h3, h4, Bool.not_false, Bool.and_self]
    · simp only [namesArgs, PEs.length, h5]

theorem RRel.stuck (ty : Name → Ty) (tail : Bool) (r : Res) : RRel ty tail .stuck r := by
  simp only [RRel]

/-! ### Loops -/

theorem loop_rel (E : Env) (fuel : Nat) (test : PE) (hs : safe E.ty test = true) (hb : below 0 test = true)
    (hn : noSamples test = true) (body : St → Res) (cbody : St → Res)
    (ih : ∀ σ σc, Rel E.ty σ σc → RRel E.ty false (body σ) (cbody σc)) :
    ∀ (n : Nat) (first : Bool) (σ σc : St) (v : ℚ), Rel E.ty σ σc → pyEval E σ test = .ok v → v ≠ 0 →
      RRel E.ty false (pyLoop (fun s => pyEval E s test) body true n first σ)
        (cLoop (fun s => cValue E s (emit test)) cbody n σc)
  | 0, _, _, _, _, _, _, _ => RRel.stuck _ _ _
  | n + 1, first, σ, σc, v, hR, hv, h0 => by
    have hbody := ih σ σc hR
    simp only [pyLoop, cLoop, hv, onVal, if_neg h0]
    cases hp : body σ with
    | stuck => exact RRel.stuck _ _ _
    | brk σ' =>
      rw [hp] at hbody
      cases hc : cbody σc with
      | brk σc' => rw [hc] at hbody; exact hbody
      | next σc' => rw [hc] at hbody; exact hbody.elim
      | ret c σc' => rw [hc] at hbody; exact hbody.elim
      | stuck => rw [hc] at hbody; exact hbody.elim
    | ret c σ' =>
      rw [hp] at hbody
      cases hc : cbody σc with
      | brk σc' => rw [hc] at hbody; exact hbody.elim
      | next σc' => rw [hc] at hbody; exact hbody.elim
      | ret c σc' => rw [hc] at hbody; exact hbody
      | stuck => rw [hc] at hbody; exact hbody.elim
    | next σ' =>
      rw [hp] at hbody
      cases hc : cbody σc with
      | brk σc' => rw [hc] at hbody; exact hbody.elim
      | ret c σc' =>
        rw [hc] at hbody
        exact absurd hbody.1 (by decide)
      | stuck => rw [hc] at hbody; exact hbody.elim
      | next σc' =>
        rw [hc] at hbody
        have hR' : Rel E.ty σ' σc' := hbody
        simp only
        cases n with
        | zero => exact RRel.stuck _ _ _
        | succ n =>
          cases ht : pyEval E σ' test with
          | error x =>
            cases x with
            | samp c => exact absurd ht (noSamp E σ' test c hn)
            | stuck => simp only [pyLoop, ht, onVal]; exact RRel.stuck _ _ _
          | ok v' =>
            have ht' : pyEval E σc' test = .ok v' := by
              rw [← pyEval_below E σ' σc' 0 hR'.agree test hb]; exact ht
            obtain ⟨w, ew, hw0, _⟩ := cValue_emit E σc' hR'.2.1 test v' hs hn ht'
            simp only [ew]
            by_cases hz : v' = 0
            · rw [if_pos (hw0.mpr hz)]
              simp only [pyLoop, ht, onVal, if_pos hz, Bool.and_false, Bool.false_eq_true, if_false]
              exact hR'
            · rw [if_neg (fun h => hz (hw0.mp h))]
              exact loop_rel E fuel test hs hb hn body cbody ih (n + 1) false σ' σc' v' hR' ht hz

theorem RRel.mono {ty : Name → Ty} {tail : Bool} {r rc : Res} (h : RRel ty false r rc) : RRel ty tail r rc := by
  cases r <;> cases rc <;> simp_all [RRel]

mutual
theorem stmt_rel (E : Env) (vd : Nat → Nat) (fuel : Nat) (ht : ∀ i, E.ty (.tmp i) = .dbl) :
    ∀ (s : PS) (tail : Bool) (n : Nat) (σ σc : St), supStmt E.ty vd tail s = true → Rel E.ty σ σc →
    RRel E.ty tail (pyStmt E true fuel s σ) (cList E fuel (code (trStmt vd s (n, [])).1) σc)
  | .assign x e, tail, n, σ, σc, h, hR => by
    simp only [supStmt, Bool.and_eq_true] at h
    obtain ⟨⟨hs, hb⟩, hv⟩ := h
    simp only [pyStmt, trStmt, List.nil_append]
    rw [run_code_hoisted]
    refine rel_expr E fuel ht tail e n σ σc hs hb hR _ _ fun v σ1 hR1 he => ?_
    obtain ⟨s1, s2⟩ := safe_hoist E.ty ht e n hs
    obtain ⟨w, ew, _, vw, _⟩ := cValue_emit E σ1 hR1.2.1 _ v s1 s2 he
    have hc : code [PS.assign x (hoist e n).1] = [.assign (.user x) (emit (hoist e n).1)] := rfl
    rw [hc, cList_single]
    simp only [cStmt, cVal, ew, vw ((valued_hoist e n).trans hv)]
    exact hR1.store x v
  | .tuple xs es, tail, n, σ, σc, h, hR => by
    simp only [supStmt, Bool.and_eq_true, decide_eq_true_eq] at h
    obtain ⟨⟨⟨hs, hb⟩, hl⟩, ho⟩ := h
    simp only [pyStmt, trStmt, List.nil_append]
    rw [run_code_hoisted]
    refine rel_args E fuel ht tail es n σ σc hs hb hR _ _ fun vs σ1 hR1 he => ?_
    obtain ⟨s1, s2⟩ := safeArgs_hoist E.ty ht es n hs
    cases hst : storeAll E σ (xs.map .user) vs with
    | none => exact RRel.stuck _ _ _
    | some σ' =>
      obtain ⟨σc', r, hR'⟩ := run_split E fuel xs _ vs σ σ1 σ' hR1 s1 s2 ((noOverlap_hoist xs es n).trans ho) he hst
      have hc : code [PS.tuple xs (hoistArgs es n).1] = genList (splitZip xs (hoistArgs es n).1) := by
        simp only [code, splitList, splitStmt, hoistArgs_length, if_pos hl, List.append_nil]
      rw [hc, r]
      exact hR'
  | .vec xs f args, tail, n, σ, σc, h, hR => by
    simp only [supStmt, Bool.and_eq_true, decide_eq_true_eq] at h
    obtain ⟨⟨hs, hb⟩, hl⟩ := h
    simp only [pyStmt, trStmt, List.nil_append]
    rw [run_code_hoisted, runH_append]
    have hassoc : ∀ (r : Res) (f g : St → Res), (r.bind f).bind g = r.bind fun s => (f s).bind g := by
      intro r f g; cases r <;> rfl
    rw [hassoc]
    refine rel_args E fuel ht tail args n σ σc hs hb hR _ _ fun as σ1 hR1 he => ?_
    obtain ⟨s1, s2⟩ := safeArgs_hoist E.ty ht args n hs
    have hcv := cVals_emit E σ1 hR1.2.1 _ as s1 s2 he
    simp only [runH, List.map_cons, List.map_nil, genHoist, cList_single, cStmt, hcv]
    cases hf : E.vfield f as with
    | error c => exact ⟨rfl, hR1.1, hR1.2.2⟩
    | ok vs =>
      simp only
      cases hst : storeAll E σ (xs.map .user) vs with
      | none => exact RRel.stuck _ _ _
      | some σ' =>
        have hlen := storeAll_length E _ _ _ _ hst
        rw [List.length_map] at hlen
        have hvd : vs.length = vd f := by omega
        obtain ⟨σ2, g1, g2, g3⟩ := run_tmps E ht vs (hoistArgs args n).2.2 σ1
        rw [hvd] at g1 g2 g3
        obtain ⟨n1, n2, n3, n4, n5⟩ := namesArgs_ok E.ty ht (vd f) (hoistArgs args n).2.2
        obtain ⟨σc', r, hR'⟩ := run_split E fuel xs _ vs σ σ2 σ' (hR1.frame ht g2) n1 n2 (n4 xs) g3 hst
        have hc : code [PS.tuple xs (namesArgs (tmps (hoistArgs args n).2.2 (vd f)))] =
            genList (splitZip xs (namesArgs (tmps (hoistArgs args n).2.2 (vd f)))) := by
          simp only [code, splitList, splitStmt, n5, if_pos hl, List.append_nil]
        simp only [g1, Res.bind]
        rw [hc, r]
        exact hR'
  | .aug x op e, tail, n, σ, σc, h, hR => by
    simp only [supStmt, Bool.and_eq_true, decide_eq_true_eq] at h
    obtain ⟨⟨⟨⟨hs, hb⟩, hv⟩, hm⟩, hd⟩ := h
    simp only [pyStmt, trStmt, List.nil_append]
    rw [run_code_hoisted]
    refine rel_expr E fuel ht tail e n σ σc hs hb hR _ _ fun v σ1 hR1 he => ?_
    obtain ⟨s1, s2⟩ := safe_hoist E.ty ht e n hs
    obtain ⟨w, ew, _, vw, tw⟩ := cValue_emit E σ1 hR1.2.1 _ v s1 s2 he
    have vw' := vw ((valued_hoist e n).trans hv)
    have hc : code [PS.aug x op (hoist e n).1] = [.aug (.user x) op (emit (hoist e n).1)] := rfl
    rw [hc, cList_single]
    simp only [cStmt, cVal, ew]
    cases ha : aop op (σ (.user x)) v with
    | error y =>
      cases y with
      | samp c => exact absurd ha (aop_noSamp op _ _ c)
      | stuck => exact RRel.stuck _ _ _
    | ok q =>
      have hx : (readVar E σ1 (.user x)).q = σ (.user x) := (readVar_q E σ1 hR1.2.1 _).trans (hR1.1 x).symm
      obtain ⟨w', e', q', _⟩ := cArith_q op (readVar E σ1 (.user x)) w q (by rw [hx, vw']; exact ha) hm (by
        intro ho
        rw [readVar_ty, tw, tyOf_hoist]
        exact hd ho)
      simp only [e', onVal, q']
      exact hR1.store x q
  | .ite test body orelse, tail, n, σ, σc, h, hR => by
    simp only [supStmt, Bool.and_eq_true] at h
    obtain ⟨⟨⟨⟨hs, hb⟩, hc⟩, hbody⟩, helse⟩ := h
    have hsimple : simpleSamples test = true := by
      rcases Bool.or_eq_true _ _ |>.mp hc with h1 | h1
      · exact noSamples_simple test h1
      · exact (Bool.and_eq_true _ _ |>.mp h1).1
    have hk := tmpCount_hoist test n hb hsimple
    have htr : trList vd body ((hoist test n).2.2, (hoist test n).2.1) =
        ((hoist test n).2.1.map .hoisted ++ (trList vd body ((hoist test n).2.2, [])).1,
          (trList vd body ((hoist test n).2.2, [])).2) := by
      rcases Bool.or_eq_true _ _ |>.mp hc with h1 | h1
      · simp only [hoist_noSamples test n h1, List.map_nil, List.nil_append]
      · exact trList_starts vd body _ _ (Bool.and_eq_true _ _ |>.mp h1).2
    have hst := list_stack E.ty vd body tail (hoist test n).2.2 hbody
    set b0 := trList vd body ((hoist test n).2.2, []) with hb0
    have hb02 : b0.2 = (b0.2.1, []) := Prod.ext rfl hst
    have hcode : code (trStmt vd (.ite test body orelse) (n, [])).1 =
        [.block [.block ((hoist test n).2.1.map genHoist),
          .ite (emit (hoist test n).1) (code b0.1) (code (trList vd orelse (b0.2.1, [])).1)]] := by
      simp only [trStmt, List.nil_append, htr]
      rw [hb02]
      have hB : genList (splitList ((hoist test n).2.1.map .hoisted ++ b0.1)) = (hoist test n).2.1.map genHoist ++ code b0.1 := by
        have := code_append ((hoist test n).2.1.map .hoisted) b0.1
        rw [code_hoisted] at this
        exact this
      simp only [code, splitList, splitStmt, List.append_nil, genList, gen, hB, hk]
      rw [List.take_left' (by simp), List.drop_left' (by simp)]
    rw [hcode, cList_single]
    simp only [cStmt]
    have hrun : cList E fuel [.block ((hoist test n).2.1.map genHoist),
          .ite (emit (hoist test n).1) (code b0.1) (code (trList vd orelse (b0.2.1, [])).1)] σc =
        (runH E fuel (hoist test n).2.1 σc).bind fun s =>
          cStmt E fuel (.ite (emit (hoist test n).1) (code b0.1) (code (trList vd orelse (b0.2.1, [])).1)) s := by
      rw [cList]
      simp only [cStmt]
      unfold runH
      cases cList E fuel ((hoist test n).2.1.map genHoist) σc with
      | next s => 
        simp only [Res.bind]
        exact cList_single E fuel _ s
      | _ => rfl
    rw [hrun]
    simp only [pyStmt]
    refine rel_expr E fuel ht tail test n σ σc hs hb hR _ _ fun v σ1 hR1 he => ?_
    obtain ⟨s1, s2⟩ := safe_hoist E.ty ht test n hs
    obtain ⟨w, ew, hw0, _⟩ := cValue_emit E σ1 hR1.2.1 _ v s1 s2 he
    simp only [cStmt, cVal, ew]
    by_cases hz : v = 0
    · rw [if_pos hz, if_pos (hw0.mpr hz)]
      exact list_rel E vd fuel ht orelse tail b0.2.1 σ σ1 helse hR1
    · rw [if_neg hz, if_neg fun h => hz (hw0.mp h)]
      exact list_rel E vd fuel ht body tail (hoist test n).2.2 σ σ1 hbody hR1
  | .whl test body, tail, n, σ, σc, h, hR => by
    simp only [supStmt, Bool.and_eq_true] at h
    obtain ⟨⟨⟨hs, hb⟩, hn⟩, hbody⟩ := h
    have hcode : code (trStmt vd (.whl test body) (n, [])).1 = [.doWhile (code (trList vd body (n, [])).1) (emit test)] := by
      simp only [trStmt, List.nil_append, hoist_noSamples test n hn]
      rfl
    rw [hcode, cList_single]
    simp only [cStmt, pyStmt]
    have ih := fun σ σc hR => list_rel E vd fuel ht body false n σ σc hbody hR
    cases ht' : pyEval E σ test with
    | error x =>
      cases fuel with
      | zero => exact RRel.stuck _ _ _
      | succ m =>
        cases x with
        | samp c => exact absurd ht' (noSamp E σ test c hn)
        | stuck => simp only [pyLoop, ht', onVal]; exact RRel.stuck _ _ _
    | ok v =>
      by_cases hz : v = 0
      · cases fuel with
        | zero => exact RRel.stuck _ _ _
        | succ m =>
          simp only [pyLoop, ht', onVal, if_pos hz, Bool.and_self, if_true]
          exact RRel.stuck _ _ _
      · exact (loop_rel E fuel test hs hb hn _ _ ih fuel true σ σc v hR ht' hz).mono
  | .ret e, tail, n, σ, σc, h, hR => by
    simp only [supStmt, Bool.and_eq_true] at h
    obtain ⟨⟨⟨hs, hb⟩, hv⟩, hn⟩ := h
    have hcode : code (trStmt vd (.ret e) (n, [])).1 = [.ret (emit e)] := by
      simp only [trStmt, List.nil_append, hoist_noSamples e n hn]
      rfl
    rw [hcode, cList_single]
    simp only [pyStmt, cStmt]
    cases he : pyEval E σ e with
    | error x =>
      cases x with
      | samp c => exact absurd he (noSamp E σ e c hn)
      | stuck => exact RRel.stuck _ _ _
    | ok v =>
      have he' : pyEval E σc e = .ok v := by
        rw [← pyEval_below E σ σc 0 hR.agree e hb]; exact he
      obtain ⟨w, ew, _, vw, _⟩ := cValue_emit E σc hR.2.1 e v hs hn he'
      simp only [cVal, ew, onVal, vw hv]
      exact ⟨rfl, hR.1, hR.2.2⟩
  | .delete, tail, n, σ, σc, h, hR => by
    simp only [supStmt] at h
    have hcode : code (trStmt vd .delete (n, [])).1 = [.retDelete] := rfl
    rw [hcode, cList_single]
    simp only [pyStmt, cStmt]
    refine ⟨h, rfl, fun s => hR.1 s, ?_⟩
    simp [markDeleted]
  | .brk, tail, n, σ, σc, h, hR => by
    have hcode : code (trStmt vd .brk (n, [])).1 = [.brk] := rfl
    rw [hcode, cList_single]
    simp only [pyStmt, cStmt]
    exact hR
  | .pass, tail, n, σ, σc, h, hR => by
    have hcode : code (trStmt vd .pass (n, [])).1 = [.empty] := rfl
    rw [hcode, cList_single]
    simp only [pyStmt, cStmt]
    exact hR
  | .hoisted _, _, _, _, _, h, _ => by simp [supStmt] at h

theorem list_rel (E : Env) (vd : Nat → Nat) (fuel : Nat) (ht : ∀ i, E.ty (.tmp i) = .dbl) :
    ∀ (l : List PS) (tail : Bool) (n : Nat) (σ σc : St), supList E.ty vd tail l = true → Rel E.ty σ σc →
    RRel E.ty tail (pyList E true fuel l σ) (cList E fuel (code (trList vd l (n, [])).1) σc)
  | [], tail, n, σ, σc, _, hR => by
    have hcode : code (trList vd [] (n, [])).1 = [] := rfl
    rw [hcode]
    simp only [pyList, cList]
    exact hR
  | s :: rest, tail, n, σ, σc, h, hR => by
    simp only [supList, Bool.and_eq_true] at h
    have h1 := stmt_rel E vd fuel ht s _ n σ σc h.1 hR
    have hst := stmt_stack E.ty vd s _ n h.1
    have h2 : (trStmt vd s (n, [])).2 = ((trStmt vd s (n, [])).2.1, []) := Prod.ext rfl hst
    simp only [trList]
    rw [h2, code_append, cList_append]
    simp only [pyList]
    cases hp : pyStmt E true fuel s σ with
    | stuck => exact RRel.stuck _ _ _
    | brk σ' =>
      rw [hp] at h1
      cases hc : cList E fuel (code (trStmt vd s (n, [])).1) σc with
      | brk σc' => rw [hc] at h1; exact h1
      | next σc' => rw [hc] at h1; exact h1.elim
      | ret c σc' => rw [hc] at h1; exact h1.elim
      | stuck => rw [hc] at h1; exact h1.elim
    | ret c σ' =>
      rw [hp] at h1
      cases hc : cList E fuel (code (trStmt vd s (n, [])).1) σc with
      | brk σc' => rw [hc] at h1; exact h1.elim
      | next σc' => rw [hc] at h1; exact h1.elim
      | ret c σc' => rw [hc] at h1; exact h1
      | stuck => rw [hc] at h1; exact h1.elim
    | next σ' =>
      rw [hp] at h1
      cases hc : cList E fuel (code (trStmt vd s (n, [])).1) σc with
      | brk σc' => rw [hc] at h1; exact h1.elim
      | stuck => rw [hc] at h1; exact h1.elim
      | next σc' =>
        rw [hc] at h1
        exact list_rel E vd fuel ht rest tail _ σ' σc' h.2 h1
      | ret c σc' =>
        rw [hc] at h1
        obtain ⟨g1, g2, g3, g4⟩ := h1
        simp only [Bool.and_eq_true, List.isEmpty_iff] at g1
        obtain ⟨g1, rfl⟩ := g1
        simp only [pyList, Res.bind]
        exact ⟨g1, g2, g3, g4⟩
end

theorem kernel_rel (E : Env) (vd : Nat → Nat) (fuel : Nat) (ht : ∀ i, E.ty (.tmp i) = .dbl) (p : List PS) (σ σc : St)
    (hp : Supported E.ty vd p) (hv : SameVars σ σc) (hw : WellTyped E.ty σc) (hd : σ .deleted = 0) (c : ℚ) (σ' : St)
    (h : pyKernel E true fuel p σ = some (c, σ')) :
    ∃ σc', cKernel E fuel (compile vd p) σc = some (c, σc') ∧ SameVars σ' σc' := by
  have h1 := list_rel E vd fuel ht p true 0 σ σc hp ⟨hv, hw, hd⟩
  have hcode : code (trList vd p (0, [])).1 = compile vd p := rfl
  rw [hcode] at h1
  unfold pyKernel at h
  unfold cKernel
  cases hr : pyList E true fuel p σ with
  | stuck => rw [hr] at h; cases h
  | brk s => rw [hr] at h; cases h
  | next s =>
    rw [hr] at h h1
    obtain ⟨rfl, rfl⟩ := Prod.mk.inj (Option.some.inj h)
    cases hc : cList E fuel (compile vd p) σc with
    | next s' =>
      rw [hc] at h1
      refine ⟨s', ?_, h1.1⟩
      rw [if_pos h1.2.2]
    | ret c s' =>
      rw [hc] at h1
      obtain ⟨_, rfl, g3, g4⟩ := h1
      refine ⟨s', ?_, g3⟩
      rw [if_neg g4]
    | brk s' => rw [hc] at h1; exact h1.elim
    | stuck => rw [hc] at h1; exact h1.elim
  | ret c0 s =>
    rw [hr] at h h1
    obtain ⟨rfl, rfl⟩ := Prod.mk.inj (Option.some.inj h)
    cases hc : cList E fuel (compile vd p) σc with
    | next s' => rw [hc] at h1; exact h1.elim
    | ret c s' =>
      rw [hc] at h1
      obtain ⟨rfl, g3, _⟩ := h1
      exact ⟨s', rfl, g3⟩
    | brk s' => rw [hc] at h1; exact h1.elim
    | stuck => rw [hc] at h1; exact h1.elim

/-! ### The strict reading of loops -/

theorem loop_strict (test : St → Except PErr ℚ) (body body' : St → Res)
    (hb : ∀ σ, body σ ≠ .stuck → body' σ = body σ) : ∀ (n : Nat) (first : Bool) (σ : St),
    pyLoop test body true n first σ ≠ .stuck → pyLoop test body' false n first σ = pyLoop test body true n first σ
  | 0, _, _, h => absurd rfl h
  | n + 1, first, σ, h => by
    simp only [pyLoop] at h ⊢
    cases ht : test σ with
    | error x => cases x <;> rfl
    | ok v =>
      rw [ht] at h
      simp only [onVal] at h ⊢
      by_cases hz : v = 0
      · rw [if_pos hz] at h
        simp only [if_pos hz]
        cases first with
        | true => simp at h
        | false => rfl
      · rw [if_neg hz] at h
        simp only [if_neg hz]
        cases hr : body σ with
        | stuck => rw [hr] at h; exact absurd rfl h
        | brk s => rw [hb σ (by rw [hr]; simp), hr]
        | ret c s => rw [hb σ (by rw [hr]; simp), hr]
        | next s =>
          rw [hr] at h
          rw [hb σ (by rw [hr]; simp), hr]
          exact loop_strict test body body' hb n false s h

mutual
theorem stmt_strict (E : Env) (fuel : Nat) : ∀ (s : PS) (σ : St), pyStmt E true fuel s σ ≠ .stuck →
    pyStmt E false fuel s σ = pyStmt E true fuel s σ
  | .assign _ _, _, _ => by simp only [pyStmt]
  | .tuple _ _, _, _ => by simp only [pyStmt]
  | .vec _ _ _, _, _ => by simp only [pyStmt]
  | .aug _ _ _, _, _ => by simp only [pyStmt]
  | .ite t b o, σ, h => by
    simp only [pyStmt] at h ⊢
    cases ht : pyEval E σ t with
    | error x => cases x <;> rfl
    | ok v =>
      rw [ht] at h
      simp only [onVal] at h ⊢
      by_cases hz : v = 0
      · rw [if_pos hz] at h
        simp only [if_pos hz]
        exact list_strict E fuel o σ h
      · rw [if_neg hz] at h
        simp only [if_neg hz]
        exact list_strict E fuel b σ h
  | .whl t b, σ, h => by
    simp only [pyStmt] at h ⊢
    exact loop_strict _ _ _ (fun σ hσ => list_strict E fuel b σ hσ) fuel true σ h
  | .ret _, _, _ => by simp only [pyStmt]
  | .delete, _, _ => by simp only [pyStmt]
  | .brk, _, _ => by simp only [pyStmt]
  | .pass, _, _ => by simp only [pyStmt]
  | .hoisted _, _, _ => by simp only [pyStmt]

theorem list_strict (E : Env) (fuel : Nat) : ∀ (l : List PS) (σ : St), pyList E true fuel l σ ≠ .stuck →
    pyList E false fuel l σ = pyList E true fuel l σ
  | [], _, _ => by simp only [pyList]
  | s :: rest, σ, h => by
    simp only [pyList] at h ⊢
    cases hr : pyStmt E true fuel s σ with
    | stuck => rw [hr] at h; exact absurd rfl h
    | brk s' => rw [stmt_strict E fuel s σ (by rw [hr]; simp), hr]
    | ret c s' => rw [stmt_strict E fuel s σ (by rw [hr]; simp), hr]
    | next s' =>
      rw [hr] at h
      rw [stmt_strict E fuel s σ (by rw [hr]; simp), hr]
      exact list_strict E fuel rest s' h
end

mutual
theorem stmt_noWhile (E : Env) (fuel : Nat) : ∀ (s : PS) (σ : St), noWhileS s = true →
    pyStmt E true fuel s σ = pyStmt E false fuel s σ
  | .assign _ _, _, _ => by simp only [pyStmt]
  | .tuple _ _, _, _ => by simp only [pyStmt]
  | .vec _ _ _, _, _ => by simp only [pyStmt]
  | .aug _ _ _, _, _ => by simp only [pyStmt]
  | .ite t b o, σ, h => by
    simp only [noWhileS, Bool.and_eq_true] at h
    simp only [pyStmt]
    rw [list_noWhile E fuel b σ h.1, list_noWhile E fuel o σ h.2]
  | .whl t b, σ, h => by simp [noWhileS] at h
  | .ret _, _, _ => by simp only [pyStmt]
  | .delete, _, _ => by simp only [pyStmt]
  | .brk, _, _ => by simp only [pyStmt]
  | .pass, _, _ => by simp only [pyStmt]
  | .hoisted _, _, _ => by simp only [pyStmt]

theorem list_noWhile (E : Env) (fuel : Nat) : ∀ (l : List PS) (σ : St), noWhile l = true →
    pyList E true fuel l σ = pyList E false fuel l σ
  | [], _, _ => by simp only [pyList]
  | s :: rest, σ, h => by
    simp only [noWhile, Bool.and_eq_true] at h
    simp only [pyList]
    rw [stmt_noWhile E fuel s σ h.1]
    cases pyStmt E false fuel s σ with
    | next s' => exact list_noWhile E fuel rest s' h.2
    | _ => rfl
end

end Parcels.Codegen
