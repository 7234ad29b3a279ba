import Verif.Proofs.CodegenHoist

/-!
Running the field evaluations taken out of an expression.
-/

namespace Parcels.Codegen

/-- Continue after a normal end. -/
def Res.bind (r : Res) (k : St → Res) : Res :=
  match r with
  | .next σ => k σ
  | r => r

theorem cList_append (E : Env) (fuel : Nat) : ∀ (a b : List CS) (σ : St),
    cList E fuel (a ++ b) σ = (cList E fuel a σ).bind (cList E fuel b)
  | [], b, σ => by simp only [List.nil_append, cList, Res.bind]
  | s :: a, b, σ => by
    simp only [List.cons_append, cList]
    cases cStmt E fuel s σ with
    | next σ' => exact cList_append E fuel a b σ'
    | _ => rfl

theorem cList_single (E : Env) (fuel : Nat) (s : CS) (σ : St) : cList E fuel [s] σ = cStmt E fuel s σ := by
  simp only [cList]
  cases cStmt E fuel s σ <;> rfl

/-- Only temporaries with numbers from `n` up to `n'` differ. -/
def Frame (n n' : Nat) (σ σ' : St) : Prop := ∀ x, (∃ i, x = .tmp i ∧ n ≤ i ∧ i < n') ∨ σ' x = σ x

theorem Frame.refl (n : Nat) (σ : St) : Frame n n σ σ := fun _ => .inr rfl

theorem Frame.trans {n n1 n2 : Nat} {σ σ1 σ2 : St} (h1 : n ≤ n1) (h2 : n1 ≤ n2) (a : Frame n n1 σ σ1) (b : Frame n1 n2 σ1 σ2) :
    Frame n n2 σ σ2 := by
  intro x
  rcases a x with ⟨i, rfl, hi, hi'⟩ | ha
  · exact .inl ⟨i, rfl, hi, by omega⟩
  · rcases b x with ⟨i, rfl, hi, hi'⟩ | hb
    · exact .inl ⟨i, rfl, by omega, hi'⟩
    · exact .inr (hb.trans ha)

theorem Frame.mono {n n1 n2 : Nat} {σ σ1 : St} (h2 : n1 ≤ n2) (a : Frame n n1 σ σ1) : Frame n n2 σ σ1 := by
  intro x
  rcases a x with ⟨i, rfl, hi, hi'⟩ | ha
  · exact .inl ⟨i, rfl, hi, by omega⟩
  · exact .inr ha

theorem Frame.belowN {n n' : Nat} {σ σ' : St} (a : Frame n n' σ σ') : ∀ x, Codegen.belowN n x = true → σ x = σ' x := by
  intro x hx
  rcases a x with ⟨i, rfl, hi, hi'⟩ | ha
  · simp only [Codegen.belowN, decide_eq_true_eq] at hx; omega
  · exact ha.symm

theorem Frame.user {n n' : Nat} {σ σ' : St} (a : Frame n n' σ σ') (s : String) : σ' (.user s) = σ (.user s) := by
  rcases a (.user s) with ⟨i, h, _⟩ | h
  · cases h
  · exact h

theorem Frame.wellTyped {n n' : Nat} {σ σ' : St} (a : Frame n n' σ σ') {ty : Name → Ty} (ht : ∀ i, ty (.tmp i) = .dbl)
    (hw : WellTyped ty σ) : WellTyped ty σ' := by
  intro x hx
  rcases a x with ⟨i, rfl, _⟩ | h
  · rw [ht] at hx; cases hx
  · rw [h]; exact hw x hx

theorem Frame.eval {n n' : Nat} {σ σ' : St} (a : Frame n n' σ σ') (E : Env) (e : PE) (h : below n e = true) :
    pyEval E σ' e = pyEval E σ e :=
  (pyEval_below E σ σ' n a.belowN e h).symm

theorem Frame.eval0 {n n' : Nat} {σ σ' : St} (a : Frame n n' σ σ') (E : Env) (e : PE) (h : below 0 e = true) :
    pyEval E σ' e = pyEval E σ e := a.eval E e (below_mono (Nat.zero_le _) e h)

theorem Frame.bool0 {n n' : Nat} {σ σ' : St} (a : Frame n n' σ σ') (E : Env) (es : PEs) (i : Bool) (q : ℚ) (h : belowL 0 es = true) :
    pyBool E σ' i q es = pyBool E σ i q es :=
  (pyBool_below E σ σ' n a.belowN es i q (belowL_mono (Nat.zero_le _) es h)).symm

theorem Frame.args {n n' : Nat} {σ σ' : St} (a : Frame n n' σ σ') (E : Env) (es : PEs) (h : belowL n es = true) :
    pyArgs E σ' es = pyArgs E σ es :=
  (pyArgs_below E σ σ' n a.belowN es h).symm

theorem Frame.args0 {n n' : Nat} {σ σ' : St} (a : Frame n n' σ σ') (E : Env) (es : PEs) (h : belowL 0 es = true) :
    pyArgs E σ' es = pyArgs E σ es := a.args E es (belowL_mono (Nat.zero_le _) es h)

def runH (E : Env) (fuel : Nat) (hs : List Hoist) (σ : St) : Res := cList E fuel (hs.map genHoist) σ

theorem runH_append (E : Env) (fuel : Nat) (a b : List Hoist) (σ : St) :
    runH E fuel (a ++ b) σ = (runH E fuel a σ).bind (runH E fuel b) := by
  unfold runH
  rw [List.map_append]
  exact cList_append E fuel _ _ σ

theorem runH_nil (E : Env) (fuel : Nat) (σ : St) : runH E fuel [] σ = .next σ := by simp only [runH, List.map_nil, cList]

/-- The evaluations end with an error, with the code of the sample. -/
def Fails (E : Env) (fuel : Nat) (hs : List Hoist) (n n' c : Nat) (σ : St) : Prop :=
  ∃ σ', runH E fuel hs σ = .ret c σ' ∧ Frame n n' σ σ'

/-- What running the evaluations of an expression does. -/
def Ran (E : Env) (fuel : Nat) (e : PE) (n : Nat) (σ : St) : Prop :=
  (∀ v, pyEval E σ e = .ok v → ∃ σ', runH E fuel (hoist e n).2.1 σ = .next σ' ∧ Frame n (hoist e n).2.2 σ σ' ∧
    pyEval E σ' (hoist e n).1 = .ok v) ∧
  ∀ c, pyEval E σ e = .error (.samp c) → Fails E fuel (hoist e n).2.1 n (hoist e n).2.2 c σ

def RanArgs (E : Env) (fuel : Nat) (es : PEs) (n : Nat) (σ : St) : Prop :=
  (∀ vs, pyArgs E σ es = .ok vs → ∃ σ', runH E fuel (hoistArgs es n).2.1 σ = .next σ' ∧ Frame n (hoistArgs es n).2.2 σ σ' ∧
    pyArgs E σ' (hoistArgs es n).1 = .ok vs) ∧
  ∀ c, pyArgs E σ es = .error (.samp c) → Fails E fuel (hoistArgs es n).2.1 n (hoistArgs es n).2.2 c σ

theorem Fails.left {E : Env} {fuel : Nat} {a : List Hoist} {n n1 n2 c : Nat} {σ : St} (h : Fails E fuel a n n1 c σ)
    (h2 : n1 ≤ n2) (b : List Hoist) : Fails E fuel (a ++ b) n n2 c σ := by
  obtain ⟨σ', h1, hf⟩ := h
  refine ⟨σ', ?_, hf.mono h2⟩
  rw [runH_append, h1]
  rfl

theorem Fails.right {E : Env} {fuel : Nat} {a b : List Hoist} {n n1 n2 c : Nat} {σ σ1 : St} (hl : n ≤ n1) (hl' : n1 ≤ n2)
    (ha : runH E fuel a σ = .next σ1) (hf : Frame n n1 σ σ1) (h : Fails E fuel b n1 n2 c σ1) :
    Fails E fuel (a ++ b) n n2 c σ := by
  obtain ⟨σ', h1, hf'⟩ := h
  refine ⟨σ', ?_, hf.trans hl hl' hf'⟩
  rw [runH_append, ha]
  exact h1

theorem Ran.plain (E : Env) (fuel : Nat) (e : PE) (n : Nat) (σ : St) (h : noSamples e = true)
    (he : ∀ c, pyEval E σ e ≠ .error (.samp c)) : Ran E fuel e n σ := by
  unfold Ran
  rw [hoist_noSamples e n h]
  exact ⟨fun v hv => ⟨σ, runH_nil E fuel σ, Frame.refl n σ, hv⟩, fun c hc => absurd hc (he c)⟩

/-- Two operands. -/
theorem run2 (E : Env) (fuel : Nat) (ht : ∀ i, E.ty (.tmp i) = .dbl) (l r : PE) (n : Nat) (σ : St) (hw : WellTyped E.ty σ)
    (bl : below 0 l = true) (br : below 0 r = true) (hl : Ran E fuel l n σ)
    (hr : ∀ σ1, WellTyped E.ty σ1 → Ran E fuel r (hoist l n).2.2 σ1) :
    (∀ a b, pyEval E σ l = .ok a → pyEval E σ r = .ok b → ∃ σ',
      runH E fuel ((hoist l n).2.1 ++ (hoist r (hoist l n).2.2).2.1) σ = .next σ' ∧
      Frame n (hoist r (hoist l n).2.2).2.2 σ σ' ∧ pyEval E σ' (hoist l n).1 = .ok a ∧
      pyEval E σ' (hoist r (hoist l n).2.2).1 = .ok b) ∧
    (∀ c, pyEval E σ l = .error (.samp c) →
      Fails E fuel ((hoist l n).2.1 ++ (hoist r (hoist l n).2.2).2.1) n (hoist r (hoist l n).2.2).2.2 c σ) ∧
    (∀ a c, pyEval E σ l = .ok a → pyEval E σ r = .error (.samp c) →
      Fails E fuel ((hoist l n).2.1 ++ (hoist r (hoist l n).2.2).2.1) n (hoist r (hoist l n).2.2).2.2 c σ) := by
  have l1 := hoist_le l n
  have l2 := hoist_le r (hoist l n).2.2
  refine ⟨?_, ?_, ?_⟩
  · intro a b ha hb
    obtain ⟨σ1, r1, f1, e1⟩ := hl.1 a ha
    obtain ⟨σ2, r2, f2, e2⟩ := (hr σ1 (f1.wellTyped ht hw)).1 b ((f1.eval0 E r br).trans hb)
    refine ⟨σ2, ?_, f1.trans l1 l2 f2, ?_, e2⟩
    · rw [runH_append, r1]; exact r2
    · rw [f2.eval E _ (below_hoist l n bl)]; exact e1
  · intro c hc
    exact (hl.2 c hc).left l2 _
  · intro a c ha hc
    obtain ⟨σ1, r1, f1, e1⟩ := hl.1 a ha
    exact Fails.right l1 l2 r1 f1 ((hr σ1 (f1.wellTyped ht hw)).2 c ((f1.eval0 E r br).trans hc))

theorem store_same (E : Env) (σ : St) (x : Name) (v : ℚ) (h : E.ty x = .dbl) : store E σ x v x = v := by
  simp [store, h]

theorem store_other (E : Env) (σ : St) (x y : Name) (v : ℚ) (h : y ≠ x) : store E σ x v y = σ y := by
  simp [store, h]

theorem frame_store (E : Env) (σ : St) (i : Nat) (v : ℚ) : Frame i (i + 1) σ (store E σ (.tmp i) v) := by
  intro x
  by_cases h : x = .tmp i
  · exact .inl ⟨i, h, le_refl _, by omega⟩
  · exact .inr (store_other E σ _ _ v h)

/-- Evaluation of the fields of a sum. -/
theorem run_fields (E : Env) (ht : ∀ i, E.ty (.tmp i) = .dbl) (as : List ℚ) : ∀ (fs : List Nat) (i : Nat) (acc : ℚ) (σ : St),
    (∀ v, sampleSum E as fs acc = .ok v → ∃ σ', cEvalFields E as (tmps i fs.length) fs σ = .next σ' ∧
      Frame i (i + fs.length) σ σ' ∧ (tmps i fs.length).foldl (fun s y => s + σ' y) acc = v) ∧
    ∀ c, sampleSum E as fs acc = .error (.samp c) → ∃ σ', cEvalFields E as (tmps i fs.length) fs σ = .ret c σ' ∧
      Frame i (i + fs.length) σ σ'
  | [], i, acc, σ => by
    constructor
    · intro v hv
      rw [sampleSum] at hv
      exact ⟨σ, rfl, Frame.refl i σ, Except.ok.inj hv⟩
    · intro c hc
      rw [sampleSum] at hc
      cases hc
  | f :: fs, i, acc, σ => by
    have hlen : i + (f :: fs).length = i + 1 + fs.length := by simp only [List.length_cons]; omega
    have ht' : tmps i (f :: fs).length = .tmp i :: tmps (i + 1) fs.length := tmps_succ i fs.length
    rw [hlen, ht']
    simp only [sampleSum, sampleOne, cEvalFields]
    cases hf : E.field f as with
    | error c =>
      simp only
      constructor
      · intro v hv; cases hv
      · intro c' hc'
        obtain rfl := PErr.samp.inj (Except.error.inj hc')
        exact ⟨σ, rfl, (Frame.refl i σ).mono (by omega)⟩
    | ok q =>
      simp only
      obtain ⟨h1, h2⟩ := run_fields E ht as fs (i + 1) (acc + q) (store E σ (.tmp i) q)
      have hfr := frame_store E σ i q
      constructor
      · intro v hv
        obtain ⟨σ', r, f', e⟩ := h1 v hv
        refine ⟨σ', r, hfr.trans (by omega) (by omega) f', ?_⟩
        rw [List.foldl_cons]
        have : σ' (.tmp i) = q := by
          rw [← f'.belowN (.tmp i) (by simp [belowN])]
          exact store_same E σ _ q (ht i)
        rw [this]
        exact e
      · intro c hc
        obtain ⟨σ', r, f'⟩ := h2 c hc
        exact ⟨σ', r, hfr.trans (by omega) (by omega) f'⟩

/-- The texts of arguments have the values of the arguments. -/
theorem cVals_emit (E : Env) (σ : St) (hw : WellTyped E.ty σ) : ∀ (es : PEs) (qs : List ℚ), safeArgs E.ty es = true →
    noSamplesL es = true → pyArgs E σ es = .ok qs → cVals E σ (emitEach es) = some qs
  | .nil, qs, _, _, h => by
    rw [pyArgs] at h
    rw [← Except.ok.inj h]
    rfl
  | .cons e es, qs, hs, hn, h => by
    simp only [safeArgs, noSamplesL, Bool.and_eq_true] at hs hn
    rw [pyArgs] at h
    cases h1 : pyEval E σ e with
    | error x => rw [h1] at h; cases h
    | ok a =>
      rw [h1] at h
      cases h2 : pyArgs E σ es with
      | error x => rw [h2] at h; cases h
      | ok as =>
        rw [h2] at h
        rw [← Except.ok.inj h]
        obtain ⟨w, ew, _, vw, _⟩ := cValue_emit E σ hw e a hs.1.1 hn.1 h1
        simp only [emitEach, cVals, ew, cVals_emit E σ hw es as hs.2 hn.2 h2, Option.map_some, vw hs.1.2]

mutual
/-- Sample-free expressions do not fail with the error of a sample. -/
theorem noSamp (E : Env) (σ : St) : ∀ (e : PE) (c : Nat), noSamples e = true → pyEval E σ e ≠ .error (.samp c)
  | .int _, _, _ => by simp [pyEval]
  | .flt _, _, _ => by simp [pyEval]
  | .var _, _, _ => by simp [pyEval]
  | .names _ _, _, _ => by simp [pyEval]
  | .bin op l r, c, h => by
    simp only [noSamples, Bool.and_eq_true] at h
    have hl := noSamp E σ l c h.1
    have hr := noSamp E σ r c h.2
    simp only [pyEval]
    cases hqhl : pyEval E σ l with
    | error x => rw [hqhl] at hl; simpa using hl
    | ok a =>
      cases hqhr : pyEval E σ r with
      | error x => rw [hqhr] at hr; simpa using hr
      | ok b => cases op <;> simp only [aop] <;> (try split) <;> simp
  | .pow l r, c, h => by
    simp only [noSamples, Bool.and_eq_true] at h
    have hl := noSamp E σ l c h.1
    have hr := noSamp E σ r c h.2
    simp only [pyEval]
    cases hqhl : pyEval E σ l with
    | error x => rw [hqhl] at hl; simpa using hl
    | ok a =>
      cases hqhr : pyEval E σ r with
      | error x => rw [hqhr] at hr; simpa using hr
      | ok b => simp only; split <;> simp
  | .una _ e, c, h => by
    simp only [noSamples] at h
    have hl := noSamp E σ e c h
    simp only [pyEval]
    cases hqhl : pyEval E σ e with
    | error x => rw [hqhl] at hl; simpa using hl
    | ok a => simp
  | .cmp _ l r, c, h => by
    simp only [noSamples, Bool.and_eq_true] at h
    have hl := noSamp E σ l c h.1
    have hr := noSamp E σ r c h.2
    simp only [pyEval]
    cases hqhl : pyEval E σ l with
    | error x => rw [hqhl] at hl; simpa using hl
    | ok a =>
      cases hqhr : pyEval E σ r with
      | error x => rw [hqhr] at hr; simpa using hr
      | ok b => simp
  | .bool i f r, c, h => by
    simp only [noSamples, Bool.and_eq_true] at h
    have hl := noSamp E σ f c h.1
    simp only [pyEval]
    cases hqhl : pyEval E σ f with
    | error x => rw [hqhl] at hl; simpa using hl
    | ok a => exact noSampBool E σ r i a c h.2
  | .call _ as, c, h => by
    simp only [noSamples] at h
    have hl := noSampArgs E σ as c h
    simp only [pyEval]
    cases hqhl : pyArgs E σ as with
    | error x => rw [hqhl] at hl; simpa using hl
    | ok a => simp only; split <;> simp
  | .sample _ _ _, _, h => by simp [noSamples] at h

theorem noSampBool (E : Env) (σ : St) : ∀ (es : PEs) (i : Bool) (a : ℚ) (c : Nat), noSamplesL es = true →
    pyBool E σ i a es ≠ .error (.samp c)
  | .nil, _, _, _, _ => by simp [pyBool]
  | .cons e es, i, a, c, h => by
    simp only [noSamplesL, Bool.and_eq_true] at h
    have hl := noSamp E σ e c h.1
    simp only [pyBool]
    split
    · simp
    · cases hqhl : pyEval E σ e with
      | error x => rw [hqhl] at hl; simpa using hl
      | ok b => exact noSampBool E σ es i b c h.2

theorem noSampArgs (E : Env) (σ : St) : ∀ (es : PEs) (c : Nat), noSamplesL es = true → pyArgs E σ es ≠ .error (.samp c)
  | .nil, _, _ => by simp [pyArgs]
  | .cons e es, c, h => by
    simp only [noSamplesL, Bool.and_eq_true] at h
    have hl := noSamp E σ e c h.1
    have hr := noSampArgs E σ es c h.2
    simp only [pyArgs]
    cases hqhl : pyEval E σ e with
    | error x => rw [hqhl] at hl; simpa using hl
    | ok a =>
      cases hqhr : pyArgs E σ es with
      | error x => rw [hqhr] at hr; simpa using hr
      | ok b => simp
end

theorem aop_noSamp (op : AOp) (a b : ℚ) (c : Nat) : aop op a b ≠ .error (.samp c) := by
  cases op <;> simp only [aop] <;> (try split) <;> simp

mutual
theorem hoist_run (E : Env) (fuel : Nat) (ht : ∀ i, E.ty (.tmp i) = .dbl) : ∀ (e : PE) (n : Nat) (σ : St), WellTyped E.ty σ →
    safe E.ty e = true → below 0 e = true → Ran E fuel e n σ
  | .int _, n, σ, _, _, _ => Ran.plain E fuel _ n σ rfl (by simp [pyEval])
  | .flt _, n, σ, _, _, _ => Ran.plain E fuel _ n σ rfl (by simp [pyEval])
  | .var _, n, σ, _, _, _ => Ran.plain E fuel _ n σ rfl (by simp [pyEval])
  | .names _ _, n, σ, _, _, _ => Ran.plain E fuel _ n σ rfl (by simp [pyEval])
  | .bin op l r, n, σ, hw, hs, hb => by
    simp only [safe, below, Bool.and_eq_true] at hs hb
    obtain ⟨⟨⟨⟨⟨⟨⟨hl, hr⟩, _⟩, _⟩, _⟩, _⟩, _⟩, _⟩ := hs
    obtain ⟨h1, h2, h3⟩ := run2 E fuel ht l r n σ hw hb.1 hb.2 (hoist_run E fuel ht l n σ hw hl hb.1)
      fun σ1 hw1 => hoist_run E fuel ht r _ σ1 hw1 hr hb.2
    unfold Ran
    simp only [hoist, pyEval]
    cases hl' : pyEval E σ l with
    | error x =>
      refine ⟨fun v hv => by (cases hv), fun c hc => h2 c ?_⟩
      rw [hl']; exact hc
    | ok a =>
      cases hr' : pyEval E σ r with
      | error x =>
        refine ⟨fun v hv => by (cases hv), fun c hc => h3 a c hl' ?_⟩
        rw [hr']; exact hc
      | ok b =>
        simp only
        obtain ⟨σ', r', f', ea, eb⟩ := h1 a b hl' hr'
        refine ⟨fun v hv => ⟨σ', r', f', ?_⟩, fun c hc => absurd hc (aop_noSamp op a b c)⟩
        rw [ea, eb]; exact hv
  | .pow l r, n, σ, hw, hs, hb => by
    simp only [safe, below, Bool.and_eq_true] at hs hb
    obtain ⟨⟨⟨hl, hr⟩, _⟩, _⟩ := hs
    obtain ⟨h1, h2, h3⟩ := run2 E fuel ht l r n σ hw hb.1 hb.2 (hoist_run E fuel ht l n σ hw hl hb.1)
      fun σ1 hw1 => hoist_run E fuel ht r _ σ1 hw1 hr hb.2
    unfold Ran
    simp only [hoist, pyEval]
    cases hl' : pyEval E σ l with
    | error x =>
      refine ⟨fun v hv => by (cases hv), fun c hc => h2 c ?_⟩
      rw [hl']; exact hc
    | ok a =>
      cases hr' : pyEval E σ r with
      | error x =>
        refine ⟨fun v hv => by (cases hv), fun c hc => h3 a c hl' ?_⟩
        rw [hr']; exact hc
      | ok b =>
        simp only
        obtain ⟨σ', r', f', ea, eb⟩ := h1 a b hl' hr'
        refine ⟨fun v hv => ⟨σ', r', f', ?_⟩, fun c hc => ?_⟩
        · rw [ea, eb]; exact hv
        · split at hc <;> simp at hc
  | .una op e, n, σ, hw, hs, hb => by
    simp only [safe, below, Bool.and_eq_true] at hs hb
    obtain ⟨h1, h2⟩ := hoist_run E fuel ht e n σ hw hs.1 hb
    unfold Ran
    simp only [hoist, pyEval]
    cases hl' : pyEval E σ e with
    | error x =>
      refine ⟨fun v hv => by (cases hv), fun c hc => h2 c ?_⟩
      rw [hl']; exact hc
    | ok a =>
      obtain ⟨σ', r', f', ea⟩ := h1 a hl'
      refine ⟨fun v hv => ⟨σ', r', f', ?_⟩, fun c hc => by (cases hc)⟩
      rw [ea]; exact hv
  | .cmp op l r, n, σ, hw, hs, hb => by
    simp only [safe, below, Bool.and_eq_true] at hs hb
    obtain ⟨⟨⟨⟨⟨hl, hr⟩, _⟩, _⟩, _⟩, _⟩ := hs
    obtain ⟨h1, h2, h3⟩ := run2 E fuel ht l r n σ hw hb.1 hb.2 (hoist_run E fuel ht l n σ hw hl hb.1)
      fun σ1 hw1 => hoist_run E fuel ht r _ σ1 hw1 hr hb.2
    unfold Ran
    simp only [hoist, pyEval]
    cases hl' : pyEval E σ l with
    | error x =>
      refine ⟨fun v hv => by (cases hv), fun c hc => h2 c ?_⟩
      rw [hl']; exact hc
    | ok a =>
      cases hr' : pyEval E σ r with
      | error x =>
        refine ⟨fun v hv => by (cases hv), fun c hc => h3 a c hl' ?_⟩
        rw [hr']; exact hc
      | ok b =>
        simp only
        obtain ⟨σ', r', f', ea, eb⟩ := h1 a b hl' hr'
        refine ⟨fun v hv => ⟨σ', r', f', ?_⟩, fun c hc => by (cases hc)⟩
        rw [ea, eb]; exact hv
  | .bool i f r, n, σ, hw, hs, hb => by
    simp only [safe, below, Bool.and_eq_true] at hs hb
    obtain ⟨⟨⟨⟨hf, _⟩, _⟩, hn⟩, _⟩ := hs
    obtain ⟨h1, h2⟩ := hoist_run E fuel ht f n σ hw hf hb.1
    unfold Ran
    simp only [hoist, pyEval, hoistArgs_noSamples r _ hn, List.append_nil]
    cases hl' : pyEval E σ f with
    | error x =>
      refine ⟨fun v hv => by (cases hv), fun c hc => h2 c ?_⟩
      rw [hl']; exact hc
    | ok a =>
      simp only
      obtain ⟨σ', r', f', ea⟩ := h1 a hl'
      refine ⟨fun v hv => ⟨σ', r', f', ?_⟩, fun c hc => absurd hc (noSampBool E σ r i a c hn)⟩
      rw [ea]
      exact (f'.bool0 E r i a hb.2).trans hv
  | .call g as, n, σ, hw, hs, hb => by
    simp only [safe, below] at hs hb
    obtain ⟨h1, h2⟩ := hoistArgs_run E fuel ht as n σ hw hs hb
    unfold Ran
    simp only [hoist, pyEval]
    cases hl' : pyArgs E σ as with
    | error x =>
      refine ⟨fun v hv => by (cases hv), fun c hc => h2 c ?_⟩
      rw [hl', Except.error.inj hc]
    | ok a =>
      simp only
      obtain ⟨σ', r', f', ea⟩ := h1 a hl'
      refine ⟨fun v hv => ⟨σ', r', f', ?_⟩, fun c hc => ?_⟩
      · rw [ea]; exact hv
      · split at hc <;> simp at hc
  | .sample f fs as, n, σ, hw, hs, hb => by
    simp only [safe, below] at hs hb
    obtain ⟨h1, h2⟩ := hoistArgs_run E fuel ht as n σ hw hs hb
    have l1 := hoistArgs_le as n
    unfold Ran
    simp only [hoist, pyEval]
    cases hl' : pyArgs E σ as with
    | error x =>
      refine ⟨fun v hv => by (cases hv), fun c hc => ?_⟩
      refine Fails.left (h2 c ?_) (by omega) _
      rw [hl', Except.error.inj hc]
    | ok qs =>
      simp only
      obtain ⟨σ1, r1, f1, ea⟩ := h1 qs hl'
      have hw1 := f1.wellTyped ht hw
      obtain ⟨s1, s2⟩ := safeArgs_hoist E.ty ht as n hs
      have hc := cVals_emit E σ1 hw1 _ qs s1 s2 ea
      set m := (hoistArgs as n).2.2 with hm
      have hrun : ∀ τ, runH E fuel [Hoist.scalar (.tmp m :: tmps (m + 1) fs.length) (f :: fs) (hoistArgs as n).1] σ1 = τ ↔
          (match E.field f qs with
          | .error c => Res.ret c σ1
          | .ok v => cEvalFields E qs (tmps (m + 1) fs.length) fs (store E σ1 (.tmp m) v)) = τ := by
        intro τ
        simp only [runH, List.map_cons, List.map_nil, genHoist, cList_single, cStmt, hc, cEvalFields]
        rfl
      simp only [sampleOne]
      cases hq : E.field f qs with
      | error c =>
        simp only
        refine ⟨fun v hv => by (cases hv), fun c' hc' => ?_⟩
        obtain rfl := PErr.samp.inj (Except.error.inj hc')
        refine Fails.right l1 (by omega) r1 f1 ⟨σ1, (hrun _).mpr ?_, (Frame.refl m σ1).mono (by omega)⟩
        rw [hq]
      | ok q =>
        simp only
        obtain ⟨g1, g2⟩ := run_fields E ht qs fs (m + 1) q (store E σ1 (.tmp m) q)
        have hfr := frame_store E σ1 m q
        constructor
        · intro v hv
          obtain ⟨σ', r', f', ev⟩ := g1 v hv
          refine ⟨σ', ?_, f1.trans l1 (by omega) (hfr.trans (by omega) (by omega) f'), ?_⟩
          · rw [runH_append, r1]
            refine (hrun _).mpr ?_
            rw [hq]; exact r'
          · have : σ' (.tmp m) = q := by
              rw [← f'.belowN (.tmp m) (by simp [belowN])]
              exact store_same E σ1 _ q (ht m)
            unfold sumNames
            rw [this, ev]
        · intro c hc'
          obtain ⟨σ', r', f'⟩ := g2 c hc'
          refine Fails.right l1 (by omega) r1 f1 ⟨σ', (hrun _).mpr ?_, hfr.trans (by omega) (by omega) f'⟩
          rw [hq]; exact r'

theorem hoistArgs_run (E : Env) (fuel : Nat) (ht : ∀ i, E.ty (.tmp i) = .dbl) : ∀ (es : PEs) (n : Nat) (σ : St), WellTyped E.ty σ →
    safeArgs E.ty es = true → belowL 0 es = true → RanArgs E fuel es n σ
  | .nil, n, σ, _, _, _ => by
    refine ⟨fun vs hv => ⟨σ, runH_nil E fuel σ, Frame.refl n σ, hv⟩, fun c hc => ?_⟩
    rw [pyArgs] at hc; cases hc
  | .cons e es, n, σ, hw, hs, hb => by
    simp only [safeArgs, belowL, Bool.and_eq_true] at hs hb
    have l1 := hoist_le e n
    have l2 := hoistArgs_le es (hoist e n).2.2
    obtain ⟨h1, h2⟩ := hoist_run E fuel ht e n σ hw hs.1.1 hb.1
    unfold RanArgs
    simp only [hoistArgs, pyArgs]
    cases hl' : pyEval E σ e with
    | error x =>
      refine ⟨fun v hv => by (cases hv), fun c hc => ?_⟩
      refine Fails.left (h2 c ?_) l2 _
      rw [hl', Except.error.inj hc]
    | ok a =>
      obtain ⟨σ1, r1, f1, ea⟩ := h1 a hl'
      obtain ⟨g1, g2⟩ := hoistArgs_run E fuel ht es (hoist e n).2.2 σ1 (f1.wellTyped ht hw) hs.2 hb.2
      have hargs := f1.args0 E es hb.2
      cases hr' : pyArgs E σ es with
      | error x =>
        refine ⟨fun v hv => by (cases hv), fun c hc => ?_⟩
        refine Fails.right l1 l2 r1 f1 (g2 c ?_)
        rw [hargs, hr']; exact hc
      | ok qs =>
        simp only
        obtain ⟨σ2, r2, f2, eb⟩ := g1 qs (hargs.trans hr')
        refine ⟨fun v hv => ⟨σ2, ?_, f1.trans l1 l2 f2, ?_⟩, fun c hc => by (cases hc)⟩
        · rw [runH_append, r1]; exact r2
        · rw [f2.eval E _ (below_hoist e n hb.1), ea, eb]; exact hv
end

end Parcels.Codegen
