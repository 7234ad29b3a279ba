import Verif.Proofs.CodegenParse
import Mathlib.Tactic.Ring
import Mathlib.Tactic.Linarith
import Mathlib.Tactic.FieldSimp

/-!
The intended C expression has the value of the Python expression.
-/

namespace Parcels.Codegen

def CV.ty : CV → Ty
  | .int _ => .int
  | .dbl _ => .dbl

theorem readVar_q (E : Env) (σ : St) (hw : WellTyped E.ty σ) (x : Name) : (readVar E σ x).q = σ x := by
  unfold readVar
  cases h : E.ty x with
  | int => exact hw x h
  | dbl => rfl

theorem readVar_ty (E : Env) (σ : St) (x : Name) : (readVar E σ x).ty = E.ty x := by
  unfold readVar
  cases h : E.ty x <;> rfl

theorem cBool_q (b : Bool) : (cBool b).q = ofBool b := by cases b <;> simp [cBool, CV.q, ofBool]

theorem cUna_q (op : UOp) (a : CV) : (cUna op a).q = uop op a.q := by
  cases op <;> cases a <;> simp [cUna, CV.q, uop, cBool_q] <;> (try exact cBool_q _)

theorem cUna_ty (op : UOp) (a : CV) : (cUna op a).ty = if op = .not then .int else a.ty := by
  cases op <;> cases a <;> rfl

/-- Arithmetic agrees unless it is `%` or divides integers. -/
theorem cArith_q (op : AOp) (a b : CV) (v : ℚ) (h : aop op a.q b.q = .ok v) (hm : op ≠ .mod)
    (hd : op = .div → a.ty = .dbl ∨ b.ty = .dbl) :
    ∃ w, cArith op a b = some w ∧ w.q = v ∧ w.ty = if a.ty = .int ∧ b.ty = .int then .int else .dbl := by
  cases op with
  | mod => exact absurd rfl hm
  | add =>
    have hv : a.q + b.q = v := by simpa [aop] using h
    cases a <;> cases b <;> exact ⟨_, rfl, by rw [← hv]; simp [CV.q], rfl⟩
  | sub =>
    have hv : a.q - b.q = v := by simpa [aop] using h
    cases a <;> cases b <;> exact ⟨_, rfl, by rw [← hv]; simp [CV.q], rfl⟩
  | mul =>
    have hv : a.q * b.q = v := by simpa [aop] using h
    cases a <;> cases b <;> exact ⟨_, rfl, by rw [← hv]; simp [CV.q], rfl⟩
  | div =>
    have hb : b.q ≠ 0 := by
      intro hb
      simp [aop, hb] at h
    have hv : a.q / b.q = v := by simpa [aop, hb] using h
    have hd' := hd rfl
    cases a with
    | int x =>
      cases b with
      | int y => simp [CV.ty] at hd'
      | dbl y =>
        refine ⟨.dbl (CV.q (.int x) / y), ?_, hv, rfl⟩
        have : y ≠ 0 := hb
        simp [cArith, CV.q, this]
    | dbl x =>
      refine ⟨.dbl (x / b.q), ?_, hv, rfl⟩
      cases b <;> simp_all [cArith, CV.q]

theorem ofBool_zero (b : Bool) : ofBool b = 0 ↔ b = false := by cases b <;> simp [ofBool]

theorem ofBool_or (b : Bool) : ofBool b = 0 ∨ ofBool b = 1 := by cases b <;> simp [ofBool]

mutual
theorem boolean_val (E : Env) (σ : St) : ∀ (e : PE) (v : ℚ), boolean e = true → pyEval E σ e = .ok v → v = 0 ∨ v = 1
  | .cmp op l r, v, _, h => by
    rw [pyEval] at h
    split at h
    · cases h
    · split at h
      · cases h
      · obtain rfl := (Except.ok.inj h).symm
        cases holds op _ _ <;> simp [ofBool]
  | .una .not e, v, _, h => by
    rw [pyEval] at h
    split at h
    · cases h
    · obtain rfl := (Except.ok.inj h).symm
      exact ofBool_or _
  | .bool a f r, v, hb, h => by
    simp only [boolean, Bool.and_eq_true] at hb
    rw [pyEval] at h
    cases hf : pyEval E σ f with
    | error x => rw [hf] at h; cases h
    | ok x =>
      rw [hf] at h
      exact boolean_rest E σ r a x v hb.2 (boolean_val E σ f x hb.1 hf) h
  | .int _, _, hb, _ => by simp [boolean.eq_def] at hb
  | .flt _, _, hb, _ => by simp [boolean.eq_def] at hb
  | .var _, _, hb, _ => by simp [boolean.eq_def] at hb
  | .names _ _, _, hb, _ => by simp [boolean.eq_def] at hb
  | .bin _ _ _, _, hb, _ => by simp [boolean.eq_def] at hb
  | .pow _ _, _, hb, _ => by simp [boolean.eq_def] at hb
  | .una .neg _, _, hb, _ => by simp [boolean.eq_def] at hb
  | .una .pos _, _, hb, _ => by simp [boolean.eq_def] at hb
  | .call _ _, _, hb, _ => by simp [boolean.eq_def] at hb
  | .sample _ _ _, _, hb, _ => by simp [boolean.eq_def] at hb

theorem boolean_rest (E : Env) (σ : St) : ∀ (es : PEs) (isAnd : Bool) (a v : ℚ), allBoolean es = true → (a = 0 ∨ a = 1) →
    pyBool E σ isAnd a es = .ok v → v = 0 ∨ v = 1
  | .nil, isAnd, a, v, _, ha, h => by
    rw [pyBool] at h
    exact (Except.ok.inj h) ▸ ha
  | .cons e es, isAnd, a, v, hb, ha, h => by
    simp only [allBoolean, Bool.and_eq_true] at hb
    rw [pyBool] at h
    split at h
    · exact (Except.ok.inj h) ▸ ha
    · cases he : pyEval E σ e with
      | error x => rw [he] at h; cases h
      | ok x =>
        rw [he] at h
        exact boolean_rest E σ es isAnd x v hb.2 (boolean_val E σ e x hb.1 he) h
end

theorem names_val (E : Env) (σ : St) : ∀ (xs : List Name) (a : CE) (w : CV), cEval E σ a = some w → w.ty = .dbl →
    (∀ y ∈ xs, E.ty y = .dbl) →
    ∃ w', cEval E σ (xs.foldl (fun a y => CE.bin (.arith .add) a (.var y)) a) = some w' ∧
      w'.q = xs.foldl (fun s y => s + σ y) w.q ∧ w'.ty = .dbl
  | [], a, w, h, ht, _ => ⟨w, h, rfl, ht⟩
  | x :: xs, a, w, h, ht, hx => by
    obtain ⟨q, rfl⟩ : ∃ q, w = .dbl q := by cases w with
      | int z => simp [CV.ty] at ht
      | dbl q => exact ⟨q, rfl⟩
    have hxx := hx x List.mem_cons_self
    have hstep : cEval E σ (.bin (.arith .add) a (.var x)) = some (.dbl (q + σ x)) := by
      simp [cEval, h, readVar, hxx, cArith, CV.q]
    exact names_val E σ xs _ _ hstep rfl fun y hy => hx y (List.mem_cons_of_mem _ hy)

mutual
theorem sem (E : Env) (σ : St) (hw : WellTyped E.ty σ) : ∀ (e : PE) (v : ℚ), safe E.ty e = true → noSamples e = true →
    pyEval E σ e = .ok v →
    ∃ w, cEval E σ (tr e) = some w ∧ (w.q = 0 ↔ v = 0) ∧ (valued e = true → w.q = v) ∧ w.ty = tyOf E.ty e
  | .int n, v, _, _, h => by
    rw [pyEval] at h
    obtain rfl := (Except.ok.inj h).symm
    exact ⟨.int n, rfl, by simp [CV.q], fun _ => by simp [CV.q], rfl⟩
  | .flt q, v, _, _, h => by
    rw [pyEval] at h
    obtain rfl := (Except.ok.inj h).symm
    exact ⟨.dbl _, rfl, by simp [CV.q], fun _ => by simp [CV.q], rfl⟩
  | .var x, v, _, _, h => by
    rw [pyEval] at h
    obtain rfl := (Except.ok.inj h).symm
    exact ⟨readVar E σ x, rfl, by rw [readVar_q E σ hw], fun _ => readVar_q E σ hw x, readVar_ty E σ x⟩
  | .names x xs, v, hs, _, h => by
    rw [pyEval] at h
    obtain rfl := (Except.ok.inj h).symm
    simp only [safe, Bool.and_eq_true, decide_eq_true_iff, List.all_eq_true] at hs
    obtain ⟨w, h1, h2, h3⟩ := names_val E σ xs (.var x) (readVar E σ x) rfl (by rw [readVar_ty]; exact hs.1) hs.2
    rw [readVar_q E σ hw] at h2
    refine ⟨w, h1, ?_, fun _ => h2, h3⟩
    rw [h2]; rfl
  | .bin op l r, v, hs, hn, h => by
    simp only [safe, noSamples, Bool.and_eq_true, decide_eq_true_iff] at hs hn
    obtain ⟨⟨⟨⟨⟨⟨⟨hl, hr⟩, hvl⟩, hvr⟩, _⟩, _⟩, hm⟩, hd⟩ := hs
    rw [pyEval] at h
    cases h1 : pyEval E σ l with
    | error x => rw [h1] at h; cases h
    | ok a =>
      rw [h1] at h
      cases h2 : pyEval E σ r with
      | error x => rw [h2] at h; cases h
      | ok b =>
        rw [h2] at h
        obtain ⟨wa, ea, _, va, ta⟩ := sem E σ hw l a hl hn.1 h1
        obtain ⟨wb, eb, _, vb, tb⟩ := sem E σ hw r b hr hn.2 h2
        have h' : aop op wa.q wb.q = .ok v := by rw [va hvl, vb hvr]; exact h
        obtain ⟨w, hw1, hw2, hw3⟩ := cArith_q op wa wb v h' hm (by rw [ta, tb]; exact hd)
        refine ⟨w, ?_, by rw [hw2], fun _ => hw2, ?_⟩
        · show cEval E σ (.bin (.arith op) (tr l) (tr r)) = _
          simp [cEval, ea, eb, hw1]
        · rw [hw3, ta, tb]; rfl
  | .pow l r, v, hs, hn, h => by
    simp only [safe, noSamples, Bool.and_eq_true] at hs hn
    obtain ⟨⟨⟨hl, hr⟩, hvl⟩, hvr⟩ := hs
    rw [pyEval] at h
    cases h1 : pyEval E σ l with
    | error x => rw [h1] at h; cases h
    | ok a =>
      rw [h1] at h
      cases h2 : pyEval E σ r with
      | error x => rw [h2] at h; cases h
      | ok b =>
        rw [h2] at h
        obtain ⟨wa, ea, _, va, ta⟩ := sem E σ hw l a hl hn.1 h1
        obtain ⟨wb, eb, _, vb, tb⟩ := sem E σ hw r b hr hn.2 h2
        simp only at h
        cases hf : E.fn "pow" [a, b] with
        | none => rw [hf] at h; cases h
        | some q =>
          rw [hf] at h
          obtain rfl := (Except.ok.inj h).symm
          refine ⟨.dbl _, ?_, Iff.rfl, fun _ => rfl, rfl⟩
          show cEval E σ (.call (.user "pow") (.cons (tr l) (.cons (tr r) .nil))) = _
          simp [cEval, cArgs, ea, eb, va hvl, vb hvr, hf]
  | .una op e, v, hs, hn, h => by
    simp only [safe, noSamples, Bool.and_eq_true, Bool.or_eq_true, decide_eq_true_iff] at hs hn
    rw [pyEval] at h
    cases h1 : pyEval E σ e with
    | error x => rw [h1] at h; cases h
    | ok a =>
      rw [h1] at h
      obtain rfl := (Except.ok.inj h).symm
      obtain ⟨w, ew, zw, vw, tw⟩ := sem E σ hw e a hs.1 hn h1
      have hq : (cUna op w).q = uop op a := by
        rw [cUna_q]
        rcases hs.2 with h2 | h2
        · subst h2
          show ofBool (decide (w.q = 0)) = ofBool (decide (a = 0))
          rw [decide_eq_decide.mpr zw]
        · rw [vw h2]
      refine ⟨cUna op w, by simp [tr, cEval, ew], by rw [hq], fun _ => hq, ?_⟩
      rw [cUna_ty, tw]
      cases op <;> rfl
  | .cmp op l r, v, hs, hn, h => by
    simp only [safe, noSamples, Bool.and_eq_true, decide_eq_true_iff] at hs hn
    obtain ⟨⟨⟨⟨⟨hl, hr⟩, hvl⟩, hvr⟩, _⟩, _⟩ := hs
    rw [pyEval] at h
    cases h1 : pyEval E σ l with
    | error x => rw [h1] at h; cases h
    | ok a =>
      rw [h1] at h
      cases h2 : pyEval E σ r with
      | error x => rw [h2] at h; cases h
      | ok b =>
        rw [h2] at h
        obtain ⟨wa, ea, _, va, ta⟩ := sem E σ hw l a hl hn.1 h1
        obtain ⟨wb, eb, _, vb, tb⟩ := sem E σ hw r b hr hn.2 h2
        obtain rfl := (Except.ok.inj h).symm
        have hq : (cBool (holds op wa.q wb.q)).q = ofBool (holds op a b) := by rw [cBool_q, va hvl, vb hvr]
        refine ⟨cBool (holds op wa.q wb.q), ?_, by rw [hq], fun _ => hq, rfl⟩
        show cEval E σ (.bin (.cmp op) (tr l) (tr r)) = _
        simp [cEval, ea, eb]
  | .bool isAnd f rs, v, hs, hn, h => by
    simp only [safe, noSamples, Bool.and_eq_true, decide_eq_true_iff] at hs hn
    obtain ⟨⟨⟨⟨hf, _⟩, hrs⟩, _⟩, hne⟩ := hs
    rw [pyEval] at h
    cases h1 : pyEval E σ f with
    | error x => rw [h1] at h; cases h
    | ok a =>
      rw [h1] at h
      obtain ⟨wa, ea, za, va, _⟩ := sem E σ hw f a hf hn.1 h1
      obtain ⟨w, ew, zw, vw, tw⟩ := semRest E σ hw rs isAnd (tr f) wa a v hrs hn.2 ea za h
      refine ⟨w, ew, zw, ?_, tw hne⟩
      intro hv
      have hb : (boolean f && allBoolean rs) = true := by simpa [valued, boolean] using hv
      rw [Bool.and_eq_true] at hb
      refine vw (va ?_) (boolean_val E σ f a hb.1 h1) hb.2
      cases f with
      | bool a' f' r' => exact hb.1
      | _ => rfl
  | .call f as, v, hs, hn, h => by
    rw [pyEval] at h
    cases h1 : pyArgs E σ as with
    | error x => rw [h1] at h; cases h
    | ok qs =>
      rw [h1] at h
      simp only at h
      cases hf : E.fn f qs with
      | none => rw [hf] at h; cases h
      | some q =>
        rw [hf] at h
        obtain rfl := (Except.ok.inj h).symm
        have := semArgs E σ hw as qs (by simpa [safe] using hs) (by simpa [noSamples] using hn) h1
        refine ⟨.dbl _, ?_, Iff.rfl, fun _ => rfl, rfl⟩
        simp [tr, cEval, this, hf]
  | .sample _ _ _, _, _, hn, _ => by simp [noSamples] at hn

theorem semRest (E : Env) (σ : St) (hw : WellTyped E.ty σ) : ∀ (es : PEs) (isAnd : Bool) (ca : CE) (wa : CV) (a v : ℚ),
    safeRest E.ty (if isAnd then 1 else 0) es = true → noSamplesL es = true → cEval E σ ca = some wa → (wa.q = 0 ↔ a = 0) →
    pyBool E σ isAnd a es = .ok v →
    ∃ w, cEval E σ (trRest (if isAnd then .and else .or) ca es) = some w ∧ (w.q = 0 ↔ v = 0) ∧
      (wa.q = a → (a = 0 ∨ a = 1) → allBoolean es = true → w.q = v) ∧ (es ≠ .nil → w.ty = .int)
  | .nil, isAnd, ca, wa, a, v, _, _, ha, hz, h => by
    rw [pyBool] at h
    obtain rfl := (Except.ok.inj h).symm
    exact ⟨wa, ha, hz, fun h _ _ => h, fun h => absurd rfl h⟩
  | .cons e es, isAnd, ca, wa, a, v, hs, hn, ha, hz, h => by
    simp only [safeRest, noSamplesL, Bool.and_eq_true, decide_eq_true_iff] at hs hn
    obtain ⟨⟨he, _⟩, hes⟩ := hs
    rw [pyBool] at h
    by_cases hstop : (a = 0) = (isAnd = true)
    · -- the value is decided: the rest of the chain keeps it
      rw [if_pos hstop] at h
      obtain rfl := (Except.ok.inj h).symm
      have hkeep := keepRest E σ (.cons e es) isAnd ca wa ha (by rw [← hstop]; exact propext hz)
      obtain ⟨w, ew, h1, h2, h3⟩ := hkeep
      refine ⟨w, ew, h1.trans hz, ?_, fun _ => h3 (by simp)⟩
      intro hwa hb _
      rw [← hwa]
      apply h2
      rw [hwa]; exact hb
    · rw [if_neg hstop] at h
      cases h1 : pyEval E σ e with
      | error x => rw [h1] at h; cases h
      | ok b =>
        rw [h1] at h
        obtain ⟨wb, eb, zb, vb, _⟩ := sem E σ hw e b he hn.1 h1
        have hc : cEval E σ (.bin (if isAnd then .and else .or) ca (tr e)) = some (cBool (decide (wb.q ≠ 0))) := by
          cases isAnd with
          | true =>
            have : ¬ wa.q = 0 := by
              intro h0; exact hstop (by simp [hz.mp h0])
            simp [cEval, ha, this, eb]
          | false =>
            have : wa.q = 0 := by
              rw [hz]; by_contra h0; exact hstop (by simp [h0])
            simp [cEval, ha, this, eb]
        have hz' : (cBool (decide (wb.q ≠ 0))).q = 0 ↔ b = 0 := by
          rw [cBool_q, ofBool_zero]; simp [zb]
        obtain ⟨w, ew, zw, vw, tw⟩ := semRest E σ hw es isAnd _ _ b v hes hn.2 hc hz' h
        refine ⟨w, ew, zw, ?_, ?_⟩
        · intro _ _ hall
          simp only [allBoolean, Bool.and_eq_true] at hall
          have hb := boolean_val E σ e b hall.1 h1
          refine vw ?_ hb hall.2
          rw [cBool_q]
          rcases hb with hb | hb
          · have : wb.q = 0 := zb.mpr hb
            simp [this, hb, ofBool]
          · have : wb.q ≠ 0 := fun h0 => by rw [zb.mp h0] at hb; norm_num at hb
            simp [this, hb, ofBool]
        · intro _
          cases es with
          | nil =>
            have : w = cBool (decide (wb.q ≠ 0)) := by
              have : some w = some (cBool (decide (wb.q ≠ 0))) := ew.symm.trans hc
              exact Option.some.inj this
            rw [this]; rfl
          | cons e' es' => exact tw (by simp)

/-- Once the value of an `&&` or `||` is decided, the rest of the chain keeps it. -/
theorem keepRest (E : Env) (σ : St) : ∀ (es : PEs) (isAnd : Bool) (ca : CE) (wa : CV), cEval E σ ca = some wa →
    ((wa.q = 0) = (isAnd = true)) →
    ∃ w, cEval E σ (trRest (if isAnd then .and else .or) ca es) = some w ∧ (w.q = 0 ↔ wa.q = 0) ∧
      ((wa.q = 0 ∨ wa.q = 1) → w.q = wa.q) ∧ (es ≠ .nil → w.ty = .int)
  | .nil, isAnd, ca, wa, ha, _ => ⟨wa, ha, Iff.rfl, fun _ => rfl, fun h => absurd rfl h⟩
  | .cons e es, isAnd, ca, wa, ha, hz => by
    have hc : cEval E σ (.bin (if isAnd then .and else .or) ca (tr e)) = some (cBool (!isAnd)) := by
      cases isAnd with
      | true =>
        have : wa.q = 0 := by simpa using hz
        simp [cEval, ha, this]
      | false =>
        have : wa.q ≠ 0 := by simpa using hz
        simp [cEval, ha, this]
    have hz' : ((cBool (!isAnd)).q = 0) = (isAnd = true) := by
      rw [cBool_q]; cases isAnd <;> simp [ofBool]
    obtain ⟨w, ew, h1, h2, h3⟩ := keepRest E σ es isAnd _ _ hc hz'
    refine ⟨w, ew, ?_, ?_, ?_⟩
    · rw [h1, hz', ← hz]
    · intro hwa
      rw [h2 (by rw [cBool_q]; cases isAnd <;> simp [ofBool]), cBool_q]
      cases isAnd with
      | true =>
        have : wa.q = 0 := by simpa using hz
        simp [ofBool, this]
      | false =>
        have : wa.q ≠ 0 := by simpa using hz
        have : wa.q = 1 := by rcases hwa with h | h; exact absurd h this; exact h
        simp [ofBool, this]
    · intro _
      cases es with
      | nil =>
        have : some w = some (cBool (!isAnd)) := ew.symm.trans hc
        rw [Option.some.inj this]; rfl
      | cons e' es' => exact h3 (by simp)

theorem semArgs (E : Env) (σ : St) (hw : WellTyped E.ty σ) : ∀ (es : PEs) (qs : List ℚ), safeArgs E.ty es = true →
    noSamplesL es = true → pyArgs E σ es = .ok qs → cArgs E σ (trArgs es) = some qs
  | .nil, qs, _, _, h => by
    rw [pyArgs] at h
    obtain rfl := (Except.ok.inj h).symm
    rfl
  | .cons e es, qs, hs, hn, h => by
    simp only [safeArgs, noSamplesL, Bool.and_eq_true] at hs hn
    obtain ⟨⟨he, hv⟩, hes⟩ := hs
    rw [pyArgs] at h
    cases h1 : pyEval E σ e with
    | error x => rw [h1] at h; cases h
    | ok a =>
      rw [h1] at h
      cases h2 : pyArgs E σ es with
      | error x => rw [h2] at h; cases h
      | ok as =>
        rw [h2] at h
        obtain rfl := (Except.ok.inj h).symm
        obtain ⟨w, ew, _, vw, _⟩ := sem E σ hw e a he hn.1 h1
        have := semArgs E σ hw es as hes hn.2 h2
        simp [trArgs, cArgs, ew, this, vw hv]
end

/-- The C text of an expression has the value of the Python expression. -/
theorem cValue_emit (E : Env) (σ : St) (hw : WellTyped E.ty σ) (e : PE) (v : ℚ) (hs : safe E.ty e = true)
    (hn : noSamples e = true) (h : pyEval E σ e = .ok v) :
    ∃ w, cValue E σ (emit e) = some w ∧ (w.q = 0 ↔ v = 0) ∧ (valued e = true → w.q = v) ∧ w.ty = tyOf E.ty e := by
  obtain ⟨w, h1, h2⟩ := sem E σ hw e v hs hn h
  refine ⟨w, ?_, h2⟩
  unfold cValue
  rw [parseC_emit E.ty e hs hn]
  exact h1

end Parcels.Codegen
