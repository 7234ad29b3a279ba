import Verif.Spec.Codegen
import Mathlib.Tactic.Common
import Mathlib.Tactic.Linarith

/-!
The C text of an expression is parsed back as intended.
-/

namespace Parcels.Codegen

inductive Mode where
  | lvl (l : Nat)
  | chain (l : Nat) (a : CE)
  | args

inductive Out where
  | e (c : CE)
  | l (cs : CEs)

/-- What the parser reads, without fuel. -/
inductive Rd : Mode → List Tok → Out → List Tok → Prop
  | int (n r) : Rd (.lvl 6) (.int n :: r) (.e (.int n)) r
  | flt (q r) : Rd (.lvl 6) (.flt q :: r) (.e (.flt q)) r
  | var (x r) : r.head? ≠ some .lp → Rd (.lvl 6) (.id x :: r) (.e (.var x)) r
  | call0 (x r) : Rd (.lvl 6) (.id x :: .lp :: .rp :: r) (.e (.call x .nil)) r
  | call (x ts as r) : ts.head? ≠ some .rp → Rd .args ts (.l as) r → Rd (.lvl 6) (.id x :: .lp :: ts) (.e (.call x as)) r
  | paren (ts a r) : Rd (.lvl 0) ts (.e a) (.rp :: r) → Rd (.lvl 6) (.lp :: ts) (.e a) r
  | una (op ts a r) : Rd (.lvl 6) ts (.e a) r → Rd (.lvl 6) (uopTok op :: ts) (.e (.una op a)) r
  | down (l ts a r c r') : l < 6 → Rd (.lvl (l + 1)) ts (.e a) r → Rd (.chain l a) r (.e c) r' → Rd (.lvl l) ts (.e c) r'
  | stop (l a ts) : (∀ o r, ts = .op o :: r → level o ≠ l) → Rd (.chain l a) ts (.e a) ts
  | more (l a o ts b r c r') : level o = l → Rd (.lvl (l + 1)) ts (.e b) r → Rd (.chain l (.bin o a b)) r (.e c) r' →
      Rd (.chain l a) (.op o :: ts) (.e c) r'
  | arg1 (ts a r) : Rd (.lvl 0) ts (.e a) (.rp :: r) → Rd .args ts (.l (.cons a .nil)) r
  | argn (ts a r as r') : Rd (.lvl 0) ts (.e a) (.comma :: r) → Rd .args r (.l as) r' → Rd .args ts (.l (.cons a as)) r'

def Comp : Mode → List Tok → Out → List Tok → Prop
  | .lvl l, ts, .e c, r => l ≤ 6 → r.length < ts.length ∧ ∀ fuel, 8 * ts.length + 8 ≤ fuel + l → parse fuel l ts = some (c, r)
  | .chain l a, ts, .e c, r => l < 6 → r.length ≤ ts.length ∧ ∀ fuel, 8 * ts.length + 1 ≤ fuel → parseChain fuel l a ts = some (c, r)
  | .args, ts, .l as, r => r.length < ts.length ∧ ∀ fuel, 8 * ts.length + 9 ≤ fuel → parseArgs fuel ts = some (as, r)
  | _, _, _, _ => True

theorem parse_low (f l : Nat) (ts : List Tok) (hl : l < 6) : parse (f + 1) l ts =
    (match parse f (l + 1) ts with
      | none => none
      | some (a, r) => parseChain f l a r) := by
  conv_lhs => unfold parse
  exact if_pos hl

theorem comp_of_rd {m : Mode} {ts : List Tok} {o : Out} {r : List Tok} (h : Rd m ts o r) : Comp m ts o r := by
  induction h with
  | int n r =>
    intro _
    refine ⟨by simp, fun fuel hf => ?_⟩
    obtain ⟨f, rfl⟩ : ∃ f, fuel = f + 1 := ⟨fuel - 1, by simp at hf; omega⟩
    simp [parse]
  | flt q r =>
    intro _
    refine ⟨by simp, fun fuel hf => ?_⟩
    obtain ⟨f, rfl⟩ : ∃ f, fuel = f + 1 := ⟨fuel - 1, by simp at hf; omega⟩
    simp [parse]
  | var x r hr =>
    intro _
    refine ⟨by simp, fun fuel hf => ?_⟩
    obtain ⟨f, rfl⟩ : ∃ f, fuel = f + 1 := ⟨fuel - 1, by simp at hf; omega⟩
    cases r with
    | nil => simp [parse]
    | cons t r => cases t <;> simp_all [parse]
  | call0 x r =>
    intro _
    refine ⟨by simp; omega, fun fuel hf => ?_⟩
    obtain ⟨f, rfl⟩ : ∃ f, fuel = f + 1 := ⟨fuel - 1, by simp at hf; omega⟩
    simp [parse]
  | call x ts as r hts _ ih =>
    intro _
    obtain ⟨h1, h2⟩ := ih
    refine ⟨by simp; omega, fun fuel hf => ?_⟩
    simp only [List.length_cons] at hf
    obtain ⟨f, rfl⟩ : ∃ f, fuel = f + 1 := ⟨fuel - 1, by omega⟩
    have := h2 f (by omega)
    cases ts with
    | nil => simp at h1
    | cons t ts => cases t <;> simp_all [parse]
  | paren ts a r _ ih =>
    intro _
    obtain ⟨h1, h2⟩ := ih (by omega)
    simp only [List.length_cons] at h1
    refine ⟨by simp; omega, fun fuel hf => ?_⟩
    simp only [List.length_cons] at hf
    obtain ⟨f, rfl⟩ : ∃ f, fuel = f + 1 := ⟨fuel - 1, by omega⟩
    have := h2 f (by omega)
    simp [parse, this]
  | una op ts a r _ ih =>
    intro _
    obtain ⟨h1, h2⟩ := ih (by omega)
    refine ⟨by simp; omega, fun fuel hf => ?_⟩
    simp only [List.length_cons] at hf
    obtain ⟨f, rfl⟩ : ∃ f, fuel = f + 1 := ⟨fuel - 1, by omega⟩
    have := h2 f (by omega)
    cases op <;> simp [parse, uopTok, this]
  | down l ts a r c r' hl _ _ ih1 ih2 =>
    intro _
    obtain ⟨h1, h2⟩ := ih1 (by omega)
    obtain ⟨h3, h4⟩ := ih2 hl
    refine ⟨by omega, fun fuel hf => ?_⟩
    obtain ⟨f, rfl⟩ : ∃ f, fuel = f + 1 := ⟨fuel - 1, by omega⟩
    rw [parse_low f l ts hl, h2 f (by omega)]
    exact h4 f (by omega)
  | stop l a ts hts =>
    intro _
    refine ⟨le_refl _, fun fuel hf => ?_⟩
    obtain ⟨f, rfl⟩ : ∃ f, fuel = f + 1 := ⟨fuel - 1, by omega⟩
    cases ts with
    | nil => simp [parseChain]
    | cons t r =>
      cases t with
      | op o => have := hts o r rfl; simp [parseChain, this]
      | _ => simp [parseChain]
  | more l a o ts b r c r' ho _ _ ih1 ih2 =>
    intro hl
    obtain ⟨h1, h2⟩ := ih1 (by omega)
    obtain ⟨h3, h4⟩ := ih2 hl
    refine ⟨by simp; omega, fun fuel hf => ?_⟩
    simp only [List.length_cons] at hf
    obtain ⟨f, rfl⟩ : ∃ f, fuel = f + 1 := ⟨fuel - 1, by omega⟩
    rw [parseChain]
    simp only [ho, if_true]
    rw [h2 f (by omega)]
    exact h4 f (by omega)
  | arg1 ts a r _ ih =>
    obtain ⟨h1, h2⟩ := ih (by omega)
    simp only [List.length_cons] at h1
    refine ⟨by omega, fun fuel hf => ?_⟩
    obtain ⟨f, rfl⟩ : ∃ f, fuel = f + 1 := ⟨fuel - 1, by omega⟩
    rw [parseArgs, h2 f (by omega)]
  | argn ts a r as r' _ _ ih1 ih2 =>
    obtain ⟨h1, h2⟩ := ih1 (by omega)
    obtain ⟨h3, h4⟩ := ih2
    simp only [List.length_cons] at h1
    refine ⟨by omega, fun fuel hf => ?_⟩
    obtain ⟨f, rfl⟩ : ∃ f, fuel = f + 1 := ⟨fuel - 1, by omega⟩
    rw [parseArgs, h2 f (by omega)]
    simp only
    rw [h4 f (by omega)]

/-! ### The intended C expression -/

mutual
/-- The C expression with the structure of the Python expression. -/
def tr : PE → CE
  | .int n => .int n
  | .flt q => .flt q
  | .var x => .var x
  | .names x xs => xs.foldl (fun a y => .bin (.arith .add) a (.var y)) (.var x)
  | .bin op l r => .bin (.arith op) (tr l) (tr r)
  | .pow l r => .call (.user "pow") (.cons (tr l) (.cons (tr r) .nil))
  | .una op e => .una op (tr e)
  | .cmp op l r => .bin (.cmp op) (tr l) (tr r)
  | .bool isAnd f r => trRest (if isAnd then .and else .or) (tr f) r
  | .call f as => .call (.user f) (trArgs as)
  | .sample _ _ _ => .int 0

def trRest (o : BOp) (a : CE) : PEs → CE
  | .nil => a
  | .cons e es => trRest o (.bin o a (tr e)) es

def trArgs : PEs → CEs
  | .nil => .nil
  | .cons e es => .cons (tr e) (trArgs es)
end

/-- What may follow an expression of level `l`. -/
def okRest (l : Nat) : List Tok → Prop
  | [] => True
  | .op o :: _ => level o ≤ l
  | .rp :: _ => True
  | .comma :: _ => True
  | _ => False

theorem okRest_lp {l : Nat} {ts : List Tok} (h : okRest l ts) : ts.head? ≠ some .lp := by
  cases ts with
  | nil => simp
  | cons t r => cases t <;> simp_all [okRest]

theorem okRest_mono {l l' : Nat} {ts : List Tok} (h : okRest l ts) (hl : l ≤ l') : okRest l' ts := by
  cases ts with
  | nil => trivial
  | cons t r =>
    cases t with
    | op o => exact le_trans h hl
    | _ => exact h

theorem okRest_stop {l l' : Nat} {ts : List Tok} (h : okRest l ts) (hl : l < l') (a : CE) :
    Rd (.chain l' a) ts (.e a) ts := by
  apply Rd.stop
  rintro o r rfl
  have : level o ≤ l := h
  omega

theorem level_lt (o : BOp) : level o < 6 := by
  cases o with
  | arith op => cases op <;> decide
  | cmp op => cases op <;> decide
  | and => decide
  | or => decide

/-- What is to be proved of an expression's text. -/
def Good (e : PE) : Prop :=
  (prec e = 6 → ∀ rest, okRest 6 rest → Rd (.lvl 6) (emit e ++ rest) (.e (tr e)) rest) ∧
  (prec e < 6 → ∀ rest c r, okRest (prec e) rest → Rd (.chain (prec e) (tr e)) rest (.e c) r →
    Rd (.lvl (prec e)) (emit e ++ rest) (.e c) r)

theorem prec_le (e : PE) : prec e ≤ 6 := by
  unfold prec
  split <;> try omega
  · exact le_of_lt (level_lt _)
  · split <;> omega

/-- Reading an expression at a lower level. -/
theorem Good.at {e : PE} (h : Good e) : ∀ (k l : Nat), l + k = prec e → l < 6 → ∀ rest c r, okRest l rest →
    Rd (.chain l (tr e)) rest (.e c) r → Rd (.lvl l) (emit e ++ rest) (.e c) r
  | 0, l, hk, hl, rest, c, r, ho, hc => by
    have e0 : l = prec e := by omega
    subst e0
    exact h.2 hl rest c r ho hc
  | k + 1, l, hk, hl, rest, c, r, ho, hc => by
    refine Rd.down l _ (tr e) rest c r hl ?_ hc
    by_cases h6 : l + 1 = 6
    · rw [h6]
      refine h.1 ?_ rest (okRest_mono ho (by omega))
      have := prec_le e
      omega
    · exact Good.at h k (l + 1) (by omega) (by omega) rest (tr e) rest (okRest_mono ho (by omega))
        (okRest_stop ho (by omega) _)

/-- Reading an expression at level `l` that the following tokens do not continue. -/
theorem Good.read {e : PE} (h : Good e) (l : Nat) (hl : l ≤ prec e) (rest : List Tok) (l' : Nat) (ho : okRest l' rest) (hl' : l' < l) :
    Rd (.lvl l) (emit e ++ rest) (.e (tr e)) rest := by
  have hp := prec_le e
  by_cases h6 : l = 6
  · subst h6
    exact h.1 (by omega) rest (okRest_mono ho (by omega))
  · exact h.at (prec e - l) l (by omega) (by omega) rest (tr e) rest (okRest_mono ho (by omega)) (okRest_stop ho hl' _)

/-- Reading a whole expression, before a closing parenthesis, a comma or the end. -/
theorem Good.read0 {e : PE} (h : Good e) (rest : List Tok) (ho : rest = [] ∨ ∃ r, rest = .rp :: r ∨ rest = .comma :: r) :
    Rd (.lvl 0) (emit e ++ rest) (.e (tr e)) rest := by
  have hok : okRest 0 rest := by
    rcases ho with rfl | ⟨r, rfl | rfl⟩ <;> trivial
  refine h.at (prec e) 0 (by omega) (by omega) rest (tr e) rest hok ?_
  apply Rd.stop
  rintro o r rfl
  rcases ho with ho | ⟨r, ho | ho⟩ <;> cases ho

theorem names_chain : ∀ (xs : List Name) (a c : CE) (rest r : List Tok), okRest 4 rest →
    Rd (.chain 4 (xs.foldl (fun a y => .bin (.arith .add) a (.var y)) a)) rest (.e c) r →
    Rd (.chain 4 a) ((xs.flatMap fun y => [.op (.arith .add), .id y]) ++ rest) (.e c) r
  | [], a, c, rest, r, _, h => h
  | x :: xs, a, c, rest, r, ho, h => by
    have ih := names_chain xs (.bin (.arith .add) a (.var x)) c rest r ho h
    have hok : okRest 4 ((xs.flatMap fun y => [Tok.op (.arith .add), .id y]) ++ rest) := by
      cases xs with
      | nil => exact ho
      | cons y ys => exact le_refl 4
    show Rd (.chain 4 a) (Tok.op (.arith .add) :: .id x :: ((xs.flatMap fun y => [Tok.op (.arith .add), .id y]) ++ rest)) (.e c) r
    refine Rd.more 4 a _ _ (.var x) _ c r rfl ?_ ih
    refine Rd.down 5 _ (.var x) _ _ _ (by omega) ?_ (okRest_stop hok (by omega) _)
    exact Rd.var x _ (okRest_lp hok)

theorem emit_head (e : PE) (h : Good e) (rest : List Tok) : (emit e ++ .rp :: rest).head? ≠ some .rp := by
  have h1 := h.read0 (.rp :: rest) (Or.inr ⟨rest, Or.inl rfl⟩)
  have h2 := (comp_of_rd h1 (by omega)).1
  intro hh
  have hp := (comp_of_rd h1 (by omega)).2 _ (le_refl _)
  cases hts : emit e ++ .rp :: rest with
  | nil => rw [hts] at hh; simp at hh
  | cons t ts =>
    rw [hts] at hh hp
    obtain rfl : t = .rp := by simpa using hh
    simp [parse, Nat.mul_add] at hp

mutual
theorem good_emit (ty : Name → Ty) : ∀ e : PE, safe ty e = true → noSamples e = true → Good e
  | .int n, _, _ => ⟨fun _ rest _ => Rd.int n rest, fun h => absurd h (by simp [prec])⟩
  | .flt q, _, _ => ⟨fun _ rest _ => Rd.flt q rest, fun h => absurd h (by simp [prec])⟩
  | .var x, _, _ => ⟨fun _ rest ho => Rd.var x rest (okRest_lp ho), fun h => absurd h (by simp [prec])⟩
  | .names x [], _, _ => ⟨fun _ rest ho => Rd.var x rest (okRest_lp ho), fun h => absurd h (by simp [prec])⟩
  | .names x (y :: ys), _, _ => by
    refine ⟨fun h => absurd h (by simp [prec]), fun _ rest c r ho hc => ?_⟩
    have ho4 : okRest 4 rest := ho
    have hok : okRest 4 (((y :: ys).flatMap fun y => [Tok.op (.arith .add), .id y]) ++ rest) := le_refl 4
    show Rd (.lvl 4) (Tok.id x :: (((y :: ys).flatMap fun y => [Tok.op (.arith .add), .id y]) ++ rest)) (.e c) r
    refine Rd.down 4 _ (.var x) _ c r (by omega) ?_ (names_chain (y :: ys) (.var x) c rest r ho4 hc)
    refine Rd.down 5 _ (.var x) _ _ _ (by omega) ?_ (okRest_stop hok (by omega) _)
    exact Rd.var x _ (okRest_lp hok)
  | .bin op l r, hs, hn => by
    simp only [safe, noSamples, Bool.and_eq_true, decide_eq_true_iff] at hs hn
    obtain ⟨⟨⟨⟨⟨⟨⟨hl, hr⟩, _⟩, _⟩, hpl⟩, hpr⟩, _⟩, _⟩ := hs
    have gl := good_emit ty l hl hn.1
    have gr := good_emit ty r hr hn.2
    refine ⟨fun _ rest _ => ?_, fun h => absurd h (by simp [prec])⟩
    have hL := level_lt (.arith op)
    set L := level (.arith op) with hLdef
    -- at the operator's level
    have atL : Rd (.lvl L) (emit l ++ (.op (.arith op) :: (emit r ++ (.rp :: rest)))) (.e (.bin (.arith op) (tr l) (tr r))) (.rp :: rest) := by
      refine gl.at (prec l - L) L (by omega) hL _ _ _ (le_of_eq hLdef.symm) ?_
      refine Rd.more L _ _ _ (tr r) (.rp :: rest) _ _ hLdef.symm ?_ (Rd.stop _ _ _ (by simp))
      exact gr.read (L + 1) (by omega) (.rp :: rest) 0 trivial (by omega)
    -- and below
    have down : ∀ k l', l' + k = L → Rd (.lvl l') (emit l ++ (.op (.arith op) :: (emit r ++ (.rp :: rest)))) (.e (.bin (.arith op) (tr l) (tr r))) (.rp :: rest) := by
      intro k
      induction k with
      | zero => intro l' h; rw [show l' = L by omega]; exact atL
      | succ k ih =>
        intro l' h
        exact Rd.down l' _ _ _ _ _ (by omega) (ih (l' + 1) (by omega)) (Rd.stop _ _ _ (by simp))
    have := Rd.paren _ _ _ (down L 0 (by omega))
    simpa [emit, tr] using this
  | .pow l r, hs, hn => by
    simp only [safe, noSamples, Bool.and_eq_true] at hs hn
    obtain ⟨⟨⟨hl, hr⟩, _⟩, _⟩ := hs
    have gl := good_emit ty l hl hn.1
    have gr := good_emit ty r hr hn.2
    refine ⟨fun _ rest _ => ?_, fun h => absurd h (by simp [prec])⟩
    have h1 := gr.read0 (.rp :: rest) (Or.inr ⟨rest, Or.inl rfl⟩)
    have h2 := gl.read0 (.comma :: (emit r ++ .rp :: rest)) (Or.inr ⟨_, Or.inr rfl⟩)
    have hh : (emit l ++ .comma :: (emit r ++ .rp :: rest)).head? ≠ some .rp := by
      intro hh
      have hp := (comp_of_rd h2 (by omega)).2 _ (le_refl _)
      cases hts : emit l ++ .comma :: (emit r ++ .rp :: rest) with
      | nil => rw [hts] at hh; simp at hh
      | cons t ts =>
        rw [hts] at hh hp
        obtain rfl : t = .rp := by simpa using hh
        simp [parse, Nat.mul_add] at hp
    have := Rd.call (.user "pow") _ _ _ hh (Rd.argn _ _ _ _ _ h2 (Rd.arg1 _ _ _ h1))
    simpa [emit, tr] using this
  | .una op e, hs, hn => by
    simp only [safe, noSamples, Bool.and_eq_true] at hs hn
    have g := good_emit ty e hs.1 hn
    refine ⟨fun _ rest _ => ?_, fun h => absurd h (by simp [prec])⟩
    have := Rd.una op _ _ _ (Rd.paren _ _ _ (g.read0 (.rp :: rest) (Or.inr ⟨rest, Or.inl rfl⟩)))
    simpa [emit, tr] using this
  | .cmp op l r, hs, hn => by
    simp only [safe, noSamples, Bool.and_eq_true, decide_eq_true_iff] at hs hn
    obtain ⟨⟨⟨⟨⟨hl, hr⟩, _⟩, _⟩, hpl⟩, hpr⟩ := hs
    have gl := good_emit ty l hl hn.1
    have gr := good_emit ty r hr hn.2
    have hL := level_lt (.cmp op)
    refine ⟨fun h => absurd h (by show level (.cmp op) ≠ 6; omega), fun _ rest c r' ho hc => ?_⟩
    have ho' : okRest (level (.cmp op)) rest := ho
    show Rd (.lvl (level (.cmp op))) _ _ _
    have : Rd (.lvl (level (.cmp op))) (emit l ++ (.op (.cmp op) :: (emit r ++ rest))) (.e c) r' := by
      refine gl.at (prec l - level (.cmp op)) _ (by omega) hL _ _ _ (le_refl _) ?_
      refine Rd.more _ _ _ _ (tr r) rest _ _ rfl ?_ hc
      exact gr.read _ (by omega) rest _ ho' (by omega)
    simpa [emit] using this
  | .bool isAnd f rs, hs, hn => by
    simp only [safe, noSamples, Bool.and_eq_true, decide_eq_true_iff] at hs hn
    obtain ⟨⟨⟨⟨hf, hpf⟩, hrs⟩, _⟩, _⟩ := hs
    have gf := good_emit ty f hf hn.1
    have hlev : level (if isAnd then BOp.and else BOp.or) = if isAnd then 1 else 0 := by cases isAnd <;> rfl
    have hL6 : (if isAnd = true then 1 else 0) < 6 := by cases isAnd <;> decide
    refine ⟨fun h => absurd h (by show (if isAnd = true then 1 else 0) ≠ 6; omega), fun _ rest c r' ho hc => ?_⟩
    have ho' : okRest (if isAnd = true then 1 else 0) rest := ho
    show Rd (.lvl (if isAnd = true then 1 else 0)) _ _ _
    have hr := good_rest ty rs (if isAnd then BOp.and else BOp.or) (by rw [hlev]; exact hrs) hn.2 (tr f) rest c r' (by rw [hlev]; exact ho') (by
      rw [hlev]; exact hc)
    rw [hlev] at hr
    have : Rd (.lvl (if isAnd = true then 1 else 0)) (emit f ++ (emitRest (if isAnd then BOp.and else BOp.or) rs ++ rest)) (.e c) r' := by
      refine gf.at (prec f - (if isAnd = true then 1 else 0)) _ (by omega) hL6 _ _ _ ?_ hr
      cases rs with
      | nil => exact ho'
      | cons e es => exact le_of_eq hlev
    simpa [emit] using this
  | .call f .nil, _, _ => by
    refine ⟨fun _ rest _ => ?_, fun h => absurd h (by simp [prec])⟩
    exact Rd.call0 (.user f) rest
  | .call f (.cons e es), hs, hn => by
    refine ⟨fun _ rest _ => ?_, fun h => absurd h (by simp [prec])⟩
    obtain ⟨h1, h2⟩ := good_args ty (.cons e es) (by simpa [safe] using hs) (by simpa [noSamples] using hn) rest (by simp)
    have := Rd.call (.user f) _ _ _ h1 h2
    simpa [emit, tr] using this
  | .sample _ _ _, _, hn => by simp [noSamples] at hn

theorem good_rest (ty : Name → Ty) : ∀ (es : PEs) (o : BOp), safeRest ty (level o) es = true → noSamplesL es = true →
    ∀ (a : CE) (rest : List Tok) (c : CE) (r : List Tok), okRest (level o) rest →
      Rd (.chain (level o) (trRest o a es)) rest (.e c) r → Rd (.chain (level o) a) (emitRest o es ++ rest) (.e c) r
  | .nil, o, _, _, a, rest, c, r, _, h => h
  | .cons e es, o, hs, hn, a, rest, c, r, ho, h => by
    simp only [safeRest, noSamplesL, Bool.and_eq_true, decide_eq_true_iff] at hs hn
    obtain ⟨⟨he, hp⟩, hes⟩ := hs
    have g := good_emit ty e he hn.1
    have ih := good_rest ty es o hes hn.2 (.bin o a (tr e)) rest c r ho h
    have hok : okRest (level o) (emitRest o es ++ rest) := by
      cases es with
      | nil => exact ho
      | cons e' es' => exact le_refl _
    have : Rd (.chain (level o) a) (.op o :: (emit e ++ (emitRest o es ++ rest))) (.e c) r :=
      Rd.more _ _ _ _ (tr e) _ _ _ rfl (g.read _ (by omega) _ _ hok (by omega)) ih
    simpa [emitRest] using this

theorem good_args (ty : Name → Ty) : ∀ es : PEs, safeArgs ty es = true → noSamplesL es = true → ∀ rest, es ≠ .nil →
    (emitArgs es ++ .rp :: rest).head? ≠ some .rp ∧ Rd .args (emitArgs es ++ .rp :: rest) (.l (trArgs es)) rest
  | .nil, _, _, rest, h => absurd rfl h
  | .cons e .nil, hs, hn, rest, _ => by
    simp only [safeArgs, noSamplesL, Bool.and_eq_true] at hs hn
    have g := good_emit ty e hs.1.1 hn.1
    refine ⟨?_, ?_⟩
    · simpa [emitArgs] using emit_head e g rest
    · have := Rd.arg1 _ _ _ (g.read0 (.rp :: rest) (Or.inr ⟨rest, Or.inl rfl⟩))
      simpa [emitArgs, trArgs] using this
  | .cons e (.cons e' es), hs, hn, rest, _ => by
    simp only [safeArgs, noSamplesL, Bool.and_eq_true] at hs hn
    have g := good_emit ty e hs.1.1 hn.1
    obtain ⟨_, ih⟩ := good_args ty (.cons e' es) (by simpa [safeArgs] using hs.2) (by simpa [noSamplesL] using hn.2) rest (by simp)
    have h2 := g.read0 (.comma :: (emitArgs (.cons e' es) ++ .rp :: rest)) (Or.inr ⟨_, Or.inr rfl⟩)
    refine ⟨?_, ?_⟩
    · have h3 : (emit e ++ .comma :: (emitArgs (.cons e' es) ++ .rp :: rest)).head? ≠ some .rp := by
        intro hh
        have hp := (comp_of_rd h2 (by omega)).2 _ (le_refl _)
        cases hts : emit e ++ .comma :: (emitArgs (.cons e' es) ++ .rp :: rest) with
        | nil => rw [hts] at hh; simp at hh
        | cons t ts =>
          rw [hts] at hh hp
          obtain rfl : t = .rp := by simpa using hh
          simp [parse, Nat.mul_add] at hp
      rw [emitArgs]
      · simpa using h3
      · simp
    · have := Rd.argn _ _ _ _ _ h2 ih
      rw [emitArgs]
      · simpa [trArgs] using this
      · simp
end

/-- The text of an expression is read as the expression that has its structure. -/
theorem parseC_emit (ty : Name → Ty) (e : PE) (hs : safe ty e = true) (hn : noSamples e = true) :
    parseC (emit e) = some (tr e) := by
  have h := (good_emit ty e hs hn).read0 [] (Or.inl rfl)
  rw [List.append_nil] at h
  have := (comp_of_rd h (by omega)).2 (8 * (emit e).length + 8) (by omega)
  unfold parseC
  rw [this]

end Parcels.Codegen
