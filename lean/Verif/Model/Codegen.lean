import Verif.Model.Converters

/-!
Model of the translation of kernels to C: `IntrinsicTransformer`, `TupleSplitter` and `KernelGenerator`
(parcels/compilation/codegenerator.py:226-928), with a semantics of the Python kernel language, and a parser and a
semantics of the C that is generated.

Simplifications: exact arithmetic (no float rounding, no integer overflow); identifiers are names, so lexing is not
modelled; particle attributes, constants and local variables are all "variables", and a variable has a type, `int` or
`dbl`, in which it is stored (numpy and C both truncate a number stored in an integer variable); functions of the `math`
module return a `dbl` and are the same in both languages; lists, `print`, custom C functions, subscripts other than
field samples, and `fieldset.P[particle]` are not modelled. Interpolation and unit conversion of a sample are given by a
function of its arguments (see Model/Interp, Model/TimeInterp and Model/Converters).
-/

namespace Parcels.Codegen

/-- Variables of the kernel, temporaries `parcels_tmpvarN`, and the flag that the particle is deleted. User names with
`parcels_tmpvar` in them are rejected (codegenerator.py:262-263). -/
inductive Name where
  | user (s : String)
  | tmp (n : Nat)
  | deleted
deriving DecidableEq, Repr

/-- Types of variables. Models: particle.py:9-38, compilation/codegenerator.py:421-455 (local variables are declared as numbers of one type). -/
inductive Ty where
  | int
  | dbl
deriving DecidableEq, Repr

/-- Arithmetic operators. Models: compilation/codegenerator.py:677-699. -/
inductive AOp where
  | add | sub | mul | div | mod
deriving DecidableEq, Repr

/-- Comparisons. Models: compilation/codegenerator.py:711-727. -/
inductive COp where
  | lt | le | gt | ge | eq | ne
deriving DecidableEq, Repr

/-- Unary operators. Models: compilation/codegenerator.py:659-662, 680-687, 735. -/
inductive UOp where
  | neg | pos | not
deriving DecidableEq, Repr

mutual
/-- Expressions of a kernel. `names` stands for `ast.Name('t1+t2+...')`, which the translation puts in for a sample
(codegenerator.py:291). `sample [f] args` is `fieldset.f[args]`, and `sample [f, g] args` samples a SummedField. -/
inductive PE where
  | int (n : Nat)
  | flt (q : ℚ)
  | var (x : Name)
  | names (x : Name) (xs : List Name)
  | bin (op : AOp) (l r : PE)
  | pow (l r : PE)
  | una (op : UOp) (e : PE)
  | cmp (op : COp) (l r : PE)
  | bool (isAnd : Bool) (first : PE) (rest : PEs)
  | call (f : String) (args : PEs)
  | sample (f : Nat) (fs : List Nat) (args : PEs)

/-- Lists of expressions. Models: argument lists, compilation/codegenerator.py:497-560. -/
inductive PEs where
  | nil
  | cons (e : PE) (es : PEs)
end

deriving instance DecidableEq, Repr for PE, PEs

/-! ### Meaning of Python expressions -/

/-- Why an expression has no value: a sample raised an error, with its status code, or something else (division by
zero, a function outside its domain). Models: field.py:1080-1104, tools/statuscodes.py:21-91. -/
inductive PErr where
  | samp (code : Nat)
  | stuck
deriving DecidableEq, Repr

/-- Functions and fields: the same for both languages. Models: the `math` and field nodes, compilation/codegenerator.py:25-50, 154-165. -/
structure Env where
  fn : String → List ℚ → Option ℚ
  field : Nat → List ℚ → Except Nat ℚ
  vfield : Nat → List ℚ → Except Nat (List ℚ)
  ty : Name → Ty

/-- Values of the variables. Models: particle.py:200-226 (the attributes of a particle). -/
abbrev St := Name → ℚ

/-- Python arithmetic on numbers. Models: the meaning of the nodes of compilation/codegenerator.py:664-699. -/
def aop (op : AOp) (a b : ℚ) : Except PErr ℚ :=
  match op with
  | .add => .ok (a + b)
  | .sub => .ok (a - b)
  | .mul => .ok (a * b)
  | .div => if b = 0 then .error .stuck else .ok (a / b)
  | .mod => if b = 0 then .error .stuck else .ok (a - b * ⌊a / b⌋)

/-- Python comparisons of numbers. Models: the meaning of the nodes of compilation/codegenerator.py:625-632. -/
def holds (op : COp) (a b : ℚ) : Bool :=
  match op with
  | .lt => decide (a < b)
  | .le => decide (a ≤ b)
  | .gt => decide (b < a)
  | .ge => decide (b ≤ a)
  | .eq => decide (a = b)
  | .ne => decide (a ≠ b)

/-- True and False are 1 and 0. Models: the meaning of the nodes of compilation/codegenerator.py:571-575, 625-632. -/
def ofBool (b : Bool) : ℚ := if b then 1 else 0

/-- Python unary operators. Models: the meaning of the nodes of compilation/codegenerator.py:659-662. -/
def uop (op : UOp) (a : ℚ) : ℚ :=
  match op with
  | .neg => -a
  | .pos => a
  | .not => ofBool (decide (a = 0))

/-- The sum of some variables, from left to right. Models: compilation/codegenerator.py:290-301 (the temporaries of a summed field). -/
def sumNames (σ : St) (x : Name) (xs : List Name) : ℚ := xs.foldl (fun s y => s + σ y) (σ x)

/-- A sample of one field. Models: field.py:567-571. -/
def sampleOne (E : Env) (f : Nat) (args : List ℚ) : Except PErr ℚ :=
  match E.field f args with
  | .error c => .error (.samp c)
  | .ok v => .ok v

/-- A sample of the sum of fields; the first error counts. Models: field.py:1755-1767. -/
def sampleSum (E : Env) (args : List ℚ) : List Nat → ℚ → Except PErr ℚ
  | [], acc => .ok acc
  | f :: fs, acc =>
    match sampleOne E f args with
    | .error e => .error e
    | .ok v => sampleSum E args fs (acc + v)

mutual
/-- Value of a Python expression. `and` and `or` give the value of the operand that decides.
Models: the meaning in Python of the nodes of compilation/codegenerator.py:562-575, 625-736. -/
def pyEval (E : Env) (σ : St) : PE → Except PErr ℚ
  | .int n => .ok n
  | .flt q => .ok q
  | .var x => .ok (σ x)
  | .names x xs => .ok (sumNames σ x xs)
  | .bin op l r =>
    match pyEval E σ l with
    | .error e => .error e
    | .ok a =>
      match pyEval E σ r with
      | .error e => .error e
      | .ok b => aop op a b
  | .pow l r =>
    match pyEval E σ l with
    | .error e => .error e
    | .ok a =>
      match pyEval E σ r with
      | .error e => .error e
      | .ok b => (match E.fn "pow" [a, b] with | none => .error .stuck | some v => .ok v)
  | .una op e =>
    match pyEval E σ e with
    | .error e => .error e
    | .ok a => .ok (uop op a)
  | .cmp op l r =>
    match pyEval E σ l with
    | .error e => .error e
    | .ok a =>
      match pyEval E σ r with
      | .error e => .error e
      | .ok b => .ok (ofBool (holds op a b))
  | .bool isAnd first rest =>
    match pyEval E σ first with
    | .error e => .error e
    | .ok a => pyBool E σ isAnd a rest
  | .call f args =>
    match pyArgs E σ args with
    | .error e => .error e
    | .ok as => (match E.fn f as with | none => .error .stuck | some v => .ok v)
  | .sample f fs args =>
    match pyArgs E σ args with
    | .error e => .error e
    | .ok as =>
      match sampleOne E f as with
      | .error e => .error e
      | .ok v => sampleSum E as fs v

/-- The rest of an `and` or `or`, when the value so far is `a`. Models: the meaning in Python of the nodes of compilation/codegenerator.py:704-709. -/
def pyBool (E : Env) (σ : St) (isAnd : Bool) (a : ℚ) : PEs → Except PErr ℚ
  | .nil => .ok a
  | .cons e es =>
    if (a = 0) = (isAnd = true) then .ok a
    else
      match pyEval E σ e with
      | .error x => .error x
      | .ok b => pyBool E σ isAnd b es

/-- Values of arguments, from left to right. Models: the meaning in Python of the nodes of compilation/codegenerator.py:497-560. -/
def pyArgs (E : Env) (σ : St) : PEs → Except PErr (List ℚ)
  | .nil => .ok []
  | .cons e es =>
    match pyEval E σ e with
    | .error x => .error x
    | .ok a =>
      match pyArgs E σ es with
      | .error x => .error x
      | .ok as => .ok (a :: as)
end

/-! ### C tokens -/

/-- Binary operators of C, as written by the generator. Models: compilation/codegenerator.py:677-733. -/
inductive BOp where
  | arith (op : AOp)
  | cmp (op : COp)
  | and
  | or
deriving DecidableEq, Repr

/-- Tokens of the generated C code. Models: the strings of compilation/codegenerator.py:562-575, 625-736. -/
inductive Tok where
  | int (n : Nat)
  | flt (q : ℚ)
  | id (x : Name)
  | op (o : BOp)
  | bang
  | lp
  | rp
  | comma
deriving DecidableEq, Repr

/-- Models: visit_UAdd, visit_USub, visit_Not, codegenerator.py:680-687, 735-736. -/
def uopTok : UOp → Tok
  | .neg => .op (.arith .sub)
  | .pos => .op (.arith .add)
  | .not => .bang

mutual
/-- The `ccode` of an expression, as tokens. Models: visit_Name, visit_Num, visit_BinOp, visit_UnaryOp, visit_Compare,
visit_BoolOp and visit_Call, codegenerator.py:562-575, 625-632, 659-736, 534-558. A sample has been replaced before. -/
def emit : PE → List Tok
  | .int n => [.int n]
  | .flt q => [.flt q]
  | .var x => [.id x]
  | .names x xs => .id x :: xs.flatMap fun y => [.op (.arith .add), .id y]
  | .bin op l r => .lp :: emit l ++ (.op (.arith op) :: emit r ++ [.rp])
  | .pow l r => .id (.user "pow") :: .lp :: emit l ++ (.comma :: emit r ++ [.rp])
  | .una op e => uopTok op :: .lp :: emit e ++ [.rp]
  | .cmp op l r => emit l ++ (.op (.cmp op) :: emit r)
  | .bool isAnd first rest => emit first ++ emitRest (if isAnd then .and else .or) rest
  | .call f args => .id (.user f) :: .lp :: emitArgs args ++ [.rp]
  | .sample _ _ _ => []

/-- `op_str.join`, after the first value. Models: compilation/codegenerator.py:704-709. -/
def emitRest (o : BOp) : PEs → List Tok
  | .nil => []
  | .cons e es => .op o :: emit e ++ emitRest o es

/-- `", ".join`. Models: compilation/codegenerator.py:534-558. -/
def emitArgs : PEs → List Tok
  | .nil => []
  | .cons e .nil => emit e
  | .cons e es => emit e ++ (.comma :: emitArgs es)
end

/-! ### C expressions: grammar and meaning -/

mutual
/-- C expressions. Models: what a C compiler makes of the strings of compilation/codegenerator.py:562-736. -/
inductive CE where
  | int (n : Nat)
  | flt (q : ℚ)
  | var (x : Name)
  | bin (o : BOp) (l r : CE)
  | una (op : UOp) (e : CE)
  | call (f : Name) (args : CEs)

/-- Lists of C expressions. Models: what a C compiler makes of the strings of compilation/codegenerator.py:534-558. -/
inductive CEs where
  | nil
  | cons (e : CE) (es : CEs)
end

deriving instance DecidableEq, Repr for CE, CEs

/-- Precedence of binary operators in C: `||` binds least, then `&&`, equality, order, sums, products.
Models: the C language, for the strings of compilation/codegenerator.py:677-733. -/
def level : BOp → Nat
  | .or => 0
  | .and => 1
  | .cmp .eq => 2
  | .cmp .ne => 2
  | .cmp _ => 3
  | .arith .add => 4
  | .arith .sub => 4
  | .arith _ => 5

mutual
/-- Parser for C expressions: `parse fuel l` reads an expression whose operators outside parentheses have level at least
`l`; `l ≥ 6` are unary and primary expressions. Operators of the same level group to the left. Models: the C language, for the strings of compilation/codegenerator.py:562-736. -/
def parse : Nat → Nat → List Tok → Option (CE × List Tok)
  | 0, _, _ => none
  | fuel + 1, l, ts =>
    if l < 6 then
      match parse fuel (l + 1) ts with
      | none => none
      | some (a, r) => parseChain fuel l a r
    else
      match ts with
      | .int n :: r => some (.int n, r)
      | .flt q :: r => some (.flt q, r)
      | .id x :: .lp :: .rp :: r => some (.call x .nil, r)
      | .id x :: .lp :: r =>
        match parseArgs fuel r with
        | none => none
        | some (as, r') => some (.call x as, r')
      | .id x :: r => some (.var x, r)
      | .lp :: r =>
        match parse fuel 0 r with
        | some (a, .rp :: r') => some (a, r')
        | _ => none
      | .op (.arith .sub) :: r => (parse fuel 6 r).map fun p => (.una .neg p.1, p.2)
      | .op (.arith .add) :: r => (parse fuel 6 r).map fun p => (.una .pos p.1, p.2)
      | .bang :: r => (parse fuel 6 r).map fun p => (.una .not p.1, p.2)
      | _ => none

/-- Further operands of level `l` after the expression `a`. Models: the C language, for the strings of compilation/codegenerator.py:562-736. -/
def parseChain : Nat → Nat → CE → List Tok → Option (CE × List Tok)
  | 0, _, _, _ => none
  | fuel + 1, l, a, ts =>
    match ts with
    | .op o :: r =>
      if level o = l then
        match parse fuel (l + 1) r with
        | none => none
        | some (b, r') => parseChain fuel l (.bin o a b) r'
      else some (a, ts)
    | _ => some (a, ts)

/-- Arguments of a call, at least one, up to the closing parenthesis. Models: the C language, for the strings of compilation/codegenerator.py:534-558. -/
def parseArgs : Nat → List Tok → Option (CEs × List Tok)
  | 0, _ => none
  | fuel + 1, ts =>
    match parse fuel 0 ts with
    | some (a, .rp :: r) => some (.cons a .nil, r)
    | some (a, .comma :: r) =>
      match parseArgs fuel r with
      | none => none
      | some (as, r') => some (.cons a as, r')
    | _ => none
end

/-- A C expression made of all the tokens. Models: the C language, for the strings of compilation/codegenerator.py:562-736. -/
def parseC (ts : List Tok) : Option CE :=
  match parse (8 * ts.length + 8) 0 ts with
  | some (c, []) => some c
  | _ => none

/-- C values. Models: the C language, for the types of compilation/codegenerator.py:421-455. -/
inductive CV where
  | int (z : ℤ)
  | dbl (q : ℚ)
deriving DecidableEq, Repr

/-- The number. Models: the C language, for the strings of compilation/codegenerator.py:562-736. -/
def CV.q : CV → ℚ
  | .int z => z
  | .dbl q => q

/-- C arithmetic: on two integers it is integer arithmetic, division truncates and `%` takes the sign of the left
operand; otherwise it is done in floating point, and `%` is an error. Models: the C language, for the strings of compilation/codegenerator.py:664-699. -/
def cArith (op : AOp) (a b : CV) : Option CV :=
  match a, b with
  | .int a, .int b =>
    match op with
    | .add => some (.int (a + b))
    | .sub => some (.int (a - b))
    | .mul => some (.int (a * b))
    | .div => if b = 0 then none else some (.int (a.tdiv b))
    | .mod => if b = 0 then none else some (.int (a.tmod b))
  | a, b =>
    match op with
    | .add => some (.dbl (a.q + b.q))
    | .sub => some (.dbl (a.q - b.q))
    | .mul => some (.dbl (a.q * b.q))
    | .div => if b.q = 0 then none else some (.dbl (a.q / b.q))
    | .mod => none

/-- Truth values are integers in C. Models: the C language, for the strings of compilation/codegenerator.py:625-632, 704-709. -/
def cBool (b : Bool) : CV := .int (if b then 1 else 0)

/-- Unary operators in C. Models: the C language, for the strings of compilation/codegenerator.py:659-662. -/
def cUna (op : UOp) (a : CV) : CV :=
  match op, a with
  | .neg, .int z => .int (-z)
  | .neg, .dbl q => .dbl (-q)
  | .pos, a => a
  | .not, a => cBool (decide (a.q = 0))

/-- Value of a variable, according to its type. Models: the C language, for the names of compilation/codegenerator.py:562-569. -/
def readVar (E : Env) (σ : St) (x : Name) : CV :=
  match E.ty x with
  | .int => .int (Converters.truncInt (σ x))
  | .dbl => .dbl (σ x)

mutual
/-- Value of a C expression; `none` is undefined behaviour. Models: the C language, for the strings of compilation/codegenerator.py:562-736. -/
def cEval (E : Env) (σ : St) : CE → Option CV
  | .int n => some (.int n)
  | .flt q => some (.dbl q)
  | .var x => some (readVar E σ x)
  | .una op e =>
    match cEval E σ e with
    | none => none
    | some a => some (cUna op a)
  | .bin o l r =>
    match cEval E σ l with
    | none => none
    | some a =>
      match o with
      | .and => if a.q = 0 then some (cBool false) else (match cEval E σ r with | none => none | some b => some (cBool (decide (b.q ≠ 0))))
      | .or => if a.q = 0 then (match cEval E σ r with | none => none | some b => some (cBool (decide (b.q ≠ 0)))) else some (cBool true)
      | .cmp op => (match cEval E σ r with | none => none | some b => some (cBool (holds op a.q b.q)))
      | .arith op => (match cEval E σ r with | none => none | some b => cArith op a b)
  | .call (.user f) args =>
    match cArgs E σ args with
    | none => none
    | some as => (match E.fn f as with | none => none | some v => some (.dbl v))
  | .call _ _ => none

/-- Values of arguments. Models: the C language, for the strings of compilation/codegenerator.py:534-558. -/
def cArgs (E : Env) (σ : St) : CEs → Option (List ℚ)
  | .nil => some []
  | .cons e es =>
    match cEval E σ e with
    | none => none
    | some a =>
      match cArgs E σ es with
      | none => none
      | some as => some (a.q :: as)
end

/-- Value of the C expression with these tokens. Models: the C language, for the strings of compilation/codegenerator.py:562-736. -/
def cValue (E : Env) (σ : St) (ts : List Tok) : Option CV :=
  match parseC ts with
  | none => none
  | some c => cEval E σ c

end Parcels.Codegen
