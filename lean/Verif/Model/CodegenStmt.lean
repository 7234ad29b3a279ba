import Verif.Model.Codegen

/-!
Model of the translation of kernel statements to C: `IntrinsicTransformer` with its stack of field evaluations,
`TupleSplitter`, and `KernelGenerator` (parcels/compilation/codegenerator.py:226-402, 421-455, 577-623, 738-754,
787-899). See Model/Codegen for what is not modelled.
-/

namespace Parcels.Codegen

/-- A field evaluation that was taken out of an expression: temporaries, fields, arguments.
Models: FieldEvalNode and SummedFieldEvalNode (`scalar`), VectorFieldEvalNode (`vector`). Models: compilation/codegenerator.py:70-76, 83-90, 97-102, 109-116, 123-128, 135-142. -/
inductive Hoist where
  | scalar (ts : List Name) (fs : List Nat) (args : PEs)
  | vector (ts : List Name) (f : Nat) (args : PEs)

/-- Statements of a kernel. `vec xs f args` is `(x, y, ..) = fieldset.f[args]` for a vector field. `hoisted` occurs only
during translation. Models: the nodes of compilation/codegenerator.py:336-366, 387-402, 577-623, 738-754, 897-899. -/
inductive PS where
  | assign (x : String) (e : PE)
  | tuple (xs : List String) (es : PEs)
  | vec (xs : List String) (f : Nat) (args : PEs)
  | aug (x : String) (op : AOp) (e : PE)
  | ite (test : PE) (body orelse : List PS)
  | whl (test : PE) (body : List PS)
  | ret (e : PE)
  | delete
  | brk
  | pass
  | hoisted (h : Hoist)

/-! ### Meaning of Python statements -/

/-- How a statement ends: normally, with `break`, by leaving the kernel with a status code, or in a way that is not
described (arithmetic error, no end within the fuel). Models: kernel.py:311-360 and index_search.h:49-52. -/
inductive Res where
  | next (σ : St)
  | brk (σ : St)
  | ret (code : ℚ) (σ : St)
  | stuck

/-- Value as stored in a variable. Models: the meaning of assignments, compilation/codegenerator.py:581-608. -/
def store (E : Env) (σ : St) (x : Name) (v : ℚ) : St :=
  fun y => if y = x then (match E.ty x with | .int => (Converters.truncInt v : ℚ) | .dbl => v) else σ y

/-- Assign values to variables, from left to right. Models: the meaning of tuple assignments in Python, compilation/codegenerator.py:391-402. -/
def storeAll (E : Env) : St → List Name → List ℚ → Option St
  | σ, [], [] => some σ
  | σ, x :: xs, v :: vs => storeAll E (store E σ x v) xs vs
  | _, _, _ => none

/-- Go on with a value; an error of a sample ends the kernel with its status. Models: kernel.py:325-337. -/
def onVal (σ : St) (r : Except PErr α) (k : α → Res) : Res :=
  match r with
  | .error (.samp c) => .ret c σ
  | .error .stuck => .stuck
  | .ok v => k v

/-- A `while` loop. With `strict`, a loop whose test is false at the start is not described. Models: the meaning in Python of the node of compilation/codegenerator.py:738-745. -/
def pyLoop (test : St → Except PErr ℚ) (body : St → Res) (strict : Bool) : Nat → Bool → St → Res
  | 0, _, _ => .stuck
  | n + 1, first, σ =>
    onVal σ (test σ) fun v =>
      if v = 0 then (if strict && first then .stuck else .next σ)
      else
        match body σ with
        | .next σ' => pyLoop test body strict n false σ'
        | .brk σ' => .next σ'
        | r => r

/-- `particle.delete()` sets the state of the particle. Models: particle.py:218-219. -/
def markDeleted (σ : St) : St := fun y => if y = .deleted then 1 else σ y

mutual
/-- Python meaning of a statement; `fuel` bounds the passes through each loop. Models: the meaning in Python of the nodes of compilation/codegenerator.py:577-623, 738-754, 897-899. -/
def pyStmt (E : Env) (strict : Bool) (fuel : Nat) : PS → St → Res
  | .assign x e, σ => onVal σ (pyEval E σ e) fun v => .next (store E σ (.user x) v)
  | .tuple xs es, σ => onVal σ (pyArgs E σ es) fun vs =>
      match storeAll E σ (xs.map .user) vs with
      | none => .stuck
      | some σ' => .next σ'
  | .vec xs f args, σ => onVal σ (pyArgs E σ args) fun as =>
      match E.vfield f as with
      | .error c => .ret c σ
      | .ok vs =>
        match storeAll E σ (xs.map .user) vs with
        | none => .stuck
        | some σ' => .next σ'
  | .aug x op e, σ => onVal σ (pyEval E σ e) fun v =>
      onVal σ (aop op (σ (.user x)) v) fun r => .next (store E σ (.user x) r)
  | .ite test body orelse, σ => onVal σ (pyEval E σ test) fun v =>
      if v = 0 then pyList E strict fuel orelse σ else pyList E strict fuel body σ
  | .whl test body, σ => pyLoop (fun s => pyEval E s test) (pyList E strict fuel body) strict fuel true σ
  | .ret e, σ => onVal σ (pyEval E σ e) fun v => .ret v σ
  | .delete, σ => .next (markDeleted σ)
  | .brk, σ => .brk σ
  | .pass, σ => .next σ
  | .hoisted _, _ => .stuck

/-- One statement after the other. Models: the meaning in Python of the bodies of compilation/codegenerator.py:467-495. -/
def pyList (E : Env) (strict : Bool) (fuel : Nat) : List PS → St → Res
  | [], σ => .next σ
  | s :: rest, σ =>
    match pyStmt E strict fuel s σ with
    | .next σ' => pyList E strict fuel rest σ'
    | r => r
end

/-- Status codes (parcels/tools/statuscodes.py:10-18). -/
def codeSuccess : ℚ := 0
/-- OperationCode.Delete. Models: tools/statuscodes.py:17. -/
def codeDelete : ℚ := 3

/-- Result of a kernel in Scipy mode: status code and variables. A deleted particle has the state Delete. Models: kernel.py:315-320, particle.py:218-219. -/
def pyKernel (E : Env) (strict : Bool) (fuel : Nat) (p : List PS) (σ : St) : Option (ℚ × St) :=
  match pyList E strict fuel p σ with
  | .next σ' => some (if σ' .deleted = 0 then codeSuccess else codeDelete, σ')
  | .ret c σ' => some (c, σ')
  | _ => none

/-! ### Translation -/

/-- `n` temporaries, from number `i`. Models: compilation/codegenerator.py:241-246. -/
def tmps (i n : Nat) : List Name := (List.range n).map fun k => .tmp (i + k)

mutual
/-- Replace samples by temporaries: the new expression, the field evaluations in order, and the counter.
Models: IntrinsicTransformer.visit_Subscript, codegenerator.py:280-334. -/
def hoist : PE → Nat → PE × List Hoist × Nat
  | .bin op l r, n =>
    let a := hoist l n
    let b := hoist r a.2.2
    (.bin op a.1 b.1, a.2.1 ++ b.2.1, b.2.2)
  | .pow l r, n =>
    let a := hoist l n
    let b := hoist r a.2.2
    (.pow a.1 b.1, a.2.1 ++ b.2.1, b.2.2)
  | .una op e, n =>
    let a := hoist e n
    (.una op a.1, a.2.1, a.2.2)
  | .cmp op l r, n =>
    let a := hoist l n
    let b := hoist r a.2.2
    (.cmp op a.1 b.1, a.2.1 ++ b.2.1, b.2.2)
  | .bool i f rs, n =>
    let a := hoist f n
    let b := hoistArgs rs a.2.2
    (.bool i a.1 b.1, a.2.1 ++ b.2.1, b.2.2)
  | .call f as, n =>
    let a := hoistArgs as n
    (.call f a.1, a.2.1, a.2.2)
  | .sample f fs as, n =>
    let a := hoistArgs as n
    (.names (.tmp a.2.2) (tmps (a.2.2 + 1) fs.length),
      a.2.1 ++ [.scalar (.tmp a.2.2 :: tmps (a.2.2 + 1) fs.length) (f :: fs) a.1], a.2.2 + 1 + fs.length)
  | e, n => (e, [], n)

/-- The same for arguments. Models: compilation/codegenerator.py:280-334, 359-366. -/
def hoistArgs : PEs → Nat → PEs × List Hoist × Nat
  | .nil, n => (.nil, [], n)
  | .cons e es, n =>
    let a := hoist e n
    let b := hoistArgs es a.2.2
    (.cons a.1 b.1, a.2.1 ++ b.2.1, b.2.2)
end

/-- Expressions for a list of names. Models: compilation/codegenerator.py:290-301. -/
def namesArgs : List Name → PEs
  | [] => .nil
  | x :: xs => .cons (.names x []) (namesArgs xs)

mutual
/-- IntrinsicTransformer on a statement. The state is the counter and the stack of field evaluations, which is put in
front of the next assignment. `vd f` is the number of components of vector field `f`.
Models: codegenerator.py:336-366, 303-319, and NodeTransformer.generic_visit for the other statements. -/
def trStmt (vd : Nat → Nat) : PS → Nat × List Hoist → List PS × (Nat × List Hoist)
  | .assign x e, (n, stk) =>
    let a := hoist e n
    ((stk ++ a.2.1).map .hoisted ++ [.assign x a.1], (a.2.2, []))
  | .tuple xs es, (n, stk) =>
    let a := hoistArgs es n
    ((stk ++ a.2.1).map .hoisted ++ [.tuple xs a.1], (a.2.2, []))
  | .vec xs f args, (n, stk) =>
    let a := hoistArgs args n
    let ts := tmps a.2.2 (vd f)
    (((stk ++ a.2.1) ++ [Hoist.vector ts f a.1]).map .hoisted ++ [.tuple xs (namesArgs ts)], (a.2.2 + vd f, []))
  | .aug x op e, (n, stk) =>
    let a := hoist e n
    ((stk ++ a.2.1).map .hoisted ++ [.aug x op a.1], (a.2.2, []))
  | .ite test body orelse, (n, stk) =>
    let t := hoist test n
    let b := trList vd body (t.2.2, stk ++ t.2.1)
    let o := trList vd orelse b.2
    ([.ite t.1 b.1 o.1], o.2)
  | .whl test body, (n, stk) =>
    let t := hoist test n
    let b := trList vd body (t.2.2, stk ++ t.2.1)
    ([.whl t.1 b.1], b.2)
  | .ret e, (n, stk) =>
    let a := hoist e n
    ([.ret a.1], (a.2.2, stk ++ a.2.1))
  | s, st => ([s], st)

/-- The same for the statements of a body. Models: compilation/codegenerator.py:336-366 and NodeTransformer.generic_visit. -/
def trList (vd : Nat → Nat) : List PS → Nat × List Hoist → List PS × (Nat × List Hoist)
  | [], st => ([], st)
  | s :: rest, st =>
    let a := trStmt vd s st
    let b := trList vd rest a.2
    (a.1 ++ b.1, b.2)
end

/-- One assignment for each target. Models: compilation/codegenerator.py:391-402. -/
def splitZip : List String → PEs → List PS
  | x :: xs, .cons e es => .assign x e :: splitZip xs es
  | _, _ => []

/-- Number of expressions. Models: compilation/codegenerator.py:395. -/
def PEs.length : PEs → Nat
  | .nil => 0
  | .cons _ es => es.length + 1

mutual
/-- TupleSplitter. A tuple of the wrong length is left; the code raises an AttributeError.
Models: codegenerator.py:391-402. -/
def splitStmt : PS → List PS
  | .tuple xs es => if xs.length = es.length then splitZip xs es else [.tuple xs es]
  | .ite t b o => [.ite t (splitList b) (splitList o)]
  | .whl t b => [.whl t (splitList b)]
  | s => [s]

/-- The same for the statements of a body. Models: compilation/codegenerator.py:391-402 and NodeTransformer.generic_visit. -/
def splitList : List PS → List PS
  | [] => []
  | s :: rest => splitStmt s ++ splitList rest
end

/-- Statements of the generated C code. `eval` is the block made for a field evaluation. Models: compilation/codegenerator.py:577-623, 738-754, 787-899. -/
inductive CS where
  | assign (x : Name) (e : List Tok)
  | aug (x : Name) (op : AOp) (e : List Tok)
  | evalScalar (ts : List Name) (fs : List Nat) (args : List (List Tok))
  | evalVector (ts : List Name) (f : Nat) (args : List (List Tok))
  | ite (test : List Tok) (body orelse : List CS)
  | block (body : List CS)
  | doWhile (body : List CS) (test : List Tok)
  | ret (e : List Tok)
  | retDelete
  | brk
  | empty
  | bad

/-- The strings of some expressions. Models: compilation/codegenerator.py:534-558, 787-832. -/
def emitEach : PEs → List (List Tok)
  | .nil => []
  | .cons e es => emit e :: emitEach es

/-- The block for a field evaluation. Models: compilation/codegenerator.py:787-899. -/
def genHoist : Hoist → CS
  | .scalar ts fs args => .evalScalar ts fs (emitEach args)
  | .vector ts f args => .evalVector ts f (emitEach args)

/-- Is the token a temporary. Models: compilation/codegenerator.py:618. -/
def isTmp : Tok → Bool
  | .id (.tmp _) => true
  | _ => false

/-- `node.test.ccode.count('parcels_tmpvar')`. Models: compilation/codegenerator.py:618. -/
def tmpCount (ts : List Tok) : Nat := (ts.filter isTmp).length

mutual
/-- KernelGenerator on a statement. The first statements of the body of an `if`, as many as the test has temporaries,
are put in front of it. Models: codegenerator.py:577-623, 738-754, 897-899. -/
def gen : PS → CS
  | .assign x e => .assign (.user x) (emit e)
  | .aug x op e => .aug (.user x) op (emit e)
  | .ite test body orelse =>
    .block [.block ((genList body).take (tmpCount (emit test))),
      .ite (emit test) ((genList body).drop (tmpCount (emit test))) (genList orelse)]
  | .whl test body => .doWhile (genList body) (emit test)
  | .ret e => .ret (emit e)
  | .delete => .retDelete
  | .brk => .brk
  | .pass => .empty
  | .hoisted h => genHoist h
  | .tuple _ _ => .bad
  | .vec _ _ _ => .bad

/-- The same for the statements of a body. Models: compilation/codegenerator.py:485-495, 610-623, 738-745. -/
def genList : List PS → List CS
  | [] => []
  | s :: rest => gen s :: genList rest
end

/-- The whole translation. Models: KernelGenerator.generate, codegenerator.py:421-455. -/
def compile (vd : Nat → Nat) (p : List PS) : List CS := genList (splitList (trList vd p (0, [])).1)

/-! ### Meaning of C statements -/

/-- Go on with the value of a C expression. Models: the C language, for the strings of compilation/codegenerator.py:581-623. -/
def cVal (E : Env) (σ : St) (ts : List Tok) (k : CV → Res) : Res :=
  match cValue E σ ts with
  | none => .stuck
  | some v => k v

/-- Values of some C expressions. Models: the C language, for the strings of compilation/codegenerator.py:787-832. -/
def cVals (E : Env) (σ : St) : List (List Tok) → Option (List ℚ)
  | [] => some []
  | ts :: rest =>
    match cValue E σ ts with
    | none => none
    | some v => (cVals E σ rest).map (v.q :: ·)

/-- `err = temporal_interpolation(...); tmp *= ...; CHECKSTATUS(err)`, for each field.
Models: codegenerator.py:787-799, 822-832; include/index_search.h:11. -/
def cEvalFields (E : Env) (as : List ℚ) : List Name → List Nat → St → Res
  | t :: ts, f :: fs, σ =>
    match E.field f as with
    | .error c => .ret c σ
    | .ok v => cEvalFields E as ts fs (store E σ t v)
  | [], [], σ => .next σ
  | _, _, _ => .stuck

/-- `do body while (test)`. Models: compilation/codegenerator.py:738-745. -/
def cLoop (test : St → Option CV) (body : St → Res) : Nat → St → Res
  | 0, _ => .stuck
  | n + 1, σ =>
    match body σ with
    | .next σ' =>
      match test σ' with
      | none => .stuck
      | some v => if v.q = 0 then .next σ' else cLoop test body n σ'
    | .brk σ' => .next σ'
    | r => r

mutual
/-- Meaning of a C statement; `fuel` bounds the passes through each loop. Models: the C language, for the strings of compilation/codegenerator.py:577-623, 738-754, 787-899. -/
def cStmt (E : Env) (fuel : Nat) : CS → St → Res
  | .assign x e, σ => cVal E σ e fun v => .next (store E σ x v.q)
  | .aug x op e, σ => cVal E σ e fun v =>
      match cArith op (readVar E σ x) v with
      | none => .stuck
      | some r => .next (store E σ x r.q)
  | .evalScalar ts fs args, σ =>
    match cVals E σ args with
    | none => .stuck
    | some as => cEvalFields E as ts fs σ
  | .evalVector ts f args, σ =>
    match cVals E σ args with
    | none => .stuck
    | some as =>
      match E.vfield f as with
      | .error c => .ret c σ
      | .ok vs =>
        match storeAll E σ ts vs with
        | none => .stuck
        | some σ' => .next σ'
  | .ite test body orelse, σ => cVal E σ test fun v => if v.q = 0 then cList E fuel orelse σ else cList E fuel body σ
  | .block body, σ => cList E fuel body σ
  | .doWhile body test, σ => cLoop (fun s => cValue E s test) (cList E fuel body) fuel σ
  | .ret e, σ => cVal E σ e fun v => .ret v.q σ
  | .retDelete, σ => .ret codeDelete σ
  | .brk, σ => .brk σ
  | .empty, σ => .next σ
  | .bad, _ => .stuck

/-- One statement after the other. Models: the C language, for the bodies of compilation/codegenerator.py:485-495. -/
def cList (E : Env) (fuel : Nat) : List CS → St → Res
  | [], σ => .next σ
  | s :: rest, σ =>
    match cStmt E fuel s σ with
    | .next σ' => cList E fuel rest σ'
    | r => r
end

/-- Result of a kernel in JIT mode. The function ends with `return SUCCESS` (codegenerator.py:494). -/
def cKernel (E : Env) (fuel : Nat) (p : List CS) (σ : St) : Option (ℚ × St) :=
  match cList E fuel p σ with
  | .next σ' => some (codeSuccess, σ')
  | .ret c σ' => some (c, σ')
  | _ => none

end Parcels.Codegen
