import Verif.Spec.Codegen
import Verif.Model.CodegenStmt

/-!
The kernels for which the claims about translation of statements are stated.
-/

namespace Parcels.Codegen

/-- The name is one of the user, or a temporary with a number below `k`. -/
def belowN (k : Nat) : Name → Bool
  | .user _ => true
  | .tmp i => decide (i < k)
  | .deleted => false

mutual
/-- All names are of the user, or temporaries with numbers below `k`. The user writes expressions with `below 0`. -/
def below (k : Nat) : PE → Bool
  | .int _ => true
  | .flt _ => true
  | .var x => belowN k x
  | .names x xs => belowN k x && xs.all (belowN k)
  | .bin _ l r => below k l && below k r
  | .pow l r => below k l && below k r
  | .una _ e => below k e
  | .cmp _ l r => below k l && below k r
  | .bool _ f r => below k f && belowL k r
  | .call _ as => belowL k as
  | .sample _ _ as => belowL k as

def belowL (k : Nat) : PEs → Bool
  | .nil => true
  | .cons e es => below k e && belowL k es
end

mutual
/-- The variable occurs outside the arguments of samples. -/
def reads (x : Name) : PE → Bool
  | .int _ => false
  | .flt _ => false
  | .var y => decide (y = x)
  | .names y ys => decide (x ∈ y :: ys)
  | .bin _ l r => reads x l || reads x r
  | .pow l r => reads x l || reads x r
  | .una _ e => reads x e
  | .cmp _ l r => reads x l || reads x r
  | .bool _ f r => reads x f || readsL x r
  | .call _ as => readsL x as
  | .sample _ _ _ => false

def readsL (x : Name) : PEs → Bool
  | .nil => false
  | .cons e es => reads x e || readsL x es
end

/-- In `x1, .., xk = e1, .., ek`, no value reads, outside the arguments of samples, a variable assigned before. -/
def noOverlap : List String → PEs → Bool
  | x :: xs, .cons _ es => !readsL (.user x) es && noOverlap xs es
  | _, _ => true

mutual
/-- All samples are of single fields, with arguments that have no samples. -/
def simpleSamples : PE → Bool
  | .bin _ l r => simpleSamples l && simpleSamples r
  | .pow l r => simpleSamples l && simpleSamples r
  | .una _ e => simpleSamples e
  | .cmp _ l r => simpleSamples l && simpleSamples r
  | .bool _ f r => simpleSamples f && simpleSamplesL r
  | .call _ as => simpleSamplesL as
  | .sample _ fs as => fs.isEmpty && noSamplesL as
  | _ => true

def simpleSamplesL : PEs → Bool
  | .nil => true
  | .cons e es => simpleSamples e && simpleSamplesL es
end

/-- The first statement is an assignment of some kind. -/
def startsAssign : List PS → Bool
  | .assign _ _ :: _ => true
  | .tuple _ _ :: _ => true
  | .vec _ _ _ :: _ => true
  | .aug _ _ _ :: _ => true
  | _ => false

mutual
/-- Kernels whose C text does the same:
- all expressions are `safe`, and a value that is stored, returned or passed on is `valued`;
- tuples have the right length, and no value reads a variable assigned before it;
- `/=` has a floating-point operand, and there is no `%=`;
- samples in the test of an `if` are simple, and the body of that `if` begins with an assignment;
- no samples in the test of a `while` or in `return`;
- `particle.delete()` comes last (`tail`: nothing follows the statement). -/
def supStmt (ty : Name → Ty) (vd : Nat → Nat) (tail : Bool) : PS → Bool
  | .assign _ e => safe ty e && below 0 e && valued e
  | .tuple xs es => safeArgs ty es && belowL 0 es && decide (xs.length = es.length) && noOverlap xs es
  | .vec xs f args => safeArgs ty args && belowL 0 args && decide (xs.length = vd f)
  | .aug x op e => safe ty e && below 0 e && valued e && decide (op ≠ .mod) &&
      decide (op = .div → ty (.user x) = .dbl ∨ tyOf ty e = .dbl)
  | .ite test body orelse => safe ty test && below 0 test &&
      (noSamples test || (simpleSamples test && startsAssign body)) && supList ty vd tail body && supList ty vd tail orelse
  | .whl test body => safe ty test && below 0 test && noSamples test && supList ty vd false body
  | .ret e => safe ty e && below 0 e && valued e && noSamples e
  | .delete => tail
  | .brk => true
  | .pass => true
  | .hoisted _ => false

def supList (ty : Name → Ty) (vd : Nat → Nat) (tail : Bool) : List PS → Bool
  | [] => true
  | s :: rest => supStmt ty vd (tail && rest.isEmpty) s && supList ty vd tail rest
end

/-- The kernel is in the supported part of the language. -/
def Supported (ty : Name → Ty) (vd : Nat → Nat) (p : List PS) : Prop := supList ty vd true p = true

/-- The two states have the same values of the variables of the user. -/
def SameVars (σ σ' : St) : Prop := ∀ s, σ (.user s) = σ' (.user s)

mutual
def noWhileS : PS → Bool
  | .ite _ b o => noWhile b && noWhile o
  | .whl _ _ => false
  | _ => true

/-- The kernel has no loops. -/
def noWhile : List PS → Bool
  | [] => true
  | s :: rest => noWhileS s && noWhile rest
end

end Parcels.Codegen
