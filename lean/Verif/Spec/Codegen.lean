import Verif.Model.Codegen

/-!
The part of the kernel language for which the claims about translation are stated.
-/

namespace Parcels.Codegen

/-- The level of the operators that stand outside parentheses in the C text of an expression; 6 if there are none. -/
def prec : PE → Nat
  | .names _ [] => 6
  | .names _ _ => 4
  | .sample _ [] _ => 6
  | .sample _ _ _ => 4
  | .cmp op _ _ => level (.cmp op)
  | .bool isAnd _ _ => if isAnd then 1 else 0
  | _ => 6

/-- The C type of an expression. -/
def tyOf (ty : Name → Ty) : PE → Ty
  | .int _ => .int
  | .flt _ => .dbl
  | .var x => ty x
  | .names _ _ => .dbl
  | .bin _ l r => if tyOf ty l = .int ∧ tyOf ty r = .int then .int else .dbl
  | .pow _ _ => .dbl
  | .una .not _ => .int
  | .una _ e => tyOf ty e
  | .cmp _ _ _ => .int
  | .bool _ _ _ => .int
  | .call _ _ => .dbl
  | .sample _ _ _ => .dbl

mutual
/-- The expression is True or False by its form. -/
def boolean : PE → Bool
  | .cmp _ _ _ => true
  | .una .not _ => true
  | .bool _ f r => boolean f && allBoolean r
  | _ => false

def allBoolean : PEs → Bool
  | .nil => true
  | .cons e es => boolean e && allBoolean es
end

/-- The value of the expression, not only its truth, may be used: an `and` or `or` joins only conditions. -/
def valued : PE → Bool
  | .bool a f r => boolean (.bool a f r)
  | _ => true

mutual
def noSamples : PE → Bool
  | .bin _ l r => noSamples l && noSamples r
  | .pow l r => noSamples l && noSamples r
  | .una _ e => noSamples e
  | .cmp _ l r => noSamples l && noSamples r
  | .bool _ f r => noSamples f && noSamplesL r
  | .call _ as => noSamplesL as
  | .sample _ _ _ => false
  | _ => true

def noSamplesL : PEs → Bool
  | .nil => true
  | .cons e es => noSamples e && noSamplesL es
end

mutual
/-- Expressions whose C text means the same:
- an operand of an arithmetic operator or comparison is not itself an `or`, `and`, comparison or sum of samples that
  binds less than the operator;
- an operand of `and` is not an `or` (and beyond the first operand, not another `and`);
- no `%`, and no division of an integer by an integer;
- `and`/`or` is used as a number only if it joins conditions;
- samples stand only in the first operand of `and`/`or`, of which there are at least two. -/
def safe (ty : Name → Ty) : PE → Bool
  | .int _ => true
  | .flt _ => true
  | .var _ => true
  | .names x xs => decide (ty x = .dbl) && xs.all fun y => decide (ty y = .dbl)
  | .bin op l r =>
    safe ty l && safe ty r && valued l && valued r && decide (level (.arith op) ≤ prec l) && decide (level (.arith op) < prec r) &&
      decide (op ≠ .mod) && decide (op = .div → tyOf ty l = .dbl ∨ tyOf ty r = .dbl)
  | .pow l r => safe ty l && safe ty r && valued l && valued r
  | .una op e => safe ty e && (decide (op = .not) || valued e)
  | .cmp op l r =>
    safe ty l && safe ty r && valued l && valued r && decide (level (.cmp op) ≤ prec l) && decide (level (.cmp op) < prec r)
  | .bool isAnd f r =>
    safe ty f && decide ((if isAnd then 1 else 0) ≤ prec f) && safeRest ty (if isAnd then 1 else 0) r && noSamplesL r &&
      decide (r ≠ .nil)
  | .call _ as => safeArgs ty as
  | .sample _ _ as => safeArgs ty as

def safeRest (ty : Name → Ty) (l : Nat) : PEs → Bool
  | .nil => true
  | .cons e es => safe ty e && decide (l < prec e) && safeRest ty l es

def safeArgs (ty : Name → Ty) : PEs → Bool
  | .nil => true
  | .cons e es => safe ty e && valued e && safeArgs ty es
end

/-- Integer variables hold integers. -/
def WellTyped (ty : Name → Ty) (σ : St) : Prop := ∀ x, ty x = .int → ((Converters.truncInt (σ x) : ℤ) : ℚ) = σ x

end Parcels.Codegen
