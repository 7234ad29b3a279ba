import Verif.Proofs.CodegenEval

/-!
C44: generated C expressions mean what the Python kernel says.

Full claim: for every kernel expression built from comparisons and boolean and arithmetic operators, the generated C
expression, parsed with C precedence, has the value of the Python expression. It is false; the witnesses are below.
Proved: it holds for the expressions of `safe` (Spec/Codegen).
-/

namespace Parcels.Codegen

/-- Variables `a`, `b`, `c` and so on are doubles, `n` and `m` are integers. -/
def demoTy : Name → Ty
  | .user "n" => .int
  | .user "m" => .int
  | _ => .dbl

/-- `math.f x` is `x + 1`, `pow` of two arguments is their product; a field returns the sum of its arguments. -/
def demoEnv : Env where
  fn := fun _ as => some (as.foldl (· + ·) 1)
  field := fun f as => if f = 9 then .error 6 else .ok (as.foldl (· + ·) (f : ℚ))
  vfield := fun f as => .ok [as.foldl (· + ·) (f : ℚ), as.foldl (· + ·) (f + 1 : ℚ)]
  ty := demoTy

/-- A state given by a list. -/
def stOf (l : List (String × ℚ)) : St
  | .user s => ((l.find? fun p => p.1 = s).map (·.2)).getD 0
  | _ => 0

def v (s : String) : PE := .var (.user s)

/-- C44 for values: the C text parses, evaluates without undefined behaviour, and has the value of the Python expression. -/
theorem C44_value_partial (E : Env) (σ : St) (hw : WellTyped E.ty σ) (e : PE) (r : ℚ) (hs : safe E.ty e = true)
    (hn : noSamples e = true) (hv : valued e = true) (h : pyEval E σ e = .ok r) :
    ∃ w, cValue E σ (emit e) = some w ∧ w.q = r := by
  obtain ⟨w, h1, _, h3, _⟩ := cValue_emit E σ hw e r hs hn h
  exact ⟨w, h1, h3 hv⟩

/-- C44 for conditions: where `and` and `or` join numbers, the C text has the truth value of the Python expression. -/
theorem C44_truth_partial (E : Env) (σ : St) (hw : WellTyped E.ty σ) (e : PE) (r : ℚ) (hs : safe E.ty e = true)
    (hn : noSamples e = true) (h : pyEval E σ e = .ok r) :
    ∃ w, cValue E σ (emit e) = some w ∧ (w.q = 0 ↔ r = 0) := by
  obtain ⟨w, h1, h2, _⟩ := cValue_emit E σ hw e r hs hn h
  exact ⟨w, h1, h2⟩

/-- `((u1 + 2*u2 + 2*u3 + u4) / 6.) * dt`, as in AdvectionRK4, and `not (a < 1 and b > n or c == 0)`. -/
def rk4Sum : PE :=
  .bin .mul (.bin .div (.bin .add (.bin .add (.bin .add (v "u1") (.bin .mul (.int 2) (v "u2"))) (.bin .mul (.int 2) (v "u3")))
    (v "u4")) (.flt 6)) (v "dt")

def condition : PE :=
  .una .not (.bool false (.bool true (.cmp .lt (v "a") (.int 1)) (.cons (.cmp .gt (v "b") (v "n")) .nil))
    (.cons (.cmp .eq (v "c") (.int 0)) .nil))

example : safe demoTy rk4Sum = true ∧ noSamples rk4Sum = true ∧ valued rk4Sum = true := by decide +kernel

example : pyEval demoEnv (stOf [("u1", 1), ("u2", 2), ("u3", 3), ("u4", 1), ("dt", 6)]) rk4Sum = .ok 12 := by decide +kernel

example : safe demoTy condition = true ∧ noSamples condition = true ∧ valued condition = true := by decide +kernel

example : WellTyped demoTy (stOf [("a", 1/2), ("b", 3), ("n", 2)]) := by
  intro x hx
  cases x with
  | tmp n => cases hx
  | deleted => cases hx
  | user s =>
    by_cases h : s = "n"
    · subst h; decide +kernel
    · by_cases h' : s = "m"
      · subst h'; decide +kernel
      · exact absurd hx (by unfold demoTy; simp [h, h'])

example : safe demoTy (.bool false (v "a") (.cons (v "b") .nil)) = true := by decide +kernel

/-- The full claim fails, `(a or b) and c` becomes `a || b && c`: `and` does not put parentheses around an `or`. -/
theorem C44_or_in_and_fails :
    let e : PE := .bool true (.bool false (.cmp .gt (v "a") (.int 0)) (.cons (.cmp .gt (v "b") (.int 0)) .nil)) (.cons (.cmp .gt (v "c") (.int 0)) .nil)
    let σ := stOf [("a", 1)];
    pyEval demoEnv σ e = .ok 0 ∧ cValue demoEnv σ (emit e) = some (.int 1) := by decide +kernel

/-- `(a < b) * c` becomes `(a < b * c)`. -/
theorem C44_comparison_in_product_fails : let e : PE := .bin .mul (.cmp .lt (v "a") (v "b")) (v "c")
    let σ := stOf [("a", 1), ("b", 2), ("c", 5)]
    pyEval demoEnv σ e = .ok 5 ∧ cValue demoEnv σ (emit e) = some (.int 1) := by decide +kernel

/-- `a < (b < c)` becomes `a < b < c`, which C groups to the left. -/
theorem C44_comparison_of_comparison_fails : let e : PE := .cmp .lt (v "a") (.cmp .lt (v "b") (v "c"))
    let σ := stOf [("a", 2), ("b", 3), ("c", 2)]
    pyEval demoEnv σ e = .ok 0 ∧ cValue demoEnv σ (emit e) = some (.int 1) := by decide +kernel

/-- `1 / 2` is an integer division in C. -/
theorem C44_integer_division_fails : let e : PE := .bin .div (.int 1) (.int 2)
    pyEval demoEnv (stOf []) e = .ok (1 / 2) ∧ cValue demoEnv (stOf []) (emit e) = some (.int 0) := by decide +kernel

/-- `n % 3` of a negative number is negative in C. -/
theorem C44_modulo_fails : let e : PE := .bin .mod (v "n") (.int 3)
    pyEval demoEnv (stOf [("n", -1)]) e = .ok 2 ∧ cValue demoEnv (stOf [("n", -1)]) (emit e) = some (.int (-1)) := by decide +kernel

/-- `a % 3` does not compile when `a` is a floating-point number. -/
theorem C44_float_modulo_fails : let e : PE := .bin .mod (v "a") (.int 3)
    pyEval demoEnv (stOf [("a", 4)]) e = .ok 1 ∧ cValue demoEnv (stOf [("a", 4)]) (emit e) = none := by decide +kernel

/-- `a or b` is the operand that decides in Python, and 1 in C. -/
theorem C44_or_as_number_fails : let e : PE := .bool false (v "a") (.cons (v "b") .nil)
    pyEval demoEnv (stOf [("b", 5)]) e = .ok 5 ∧ cValue demoEnv (stOf [("b", 5)]) (emit e) = some (.int 1) := by decide +kernel

end Parcels.Codegen
