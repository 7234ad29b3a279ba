import Verif.Proofs.CodegenStmt
import Verif.Props.Codegen

/-!
C45: generated C statements do what the Python kernel does.

Full claim: assignments (also of tuples), `if` and `while` in a kernel have the same effect in JIT and in Scipy mode. It
is false; the witnesses are below. Proved: it holds for the kernels of `Supported` (Spec/CodegenStmt), if the test of
every loop is true when the loop is reached.
-/

namespace Parcels.Codegen

/-- C45: from states with the same variables, the C kernel ends with the status code of the Python kernel and the same
variables. `pyKernel E true` has a result only if every loop that is reached is entered. -/
theorem C45_kernel_partial (E : Env) (vd : Nat → Nat) (fuel : Nat) (ht : ∀ i, E.ty (.tmp i) = .dbl) (p : List PS) (σ σc : St)
    (hp : Supported E.ty vd p) (hv : SameVars σ σc) (hw : WellTyped E.ty σc) (hd : σ .deleted = 0) (c : ℚ) (σ' : St)
    (h : pyKernel E true fuel p σ = some (c, σ')) :
    pyKernel E false fuel p σ = some (c, σ') ∧
    ∃ σc', cKernel E fuel (compile vd p) σc = some (c, σc') ∧ SameVars σ' σc' := by
  refine ⟨?_, kernel_rel E vd fuel ht p σ σc hp hv hw hd c σ' h⟩
  unfold pyKernel at h ⊢
  rw [list_strict E fuel p σ]
  · exact h
  · intro hs
    rw [hs] at h
    cases h

/-- C45 for kernels without loops. -/
theorem C45_no_loops_partial (E : Env) (vd : Nat → Nat) (fuel : Nat) (ht : ∀ i, E.ty (.tmp i) = .dbl) (p : List PS) (σ σc : St)
    (hp : Supported E.ty vd p) (hl : noWhile p = true) (hv : SameVars σ σc) (hw : WellTyped E.ty σc) (hd : σ .deleted = 0)
    (c : ℚ) (σ' : St) (h : pyKernel E false fuel p σ = some (c, σ')) :
    ∃ σc', cKernel E fuel (compile vd p) σc = some (c, σc') ∧ SameVars σ' σc' := by
  refine kernel_rel E vd fuel ht p σ σc hp hv hw hd c σ' ?_
  unfold pyKernel at h ⊢
  rw [list_noWhile E fuel p σ hl]
  exact h

/-! ### Kernels of the library -/

def args4 (t z y x : PE) : PEs := .cons t (.cons z (.cons y (.cons x .nil)))

/-- `a + b*.5*dt`. -/
def half (a b : String) : PE := .bin .add (v a) (.bin .mul (.bin .mul (v b) (.flt (1/2))) (v "dt"))
/-- `a + b*dt`. -/
def full (a b : String) : PE := .bin .add (v a) (.bin .mul (v b) (v "dt"))
/-- `time + .5*dt`. -/
def tHalf : PE := .bin .add (v "time") (.bin .mul (.flt (1/2)) (v "dt"))
/-- `(a + 2*b + 2*c + d) / 6. * dt`. -/
def simpson (a b c d : String) : PE :=
  .bin .mul (.bin .div (.bin .add (.bin .add (.bin .add (v a) (.bin .mul (.int 2) (v b))) (.bin .mul (.int 2) (v c))) (v d))
    (.flt 6)) (v "dt")

/-- AdvectionRK4, with `fieldset.UV` as vector field 0, and `fieldset.UV[particle]` written out.
Models: parcels/kernels/advection.py:11-23. -/
def rk4 : List PS := [
  .vec ["u1", "v1"] 0 (args4 (v "time") (v "depth") (v "lat") (v "lon")),
  .tuple ["lon1", "lat1"] (.cons (half "lon" "u1") (.cons (half "lat" "v1") .nil)),
  .vec ["u2", "v2"] 0 (args4 tHalf (v "depth") (v "lat1") (v "lon1")),
  .tuple ["lon2", "lat2"] (.cons (half "lon" "u2") (.cons (half "lat" "v2") .nil)),
  .vec ["u3", "v3"] 0 (args4 tHalf (v "depth") (v "lat2") (v "lon2")),
  .tuple ["lon3", "lat3"] (.cons (full "lon" "u3") (.cons (full "lat" "v3") .nil)),
  .vec ["u4", "v4"] 0 (args4 (.bin .add (v "time") (v "dt")) (v "depth") (v "lat3") (v "lon3")),
  .aug "lon" .add (simpson "u1" "u2" "u3" "u4"),
  .aug "lat" .add (simpson "v1" "v2" "v3" "v4")]

/-- AdvectionRK4_3D. Models: parcels/kernels/advection.py:26-45. -/
def rk43D : List PS := [
  .vec ["u1", "v1", "w1"] 1 (args4 (v "time") (v "depth") (v "lat") (v "lon")),
  .assign "lon1" (half "lon" "u1"), .assign "lat1" (half "lat" "v1"), .assign "dep1" (half "depth" "w1"),
  .vec ["u2", "v2", "w2"] 1 (args4 tHalf (v "dep1") (v "lat1") (v "lon1")),
  .assign "lon2" (half "lon" "u2"), .assign "lat2" (half "lat" "v2"), .assign "dep2" (half "depth" "w2"),
  .vec ["u3", "v3", "w3"] 1 (args4 tHalf (v "dep2") (v "lat2") (v "lon2")),
  .assign "lon3" (full "lon" "u3"), .assign "lat3" (full "lat" "v3"), .assign "dep3" (full "depth" "w3"),
  .vec ["u4", "v4", "w4"] 1 (args4 (.bin .add (v "time") (v "dt")) (v "dep3") (v "lat3") (v "lon3")),
  .aug "lon" .add (simpson "u1" "u2" "u3" "u4"),
  .aug "lat" .add (simpson "v1" "v2" "v3" "v4"),
  .aug "depth" .add (simpson "w1" "w2" "w3" "w4")]

/-- AdvectionEE. Models: parcels/kernels/advection.py:48-54. -/
def euler : List PS := [
  .vec ["u1", "v1"] 0 (args4 (v "time") (v "depth") (v "lat") (v "lon")),
  .aug "lon" .add (.bin .mul (v "u1") (v "dt")),
  .aug "lat" .add (.bin .mul (v "v1") (v "dt"))]

/-- Vector field 0 has two components, the others three. -/
def demoVd (f : Nat) : Nat := if f = 0 then 2 else 3

/-- All variables are floating-point numbers. -/
def allDbl (_ : Name) : Ty := .dbl

theorem wellTyped_allDbl (σ : St) : WellTyped allDbl σ := fun _ h => nomatch h

/-- The advection kernels of the library move particles alike in both modes, whatever the fields are. -/
theorem C45_advection (E : Env) (hty : E.ty = allDbl) (p : List PS) (hp : p = rk4 ∨ p = rk43D ∨ p = euler) (fuel : Nat) (σ : St)
    (hd : σ .deleted = 0) (c : ℚ) (σ' : St) (h : pyKernel E false fuel p σ = some (c, σ')) :
    ∃ σc', cKernel E fuel (compile demoVd p) σ = some (c, σc') ∧ SameVars σ' σc' := by
  refine C45_no_loops_partial E demoVd fuel (by rw [hty]; exact fun _ => rfl) p σ σ ?_ ?_ (fun _ => rfl)
    (by rw [hty]; exact wellTyped_allDbl σ) hd c σ' h
  · rw [hty]
    rcases hp with rfl | rfl | rfl <;> (unfold Supported; decide +kernel)
  · rcases hp with rfl | rfl | rfl <;> decide +kernel

/-- In `demoEnv`, AdvectionEE has a result. -/
example : (pyKernel demoEnv false 1 euler (stOf [("lon", 1), ("lat", 2), ("dt", 10)])).map
    (fun r => (r.1, r.2 (.user "lon"), r.2 (.user "lat"))) = some (0, 31, 42) := by decide +kernel

/-- A kernel with a sample in a test, a loop and a deletion:
`if fieldset.P[..] > 1: a = 2; while a < 5: a += P[..]; if a > 3: if b > 0: particle.delete() else: return 4`. -/
def sampler : List PS := [
  .ite (.cmp .gt (.sample 1 [] (.cons (v "b") .nil)) (.int 1)) [.assign "a" (.int 2), .assign "c" (.int 1)] [.assign "a" (.int 1)],
  .whl (.cmp .lt (v "a") (.int 5)) [.aug "a" .add (.sample 1 [2] (.cons (v "b") .nil)), .aug "n" .add (.int 1)],
  .ite (.cmp .gt (v "a") (.int 3)) [.ite (.cmp .gt (v "b") (.int 0)) [.delete] [.ret (.int 4)]] []]

example : Supported demoTy demoVd sampler := by unfold Supported; decide +kernel

example : (pyKernel demoEnv true 10 sampler (stOf [("b", 1)])).map (fun r => (r.1, r.2 (.user "a"), r.2 (.user "n"))) =
    some (3, 7, 1) := by decide +kernel

example : (cKernel demoEnv 10 (compile demoVd sampler) (stOf [("b", 1)])).map (fun r => (r.1, r.2 (.user "a"), r.2 (.user "n"))) =
    some (3, 7, 1) := by decide +kernel

/-! ### Where the modes differ -/

/-- Status code and values of `a` and `b`. -/
def seen (r : Option (ℚ × St)) : Option (ℚ × ℚ × ℚ) := r.map fun p => (p.1, p.2 (.user "a"), p.2 (.user "b"))

/-- Both modes, from the same state. -/
def scipy (p : List PS) (l : List (String × ℚ)) := seen (pyKernel demoEnv false 20 p (stOf l))
def jit (p : List PS) (l : List (String × ℚ)) := seen (cKernel demoEnv 20 (compile demoVd p) (stOf l))

/-- `a, b = b, a` does not swap in JIT mode. -/
theorem C45_swap_fails : let p : List PS := [.tuple ["a", "b"] (.cons (v "b") (.cons (v "a") .nil))]
    scipy p [("a", 1), ("b", 2)] = some (0, 2, 1) ∧ jit p [("a", 1), ("b", 2)] = some (0, 2, 2) := by decide +kernel

/-- `while a < 1: a += 1` runs once in JIT mode if the test is false. -/
theorem C45_while_fails : let p : List PS := [.whl (.cmp .lt (v "a") (.int 1)) [.aug "a" .add (.int 1)]]
    scipy p [("a", 3)] = some (0, 3, 0) ∧ jit p [("a", 3)] = some (0, 4, 0) := by decide +kernel

/-- `while fieldset.P[a] < 4: a += 1` tests a value from before the last pass in JIT mode. -/
theorem C45_while_sample_fails :
    let p : List PS := [.whl (.cmp .lt (.sample 1 [] (.cons (v "a") .nil)) (.int 4)) [.aug "a" .add (.int 1)]]
    scipy p [] = some (0, 3, 0) ∧ jit p [] = some (0, 4, 0) := by decide +kernel

/-- Statements after `particle.delete()` are not run in JIT mode. -/
theorem C45_after_delete_fails : let p : List PS := [.delete, .assign "a" (.int 5)]
    scipy p [] = some (3, 5, 0) ∧ jit p [] = some (3, 0, 0) := by decide +kernel

/-- `if fieldset.P[a] > 2: particle.delete()` deletes every particle in JIT mode. -/
theorem C45_delete_if_sample_fails :
    let p : List PS := [.ite (.cmp .gt (.sample 1 [] (.cons (v "a") .nil)) (.int 2)) [.delete] []]
    scipy p [] = some (0, 0, 0) ∧ jit p [] = some (3, 0, 0) := by decide +kernel

/-- `if fieldset.S[b] > 9: a = 5; b = 6`, where S is the sum of two fields, sets `a` anyway in JIT mode. -/
theorem C45_if_summed_fails :
    let p : List PS := [.ite (.cmp .gt (.sample 1 [2] (.cons (v "b") .nil)) (.int 9)) [.assign "a" (.int 5), .assign "b" (.int 6)] []]
    scipy p [] = some (0, 0, 0) ∧ jit p [] = some (0, 5, 0) := by decide +kernel

/-- `if b > 0 and fieldset.P[b] > 1: a = 1` samples P in any case in JIT mode, here outside its domain. -/
theorem C45_short_circuit_fails :
    let p : List PS := [.ite (.bool true (.cmp .gt (v "b") (.int 0)) (.cons (.cmp .gt (.sample 9 [] (.cons (v "b") .nil)) (.int 1)) .nil))
      [.assign "a" (.int 1)] []]
    scipy p [] = some (0, 0, 0) ∧ jit p [] = some (6, 0, 0) := by decide +kernel

/-- `a = 2 * fieldset.S[b]` doubles only the first field of a sum in JIT mode. -/
theorem C45_product_of_sum_fails :
    let p : List PS := [.assign "a" (.bin .mul (.int 2) (.sample 1 [2] (.cons (v "b") .nil)))]
    scipy p [] = some (0, 6, 0) ∧ jit p [] = some (0, 4, 0) := by decide +kernel

end Parcels.Codegen
