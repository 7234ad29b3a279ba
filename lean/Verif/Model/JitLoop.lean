import Verif.Model.KernelLoop

/-!
Model of the generated C particle loop `particle_loop`, as written by `LoopGenerator.generate`
(parcels/compilation/codegenerator.py:930-1069), for the same kernels as the model of the Scipy loop (Model/KernelLoop).

Simplifications: the search indices of the particle (pointers, which the C code does not back up) are not part of the
particle; `StatusCode` values are `Code`s.
-/

namespace Parcels.JitLoop

open KernelLoop

/-- `x > 0 ? 1 : -1`. Models: codegenerator.py:1010, 1012. -/
def csgn (x : ℚ) : ℚ := if 0 < x then 1 else -1

/-- DBL_EPSILON. Models: parcels.h:39-41, 58-60 (from float.h). -/
def eps : ℚ := 1 / 2 ^ 52

/-- `is_equal_dbl`. Models: parcels/include/parcels.h:39-41. -/
def isEqual (a b : ℚ) : Bool := decide (|a - b| ≤ eps * |b|)

/-- `is_zero_dbl`. Models: parcels/include/parcels.h:58-60. -/
def isZero (a : ℚ) : Bool := decide (|a| ≤ eps * |a|)

/-- `is_close_dbl`, with the tolerances of numpy. Models: parcels/include/parcels.h:18-19, 34-36. -/
def isCloseC (a b : ℚ) : Bool := decide (|a - b| ≤ 1 / 100000000 + 1 / 100000 * |b|)

/-- The status code a kernel function returns: an error of a field evaluation is returned as a code, and a kernel without
`return` ends with `return SUCCESS` (codegenerator.py:494). -/
def code {V : Type} (out : KOut V) : Code :=
  match out.res with
  | .exc e => e.code
  | .ret c => c.getD .success

/-- Result code after a kernel call. Models: codegenerator.py:1038-1040. -/
def resolve {V : Type} (pre : Particle V) (out : KOut V) : Code :=
  let res0 := code out
  let res1 := if res0 = .success ∧ out.p.state ≠ pre.state then out.p.state else res0
  if res1 = .success ∧ ¬ isEqual pre.dt out.p.dt then .repeat else res1

/-- State while the loop works on one particle. `nextDt` are the C globals `_next_dt` and `_next_dt_set`. `trace` is ghost.
Models: compilation/codegenerator.py:946-947, 1010-1022, 1062-1066. -/
structure JS (W V : Type) where
  w : W
  p : Particle V
  dtPos : ℚ
  nextDt : Option ℚ
  trace : List (Call V)

/-- One turn of `while`, and whether it ends with `break`. Models: codegenerator.py:1034-1057. -/
def step {W V : Type} (K : Kern W V) (E dt : ℚ) (s : JS W V) : JS W V × Bool :=
  let back := s.p                                                     -- 1034
  let pre := { s.p with dt := s.dtPos * csgn dt }                     -- 1035-1036
  let r := K s.w pre                                                  -- 1038
  let out := r.2
  let nextDt := out.nextDt.orElse (fun _ => s.nextDt)                 -- 985-991
  let res := resolve pre out                                          -- 1039-1040
  let tr := s.trace ++ [⟨pre, res, out.p⟩]
  if res = .success ∨ res = .delete then                              -- 1041
    let time' := out.p.time + out.p.dt
    let dt' := nextDt.getD out.p.dt                                   -- 1015-1016, 1042
    let dtPos := min |dt'| |E - time'|                                -- 1043
    let signEnd := csgn (E - time')                                   -- 1044
    let res' := if res ≠ .delete ∧ ¬ isCloseC dtPos 0 ∧ csgn dt = signEnd then .evaluate else res  -- 1045-1046
    let dtPos' := if csgn dt ≠ signEnd then 0 else dtPos              -- 1047
    (⟨r.1, { out.p with time := time', dt := dt', state := res' }, dtPos', none, tr⟩, isZero dt')  -- 1048-1049
  else
    let p' := { out.p with state := res, time := back.time, vars := back.vars }                    -- 1051, 1055
    let dtPos := min |p'.dt| |E - p'.time|                            -- 1052
    let dtPos' := if csgn dt ≠ csgn (E - p'.time) then 0 else dtPos   -- 1053-1054
    (⟨r.1, p', dtPos', nextDt, tr⟩, true)                             -- 1056

/-- Condition of `while`. Models: codegenerator.py:1059. -/
def cond {W V : Type} (s : JS W V) : Prop :=
  s.p.state = .evaluate ∨ s.p.state = .repeat ∨ isZero s.p.dt = true

instance {W V : Type} (s : JS W V) : Decidable (cond s) := by unfold cond; infer_instance

/-- The `while` loop. Models: codegenerator.py:1059. -/
def loop {W V : Type} (K : Kern W V) (E dt : ℚ) : Nat → JS W V → Option (JS W V)
  | 0, _ => none
  | n + 1, s =>
    if cond s then
      match step K E dt s with
      | (s', true) => some s'
      | (s', false) => loop K E dt n s'
    else some s

/-- Is the particle skipped? Models: codegenerator.py:1026. -/
def skips {V : Type} (E dt : ℚ) (p : Particle V) : Prop :=
  (csgn (E - p.time) ≠ csgn dt ∨ isCloseC (min |p.dt| |E - p.time|) 0 = true) ∧ isZero p.dt = false

instance {V : Type} (E dt : ℚ) (p : Particle V) : Decidable (skips E dt p) := by unfold skips; infer_instance

/-- Body of the loop over particles; `g` are the globals. Models: codegenerator.py:1060-1061, 1026-1031. -/
def exec1 {W V : Type} (K : Kern W V) (E dt : ℚ) (fuel : Nat) (w : W) (g : Option ℚ) (p : Particle V) : Option (JS W V) :=
  let dtPos := min |p.dt| |E - p.time|
  if skips E dt p then
    some ⟨w, if |p.time| ≥ |E| then { p with state := .success } else p, dtPos, g, []⟩
  else loop K E dt fuel ⟨w, p, dtPos, g, []⟩

/-- All particles, one after the other. Models: codegenerator.py:1060-1066. -/
def pass {W V : Type} (K : Kern W V) (E dt : ℚ) (fuel : Nat) :
    W → Option ℚ → List (Particle V) → Option (W × Option ℚ × List (Particle V × List (Call V)))
  | w, g, [] => some (w, g, [])
  | w, g, p :: ps =>
    match exec1 K E dt fuel w g p with
    | none => none
    | some s =>
      match pass K E dt fuel s.w s.nextDt ps with
      | none => none
      | some (w', g', rs) => some (w', g', (s.p, s.trace) :: rs)

end Parcels.JitLoop
