import Verif.Model.Base

/-!
Model of the Scipy-mode particle loop `Kernel.execute_python` (parcels/kernel.py:273-368), for
kernels other than `AdvectionAnalytical` (the `analytical` flag is false throughout).
-/

namespace Parcels.KernelLoop

/-- One particle. `vars` stands for all variables of the particle type other than `time`, `dt` and
`state` (position, identifiers, grid indices and user variables).
Models: the variables of parcels/particle.py:175-187 plus user-defined ones. -/
structure Particle (V : Type) where
  time : ℚ
  dt : ℚ
  state : Code
  vars : V
deriving DecidableEq, Repr

/-- Exceptions distinguished by the loop. Models: parcels/kernel.py:325-337. -/
inductive Exc where
  | outOfBound
  | outOfBoundSurface
  | timeExtrapolation
  | anyOther
deriving DecidableEq, Repr

/-- Status code recorded for an exception. Models: parcels/kernel.py:325-337. -/
def Exc.code : Exc → Code
  | .outOfBound => .errorOutOfBounds
  | .outOfBoundSurface => .errorThroughSurface
  | .timeExtrapolation => .errorTimeExtrapolation
  | .anyOther => .error

/-- How a kernel call ended: it returned a code (`none` is Python's `None`), or raised. Models: kernel.py:315-337. -/
inductive KRes where
  | ret (c : Option Code)
  | exc (e : Exc)
deriving DecidableEq, Repr

/-- Everything a kernel call can do to its particle: overwrite the particle (`p`), call
`particle.update_next_dt(x)` (`nextDt = some x`, the last one counts), and end (`res`).
Models: the interface of `self.pyfunc(p, pset.fieldset, p.time)` at parcels/kernel.py:315 and
parcels/particlesets/collectionsoa.py:945-951. -/
structure KOut (V : Type) where
  p : Particle V
  nextDt : Option ℚ
  res : KRes

/-- A user kernel: an arbitrary function of the particle and of an outside world `W`
(random generator, fields, global variables). Models: kernel.py:315 (`self.pyfunc`). -/
abbrev Kern (W V : Type) := W → Particle V → W × KOut V

/-- Ghost record of one kernel call: the particle the kernel was given, the result code after the
loop's post-processing, and the particle as the kernel left it. Not present in the code. Models: ghost state for kernel.py:315-337. -/
structure Call (V : Type) where
  before : Particle V
  code : Code
  after : Particle V

/-- Local variables of `execute_python` while it works on one particle. `back` is the dictionary
`p_var_back` (shared by all particles, parcels/kernel.py:286), `nextDt` the accessor's `_next_dt`,
`trace` is ghost. -/
structure LS (W V : Type) where
  w : W
  p : Particle V
  dtPos : ℚ
  nextDt : Option ℚ
  back : Option (Particle V)
  trace : List (Call V)

/-- Result code after a kernel call on `pre` (the particle with `dt` already set to
`pdt_prekernels`). Models: parcels/kernel.py:315-337. Simplification: `res is StateCode.Success`
(object identity) is read as equality. -/
def resolve {V : Type} (pre : Particle V) (out : KOut V) : Code :=
  match out.res with
  | .exc e => e.code
  | .ret c =>
    let res0 := c.getD .success
    let res1 := if res0 = .success ∧ out.p.state ≠ pre.state then out.p.state else res0
    if res1 = .success ∧ ¬ isclose out.p.dt pre.dt then .repeat else res1

/-- One turn of the `while` loop; the Boolean says whether the turn ends with `break`.
Models: parcels/kernel.py:309-368. -/
def step {W V : Type} (K : Kern W V) (E dt : ℚ) (s : LS W V) : LS W V × Bool :=
  let back := s.p                                             -- 309-310
  let pre := { s.p with dt := sgn dt * s.dtPos }              -- 312-313
  let (w', out) := K s.w pre                                  -- 315
  let nextDt := out.nextDt.orElse (fun _ => s.nextDt)
  let res := resolve pre out                                  -- 316-337
  let tr := s.trace ++ [⟨pre, res, out.p⟩]
  if res = .success ∨ res = .delete then                      -- 340
    let time' := out.p.time + out.p.dt                        -- 342
    let dt' := nextDt.getD out.p.dt                           -- 343
    let dtPos := min |dt'| |E - time'|                        -- 346
    let signEnd := sgn (E - time')                            -- 348
    let res' := if res ≠ .delete ∧ ¬ isclose dtPos 0 ∧ signEnd = sgn dt
                then .evaluate else res                       -- 349-350
    let dtPos' := if signEnd ≠ sgn dt then 0 else dtPos       -- 351-352
    ({ w := w', p := { out.p with time := time', dt := dt', state := res' },
       dtPos := dtPos', nextDt := none, back := some back, trace := tr },
     isclose dt 0)                                            -- 354-356
  else
    let p' := { out.p with state := res, time := back.time, vars := back.vars }  -- 358-362
    let dtPos := min |p'.dt| |E - p'.time|                    -- 363
    let dtPos' := if sgn (E - p'.time) ≠ sgn dt then 0 else dtPos
    -- `_next_dt` is itself in `ptype.variables` (parcels/particle.py:187), so it is restored too
    ({ w := w', p := p', dtPos := dtPos', nextDt := s.nextDt, back := some back, trace := tr },
     true)                                                    -- 368

/-- Condition of the `while` loop. Models: parcels/kernel.py:307. -/
def cond {W V : Type} (dt : ℚ) (s : LS W V) : Prop :=
  s.p.state = .evaluate ∨ s.p.state = .repeat ∨ isclose dt 0 = true

instance {W V : Type} (dt : ℚ) (s : LS W V) : Decidable (cond dt s) := by
  unfold cond; infer_instance

/-- The `while` loop, with fuel; `none` means the fuel ran out.
Models: parcels/kernel.py:307-368. -/
def loop {W V : Type} (K : Kern W V) (E dt : ℚ) : Nat → LS W V → Option (LS W V)
  | 0, _ => none
  | n + 1, s =>
    if cond dt s then
      match step K E dt s with
      | (s', true) => some s'
      | (s', false) => loop K E dt n s'
    else some s

/-- The part of the particle loop before the `while`: is the particle skipped?
Models: parcels/kernel.py:296-302. -/
def skips {V : Type} (E dt : ℚ) (p : Particle V) : Prop :=
  (sgn (E - p.time) ≠ sgn dt ∨ isclose (min |p.dt| |E - p.time|) 0 = true) ∧ isclose dt 0 = false

instance {V : Type} (E dt : ℚ) (p : Particle V) : Decidable (skips E dt p) := by
  unfold skips; infer_instance

/-- Body of `for p in pset`. Input: world, the shared backup dictionary, the particle.
Models: parcels/kernel.py:294-368. -/
def exec1 {W V : Type} (K : Kern W V) (E dt : ℚ) (fuel : Nat) (w : W) (back : Option (Particle V))
    (p : Particle V) : Option (LS W V) :=
  let dtPos := min |p.dt| |E - p.time|
  if skips E dt p then
    let p' := if |p.time| ≥ |E| then { p with state := .success } else p     -- 303-305
    some { w := w, p := p', dtPos := dtPos, nextDt := none, back := back, trace := [] }
  else
    loop K E dt fuel { w := w, p := p, dtPos := dtPos, nextDt := none, back := back, trace := [] }

/-- `for p in pset: ...`: the particles one after the other, threading the world and the shared
backup dictionary; returns for each particle the final particle and the ghost list of its kernel
calls. Models: parcels/kernel.py:286,294-368. -/
def pass {W V : Type} (K : Kern W V) (E dt : ℚ) (fuel : Nat) :
    W → Option (Particle V) → List (Particle V) →
      Option (W × Option (Particle V) × List (Particle V × List (Call V)))
  | w, back, [] => some (w, back, [])
  | w, back, p :: ps =>
    match exec1 K E dt fuel w back p with
    | none => none
    | some s =>
      match pass K E dt fuel s.w s.back ps with
      | none => none
      | some (w', back', rs) => some (w', back', (s.p, s.trace) :: rs)

/-- A run over several interruption times `Es`: at each one the particle is set to Evaluate and
executed up to it; `dt` is not reset in between. Returns the final particle and all its calls,
segment by segment.
Models: parcels/particlesets/baseparticleset.py:403,434-447 (the event loop) with
parcels/kernel.py:399,423-424. Simplification: a single particle, no recovery round between two
interruptions. -/
def segments {W V : Type} (K : Kern W V) (dt : ℚ) (fuel : Nat) :
    W → List ℚ → Particle V → Option (Particle V × List (List (Call V)))
  | _, [], p => some (p, [])
  | w, E :: Es, p =>
    match exec1 K E dt fuel w none { p with state := .evaluate } with
    | none => none
    | some s =>
      match segments K dt fuel s.w Es s.p with
      | none => none
      | some (q, trs) => some (q, s.trace :: trs)

end Parcels.KernelLoop
