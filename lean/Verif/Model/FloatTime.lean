import Verif.Model.Schedule
import Verif.Model.JitLoop
import Mathlib.Data.Nat.Log

/-!
The time loops again, in floating-point arithmetic: the event loop of `ParticleSet.execute` (Model/Schedule in exact arithmetic) and the particle
loops of both modes (Model/KernelLoop, Model/JitLoop), with a rounding `fl` after every addition, subtraction and division, and after every
multiplication that is not by a sign. All these numbers are double precision in the code (particle.py:178, 185; codegenerator.py:1062-1065).

Simplifications: no overflow, no underflow, no NaN; infinite event times as in Model/Schedule.
-/

namespace Parcels.FloatTime

/-! ### Double precision -/

/-- The largest power of two that is not above `|q|`, as an exponent (for `q ≠ 0`). Models: particle.py:178, 185 (`np.float64`): the exponent of an IEEE 754 number. -/
def ilog2 (q : ℚ) : ℤ :=
  let e : ℤ := (Nat.log2 q.num.natAbs : ℤ) - (Nat.log2 q.den : ℤ)
  if (2 : ℚ) ^ e ≤ |q| then e else e - 1

/-- The nearest integer, ties to even. Models: IEEE 754 roundTiesToEven, for the types in particle.py:178, 185. -/
def nearest (x : ℚ) : ℤ :=
  if x - ⌊x⌋ < 1 / 2 then ⌊x⌋ else if 1 / 2 < x - ⌊x⌋ then ⌊x⌋ + 1 else if ⌊x⌋ % 2 = 0 then ⌊x⌋ else ⌊x⌋ + 1

/-- Rounding to 53 significant bits. Models: particle.py:178, 185 (`np.float64`): the result of a float64 operation in Python, numpy and C, in the absence of overflow and underflow. -/
def f64 (q : ℚ) : ℚ := if q = 0 then 0 else (nearest (q / 2 ^ (ilog2 q - 52)) : ℚ) * 2 ^ (ilog2 q - 52)

/-! ### The event loop -/

section events
open Schedule

/-- `a // b` on floats with `a ≥ 0`, `b > 0`: the remainder is exact, the quotient is rounded. Models: baseparticleset.py:420 (numpy's and Python's
floor division of floats). -/
def floorDiv (fl : ℚ → ℚ) (a b : ℚ) : ℚ :=
  let m := a - b * ⌊a / b⌋
  let d := fl (fl (a - m) / b)
  if 1 / 2 < d - ⌊d⌋ then ⌊d⌋ + 1 else ⌊d⌋

/-- `time + interval if dt > 0 else time - interval`. Models: particlesets/baseparticleset.py:423-425. -/
def firstEvent (fl : ℚ → ℚ) (dt t : ℚ) : Option ℚ → Ext
  | some i => .fin (if 0 < dt then fl (t + i) else fl (t - i))
  | none => if 0 < dt then .pinf else .ninf

/-- Event times before the loop. Models: parcels/particlesets/baseparticleset.py:418-425. -/
def initNext (fl : ℚ → ℚ) (a : Args) : Stream → Ext
  | .release =>
    match interval a .release with
    | some r => .fin (fl (a.rs + fl (fl (floorDiv fl |fl (a.S - a.rs)| r + 1) * r) * sgn a.dt))
    | none => if 0 < a.dt then .pinf else .ninf
  | s => firstEvent fl a.dt a.S (interval a s)

/-- State before the loop. Models: parcels/particlesets/baseparticleset.py:418-426. -/
def init (fl : ℚ → ℚ) (a : Args) : St := { Schedule.init a with next := initNext fl a }

/-- `abs(time - next) < tol`. Models: particlesets/baseparticleset.py:449, 460, 464, 468. -/
def near (fl : ℚ → ℚ) (t : ℚ) : Ext → Bool
  | .fin q => decide (|fl (t - q)| < fl tol)
  | _ => false

/-- `next += interval * np.sign(dt)`. Models: particlesets/baseparticleset.py:459, 463, 466, 472. -/
def bump (fl : ℚ → ℚ) (dt : ℚ) (i : Option ℚ) : Ext → Ext
  | .fin q => match i with
    | some r => .fin (fl (q + r * sgn dt))
    | none => if 0 < dt then .pinf else .ninf
  | e => e

/-- The body of the loop after the kernel execution. Models: parcels/particlesets/baseparticleset.py:449-474. -/
def fire (fl : ℚ → ℚ) (a : Args) (s : St) (t : ℚ) : St :=
  { time := t
    next := fun x => if near fl t (s.next x) then bump fl a.dt (interval a x) (s.next x) else s.next x
    nextIn := if t ≠ a.E then a.input s.calls t else s.nextIn
    calls := if t ≠ a.E then s.calls + 1 else s.calls
    stops := s.stops ++ [t]
    events := s.events ++ (streams.filter fun x => near fl t (s.next x)).map fun x => (x, t) }

/-- The `while` loop with fuel. Models: parcels/particlesets/baseparticleset.py:434-478. -/
def eventLoop (fl : ℚ → ℚ) (a : Args) : Nat → St → Option Run
  | 0, _ => none
  | n + 1, s =>
    if continues a s then
      match nextStop a s with
      | .fin t =>
        if t ≠ a.E ∧ a.hasFieldset = false then some (.crash s)
        else
          let s' := fire fl a s t
          if a.dt = 0 then some (.done s') else eventLoop fl a n s'
      | _ => some (.crash s)
    else some (.done s)

/-- The whole event loop. Models: particlesets/baseparticleset.py:418-478. -/
def run (fl : ℚ → ℚ) (a : Args) (fuel : Nat) : Option Run := eventLoop fl a fuel (init fl a)

end events

/-! ### The particle loop in Scipy mode -/

section scipy
open KernelLoop
variable {W V : Type}

/-- `np.isclose(a, b)`, and `is_close_dbl` in C. Models: uses at kernel.py:302-355; parcels.h:34-36. -/
def isclose (fl : ℚ → ℚ) (a b : ℚ) : Bool :=
  decide (|fl (a - b)| ≤ fl (fl (1 / 100000000) + fl (fl (1 / 100000) * |b|)))

/-- Result code after a kernel call. Models: parcels/kernel.py:315-337. -/
def resolve (fl : ℚ → ℚ) (pre : Particle V) (out : KOut V) : Code :=
  match out.res with
  | .exc e => e.code
  | .ret c =>
    let res0 := c.getD .success
    let res1 := if res0 = .success ∧ out.p.state ≠ pre.state then out.p.state else res0
    if res1 = .success ∧ ¬ isclose fl out.p.dt pre.dt then .repeat else res1

/-- One turn of the `while` loop. Models: parcels/kernel.py:309-368. -/
def step (fl : ℚ → ℚ) (K : Kern W V) (E dt : ℚ) (s : LS W V) : LS W V × Bool :=
  let back := s.p
  let pre := { s.p with dt := sgn dt * s.dtPos }
  let (w', out) := K s.w pre
  let nextDt := out.nextDt.orElse (fun _ => s.nextDt)
  let res := resolve fl pre out
  let tr := s.trace ++ [⟨pre, res, out.p⟩]
  if res = .success ∨ res = .delete then
    let time' := fl (out.p.time + out.p.dt)
    let dt' := nextDt.getD out.p.dt
    let dtPos := min |dt'| |fl (E - time')|
    let signEnd := sgn (fl (E - time'))
    let res' := if res ≠ .delete ∧ ¬ isclose fl dtPos 0 ∧ signEnd = sgn dt then .evaluate else res
    let dtPos' := if signEnd ≠ sgn dt then 0 else dtPos
    ({ w := w', p := { out.p with time := time', dt := dt', state := res' },
       dtPos := dtPos', nextDt := none, back := some back, trace := tr },
     isclose fl dt 0)
  else
    let p' := { out.p with state := res, time := back.time, vars := back.vars }
    let dtPos := min |p'.dt| |fl (E - p'.time)|
    let dtPos' := if sgn (fl (E - p'.time)) ≠ sgn dt then 0 else dtPos
    ({ w := w', p := p', dtPos := dtPos', nextDt := s.nextDt, back := some back, trace := tr }, true)

/-- Condition of the `while` loop. Models: parcels/kernel.py:307. -/
def cond (fl : ℚ → ℚ) (dt : ℚ) (s : LS W V) : Prop :=
  s.p.state = .evaluate ∨ s.p.state = .repeat ∨ isclose fl dt 0 = true

instance (fl : ℚ → ℚ) (dt : ℚ) (s : LS W V) : Decidable (cond fl dt s) := by
  unfold cond; infer_instance

/-- The `while` loop, with fuel. Models: parcels/kernel.py:307-368. -/
def loop (fl : ℚ → ℚ) (K : Kern W V) (E dt : ℚ) : Nat → LS W V → Option (LS W V)
  | 0, _ => none
  | n + 1, s =>
    if cond fl dt s then
      match step fl K E dt s with
      | (s', true) => some s'
      | (s', false) => loop fl K E dt n s'
    else some s

/-- Is the particle skipped? Models: parcels/kernel.py:296-302. -/
def skips (fl : ℚ → ℚ) (E dt : ℚ) (p : Particle V) : Prop :=
  (sgn (fl (E - p.time)) ≠ sgn dt ∨ isclose fl (min |p.dt| |fl (E - p.time)|) 0 = true) ∧ isclose fl dt 0 = false

instance (fl : ℚ → ℚ) (E dt : ℚ) (p : Particle V) : Decidable (skips fl E dt p) := by
  unfold skips; infer_instance

/-- Body of `for p in pset`. Models: parcels/kernel.py:294-368. -/
def exec1 (fl : ℚ → ℚ) (K : Kern W V) (E dt : ℚ) (fuel : Nat) (w : W) (back : Option (Particle V)) (p : Particle V) : Option (LS W V) :=
  let dtPos := min |p.dt| |fl (E - p.time)|
  if skips fl E dt p then
    let p' := if |p.time| ≥ |E| then { p with state := .success } else p
    some { w := w, p := p', dtPos := dtPos, nextDt := none, back := back, trace := [] }
  else
    loop fl K E dt fuel { w := w, p := p, dtPos := dtPos, nextDt := none, back := back, trace := [] }

/-- `for p in pset: ...`. Models: parcels/kernel.py:286,294-368. -/
def pass (fl : ℚ → ℚ) (K : Kern W V) (E dt : ℚ) (fuel : Nat) :
    W → Option (Particle V) → List (Particle V) → Option (W × Option (Particle V) × List (Particle V × List (Call V)))
  | w, back, [] => some (w, back, [])
  | w, back, p :: ps =>
    match exec1 fl K E dt fuel w back p with
    | none => none
    | some s =>
      match pass fl K E dt fuel s.w s.back ps with
      | none => none
      | some (w', back', rs) => some (w', back', (s.p, s.trace) :: rs)

end scipy

/-! ### The particle loop in JIT mode -/

namespace Jit
open KernelLoop JitLoop
variable {W V : Type}

/-- `is_equal_dbl`. Models: parcels/include/parcels.h:39-41. -/
def isEqual (fl : ℚ → ℚ) (a b : ℚ) : Bool := decide (|fl (a - b)| ≤ fl (eps * |b|))

/-- `is_zero_dbl`. Models: parcels/include/parcels.h:58-60. -/
def isZero (fl : ℚ → ℚ) (a : ℚ) : Bool := decide (|a| ≤ fl (eps * |a|))

/-- Result code after a kernel call. Models: codegenerator.py:1038-1040. -/
def resolve (fl : ℚ → ℚ) (pre : Particle V) (out : KOut V) : Code :=
  let res0 := code out
  let res1 := if res0 = .success ∧ out.p.state ≠ pre.state then out.p.state else res0
  if res1 = .success ∧ ¬ isEqual fl pre.dt out.p.dt then .repeat else res1

/-- One turn of `while`, and whether it ends with `break`. Models: codegenerator.py:1034-1057. -/
def step (fl : ℚ → ℚ) (K : Kern W V) (E dt : ℚ) (s : JS W V) : JS W V × Bool :=
  let back := s.p
  let pre := { s.p with dt := s.dtPos * csgn dt }
  let r := K s.w pre
  let out := r.2
  let nextDt := out.nextDt.orElse (fun _ => s.nextDt)
  let res := resolve fl pre out
  let tr := s.trace ++ [⟨pre, res, out.p⟩]
  if res = .success ∨ res = .delete then
    let time' := fl (out.p.time + out.p.dt)
    let dt' := nextDt.getD out.p.dt
    let dtPos := min |dt'| |fl (E - time')|
    let signEnd := csgn (fl (E - time'))
    let res' := if res ≠ .delete ∧ ¬ isclose fl dtPos 0 ∧ csgn dt = signEnd then .evaluate else res
    let dtPos' := if csgn dt ≠ signEnd then 0 else dtPos
    (⟨r.1, { out.p with time := time', dt := dt', state := res' }, dtPos', none, tr⟩, isZero fl dt')
  else
    let p' := { out.p with state := res, time := back.time, vars := back.vars }
    let dtPos := min |p'.dt| |fl (E - p'.time)|
    let dtPos' := if csgn dt ≠ csgn (fl (E - p'.time)) then 0 else dtPos
    (⟨r.1, p', dtPos', nextDt, tr⟩, true)

/-- Condition of `while`. Models: codegenerator.py:1059. -/
def cond (fl : ℚ → ℚ) (s : JS W V) : Prop :=
  s.p.state = .evaluate ∨ s.p.state = .repeat ∨ isZero fl s.p.dt = true

instance (fl : ℚ → ℚ) (s : JS W V) : Decidable (cond fl s) := by unfold cond; infer_instance

/-- The `while` loop. Models: codegenerator.py:1059. -/
def loop (fl : ℚ → ℚ) (K : Kern W V) (E dt : ℚ) : Nat → JS W V → Option (JS W V)
  | 0, _ => none
  | n + 1, s =>
    if cond fl s then
      match step fl K E dt s with
      | (s', true) => some s'
      | (s', false) => loop fl K E dt n s'
    else some s

/-- Is the particle skipped? Models: codegenerator.py:1026. -/
def skips (fl : ℚ → ℚ) (E dt : ℚ) (p : Particle V) : Prop :=
  (csgn (fl (E - p.time)) ≠ csgn dt ∨ isclose fl (min |p.dt| |fl (E - p.time)|) 0 = true) ∧ isZero fl p.dt = false

instance (fl : ℚ → ℚ) (E dt : ℚ) (p : Particle V) : Decidable (skips fl E dt p) := by unfold skips; infer_instance

/-- Body of the loop over particles. Models: codegenerator.py:1060-1061, 1026-1031. -/
def exec1 (fl : ℚ → ℚ) (K : Kern W V) (E dt : ℚ) (fuel : Nat) (w : W) (g : Option ℚ) (p : Particle V) : Option (JS W V) :=
  let dtPos := min |p.dt| |fl (E - p.time)|
  if skips fl E dt p then
    some ⟨w, if |p.time| ≥ |E| then { p with state := .success } else p, dtPos, g, []⟩
  else loop fl K E dt fuel ⟨w, p, dtPos, g, []⟩

/-- All particles, one after the other. Models: codegenerator.py:1060-1066. -/
def pass (fl : ℚ → ℚ) (K : Kern W V) (E dt : ℚ) (fuel : Nat) :
    W → Option ℚ → List (Particle V) → Option (W × Option ℚ × List (Particle V × List (Call V)))
  | w, g, [] => some (w, g, [])
  | w, g, p :: ps =>
    match exec1 fl K E dt fuel w g p with
    | none => none
    | some s =>
      match pass fl K E dt fuel s.w s.nextDt ps with
      | none => none
      | some (w', g', rs) => some (w', g', (s.p, s.trace) :: rs)

end Jit

end Parcels.FloatTime
