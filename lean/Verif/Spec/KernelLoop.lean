import Verif.Model.KernelLoop

/-!
Vocabulary for the statements of C01, C02, C03, C06, C07 about the Scipy-mode particle loop.
-/

namespace Parcels.KernelLoop

variable {W V : Type}

/-- A kernel that respects the clock: it does not write `time`; it may ask for another next step
with `update_next_dt`; if it changes `dt` itself, it changes it by more than the closeness
tolerance and does not delete the particle in the same call (as `AdvectionRK45` does). -/
def RespectsClock (K : Kern W V) : Prop :=
  ∀ w p, (K w p).2.p.time = p.time ∧
    ((K w p).2.p.dt = p.dt ∨
      (isclose (K w p).2.p.dt p.dt = false ∧ (K w p).2.res ≠ .ret (some .delete) ∧
        (K w p).2.p.state ≠ .delete))

/-- Steps requested with `update_next_dt` are larger than the tolerance 1e-8. -/
def RequestsRealSteps (K : Kern W V) : Prop :=
  ∀ w p x, (K w p).2.nextDt = some x → 1 / 100000000 < |x|

/-- The kernel leaves `time` and `dt` alone and never calls `update_next_dt`. -/
def LeavesDtAlone (K : Kern W V) : Prop :=
  ∀ w p, (K w p).2.p.time = p.time ∧ (K w p).2.p.dt = p.dt ∧ (K w p).2.nextDt = none

/-- `t` is at or after `s` in the direction of `dt`. -/
def NotBefore (dt s t : ℚ) : Prop := 0 ≤ (t - s) * sgn dt

/-- The particle is waiting to be executed. -/
def Pending (p : Particle V) : Prop := p.state = .evaluate ∨ p.state = .repeat

/-- A call was completed: the kernel ended with Success or Delete. -/
def Call.done (c : Call V) : Prop := c.code = .success ∨ c.code = .delete

instance (c : Call V) : Decidable c.done := by unfold Call.done; infer_instance

/-- The call record `c` describes what the kernel really did from some world `w`: `after` is the
particle the kernel left behind; a raised exception, or a returned code other than Success, gives
the recorded code; otherwise the kernel said Success, and then a state the kernel wrote is the
recorded code, and a changed `dt` counts as Repeat. -/
def Call.genuine (K : Kern W V) (c : Call V) : Prop :=
  ∃ w, c.after = (K w c.before).2.p ∧
    (∀ e, (K w c.before).2.res = .exc e → c.code = e.code) ∧
    (∀ x, (K w c.before).2.res = .ret (some x) → x ≠ .success → c.code = x) ∧
    ((K w c.before).2.res = .ret none ∨ (K w c.before).2.res = .ret (some .success) →
      (c.after.state ≠ c.before.state → c.after.state ≠ .success → c.code = c.after.state) ∧
      (c.after.state = c.before.state ∨ c.after.state = .success →
        c.code = if isclose c.after.dt c.before.dt then .success else .repeat))

/-- What the completed calls, and only they, do to the clock and the variables. -/
def commit (tv : ℚ × V) (c : Call V) : ℚ × V :=
  if c.done then (c.after.time + c.after.dt, c.after.vars) else tv

end Parcels.KernelLoop
