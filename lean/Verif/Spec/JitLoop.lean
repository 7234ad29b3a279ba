import Verif.Model.JitLoop
import Verif.Spec.KernelLoop

/-!
Vocabulary for C46, about the loop of the generated C code.
-/

namespace Parcels.JitLoop

open KernelLoop

variable {W V : Type}

/-- What the kernel may do to `dt`: nothing, or a change beyond the tolerance of `np.isclose`; and it asks for another
next step only in calls that succeed or delete. -/
def Steady (K : Kern W V) : Prop :=
  ∀ w p, ((K w p).2.p.dt = p.dt ∨ isclose (K w p).2.p.dt p.dt = false) ∧
    ((K w p).2.nextDt ≠ none → KernelLoop.resolve p (K w p).2 = .success ∨ KernelLoop.resolve p (K w p).2 = .delete)

/-- The call record `c` describes what the kernel really did from some world `w`, in JIT mode: as `Call.genuine` of
Spec/KernelLoop, except that `dt` counts as changed when it differs by more than the relative precision 2^-52. -/
def GenuineJit (K : Kern W V) (c : Call V) : Prop :=
  ∃ w, c.after = (K w c.before).2.p ∧
    (∀ e, (K w c.before).2.res = .exc e → c.code = e.code) ∧
    (∀ x, (K w c.before).2.res = .ret (some x) → x ≠ .success → c.code = x) ∧
    ((K w c.before).2.res = .ret none ∨ (K w c.before).2.res = .ret (some .success) →
      (c.after.state ≠ c.before.state → c.after.state ≠ .success → c.code = c.after.state) ∧
      (c.after.state = c.before.state ∨ c.after.state = .success →
        c.code = if |c.before.dt - c.after.dt| ≤ |c.after.dt| / 2 ^ 52 then .success else .repeat))

end Parcels.JitLoop
