import Verif.Spec.WholeRun

/-!
Vocabulary for the statements of C108: recovery functions that change the particle and let it go on.
-/

namespace Parcels.RepairRun

open KernelLoop (Exc)
open Recovery (RMap)
open WholeRun (Scheme)

variable {V : Type}

/-- What a recovery function does with a particle that failed with error `e` at time `t` with variables `v`: it assigns new variables and lets the particle go on
(`some`), or it deletes the particle or raises (`none`). -/
abbrev Act (V : Type) := (e : Exc) → (t : ℚ) → (v : V) → Option V

/-- The recovery functions for the errors of field sampling do this; where they do not let the particle go on, they raise or they delete. -/
def Recovers (user : RMap Unit V) (act : Act V) (raises : Bool) : Prop :=
  ∀ e : Exc, ∃ h, Recovery.recoveryMap user e.code = some h ∧ ∀ w p,
    match act e p.time p.vars with
    | some v => h w p = (w, some { p with vars := v })
    | none => if raises then (h w p).2 = none else h w p = (w, some { p with state := .delete })

/-- The scheme that tries a step again after each repair, at the same time, from the repaired variables; at most `k` times. -/
def mended (f : Scheme V) (act : Act V) : ℕ → Scheme V
  | 0 => f
  | k + 1 => fun t dt v =>
    match f t dt v with
    | .ok v' => .ok v'
    | .error e =>
      match act e t v with
      | some v' => mended f act k t dt v'
      | none => .error e

/-- The variables after `k` repairs in a row at time `t`; `none` if there are fewer. -/
def repairs (f : Scheme V) (act : Act V) (dt t : ℚ) : ℕ → V → Option V
  | 0, v => some v
  | k + 1, v =>
    match f t dt v with
    | .ok _ => none
    | .error e =>
      match act e t v with
      | some v' => repairs f act dt t k v'
      | none => none

/-- There are never more than `k` repairs in a row: then the step succeeds, or the particle is deleted, or the run raises. -/
def Settles (f : Scheme V) (act : Act V) (dt : ℚ) (k : ℕ) : Prop := ∀ t v, repairs f act dt t (k + 1) v = none

end Parcels.RepairRun
