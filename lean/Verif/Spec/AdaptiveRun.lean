import Verif.Spec.PathRun
import Verif.Model.Advection

/-!
Vocabulary for the statements of C110: kernels that choose the length of their steps.
-/

namespace Parcels.AdaptiveRun

open KernelLoop (Kern Exc)
open Recovery (TP)
open RepairRun (Act)

variable {V : Type}

/-- What an adaptive scheme does with a step that it is offered: it takes it, and may ask for the length of the next one; it asks for the same step with another length; or it fails. -/
inductive Try (V : Type) where
  | take (v : V) (next : Option ℚ)
  | retry (h : ℚ)
  | fail (e : Exc)

/-- An adaptive scheme: from the time, the step offered and the variables of a particle. -/
abbrev Adaptive (V : Type) := (time h : ℚ) → V → Try V

/-- The kernel that runs an adaptive scheme: it assigns the new variables and may call `update_next_dt`; or it assigns the new dt and returns Repeat; or it raises an exception. -/
def kernel (g : Adaptive V) : Kern Unit V := fun _ p =>
  ((), match g p.time p.dt p.vars with
    | .take v n => ⟨{ p with vars := v }, n, .ret none⟩
    | .retry h => ⟨{ p with dt := h }, none, .ret (some .repeat)⟩
    | .fail e => ⟨p, none, .exc e⟩)

/-- After a step that was taken, the next one that the scheme asks for is not shorter, and in the same direction; where it asks for another length, this is in the same direction. -/
def Sensible (g : Adaptive V) : Prop :=
  (∀ t h v v' n, g t h v = .take v' (some n) → 0 < h → h ≤ n) ∧ (∀ t h v v' n, g t h v = .take v' (some n) → h < 0 → n ≤ h) ∧
  (∀ t h v h', g t h v = .retry h' → (0 < h → 0 < h') ∧ (h < 0 → h' < 0))

/-- The times and variables that a particle can reach with steps that the scheme takes, in the direction of the run, each from where the one before it ended; after a failed step, the recovery function
may assign new variables, at the same time. -/
inductive Path (g : Adaptive V) (act : Act V) (dt t : ℚ) (v : V) : ℚ → V → Prop
  | here : Path g act dt t v t v
  | step {t1 v1 h v2 n} : Path g act dt t v t1 v1 → 0 < h * sgn dt → g t1 h v1 = .take v2 n → Path g act dt t v (t1 + h) v2
  | repair {t1 v1 h v2 e} : Path g act dt t v t1 v1 → 0 < h * sgn dt → g t1 h v1 = .fail e → act e t1 v1 = some v2 → Path g act dt t v t1 v2

/-- The particle reaches a point where a step fails, and the recovery function does not let it go on. -/
def Fails (g : Adaptive V) (act : Act V) (dt : ℚ) (q : TP V) : Prop :=
  ∃ t v h e, Path g act dt q.2.time q.2.vars t v ∧ 0 < h * sgn dt ∧ g t h v = .fail e ∧ act e t v = none

/-- At this time and with these variables the scheme does not take a step longer than 1e-8 s, but asks for one of at most this length. -/
def Stuck (g : Adaptive V) (dt t : ℚ) (v : V) : Prop :=
  ∃ h h', 0 < h * sgn dt ∧ 1 / 100000000 < |h| ∧ g t h v = .retry h' ∧ |h'| ≤ 1 / 100000000

/-- The scheme of Runge, Kutta and Fehlberg: with the solutions `(x4, y4)` and `(x5, y5)` of fourth and fifth order, the step is taken, to the first of them, exactly if their distance is at most 1e-5 times
the step; twice the step is asked for next if it is at most 1e-6 times the step; otherwise half the step is asked for. The depth is not changed. -/
def fehlberg (uv : Advection.Flow ℚ) : Adaptive (ℚ × ℚ × ℚ) := fun t h v =>
  match Advection.rk45Sol uv ⟨t, h, v.1, v.2.1, v.2.2⟩ with
  | .error e => .fail e
  | .ok (x4, y4, x5, y5) =>
    if (x5 - x4) ^ 2 + (y5 - y4) ^ 2 ≤ (h / 100000) ^ 2 then
      .take (x4, y4, v.2.2) (if (x5 - x4) ^ 2 + (y5 - y4) ^ 2 ≤ (h / 1000000) ^ 2 then some (2 * h) else none)
    else .retry (h / 2)

end Parcels.AdaptiveRun
