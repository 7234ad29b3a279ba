import Verif.Model.KernelLoop

/-!
Model of `Kernel.execute` (parcels/kernel.py:397-465) in Scipy mode: one pass over the particles,
removal of deleted particles, and the error-recovery loop.

Every particle carries a ghost tag (`Nat`), its identity for the statements; the code never sees it.
The chunk bookkeeping of lines 411-416 is not part of this model (see Model/Chunks).
-/

namespace Parcels.Recovery

open Parcels.KernelLoop

/-- A recovery function: may rewrite its particle (including `state`) or raise (`none`).
Models: the interface at parcels/kernel.py:443-448. -/
abbrev Handler (W V : Type) := W → Particle V → W × Option (Particle V)

/-- A dictionary from error codes to recovery functions. Models: tools/statuscodes.py:218-224; kernel.py:404-409. -/
abbrev RMap (W V : Type) := Code → Option (Handler W V)

/-- The default recovery functions, which all raise.
Models: parcels/tools/statuscodes.py:220-224. -/
def baseMap {W V : Type} : RMap W V
  | .error => some fun w _ => (w, none)
  | .errorInterpolation => some fun w _ => (w, none)
  | .errorOutOfBounds => some fun w _ => (w, none)
  | .errorTimeExtrapolation => some fun w _ => (w, none)
  | .errorThroughSurface => some fun w _ => (w, none)
  | _ => none

/-- The user's dictionary after lines 404-407: the out-of-bounds handler is also registered for
through-surface errors if there is none. (`none` for the whole dictionary is the empty one.)
Models: parcels/kernel.py:404-407. -/
def extendUser {W V : Type} (user : RMap W V) : RMap W V := fun c =>
  if c = .errorThroughSurface ∧ (user .errorOutOfBounds).isSome ∧ (user .errorThroughSurface).isNone
  then user .errorOutOfBounds else user c

/-- `recovery_base_map.copy()` updated with the user's dictionary.
Models: parcels/kernel.py:408-409. -/
def recoveryMap {W V : Type} (user : RMap W V) : RMap W V := fun c =>
  match extendUser user c with
  | some h => some h
  | none => baseMap c

/-- A particle with its ghost tag. Models: ghost state for kernel.py:397-465. -/
abbrev TP (V : Type) := Nat × Particle V

/-- `p` is in an error state in the sense of the recovery loop.
Models: parcels/particlesets/particlesetsoa.py:227-243. -/
def isError {V : Type} (p : Particle V) : Prop := p.state ≠ .success ∧ p.state ≠ .evaluate

instance {V : Type} (p : Particle V) : Decidable (isError p) := by
  unfold isError; infer_instance

/-- What happens to one error particle. Models: kernel.py:437-451. -/
inductive Handled (W V : Type) where
  | stop
  | raised (w : W)
  | cont (w : W) (p : Particle V)

/-- Body of `for p in error_pset`. Models: parcels/kernel.py:437-451. -/
def handleOne {W V : Type} (rm : RMap W V) (w : W) (p : Particle V) : Handled W V :=
  if p.state = .stopExecution then .stop
  else if p.state = .repeat then .cont w { p with state := .evaluate }
  else if p.state = .delete then .cont w p
  else match rm p.state with
    | some h =>
      match h w { p with state := .success } with
      | (w', none) => .raised w'
      | (w', some p') =>
        .cont w' (if p'.state = .success then { p' with state := .evaluate } else p')
    | none => .cont w { p with state := .delete }

/-- How the recovery loop over the error particles ended. Models: kernel.py:436-451. -/
inductive Round (W V : Type) where
  | stopped
  | raised
  | done (w : W) (ps : List (TP V))

/-- `for p in error_pset`: error particles in collection order, the others untouched.
Models: parcels/kernel.py:434-451. -/
def handleAll {W V : Type} (rm : RMap W V) : W → List (TP V) → Round W V
  | w, [] => .done w []
  | w, p :: ps =>
    if isError p.2 then
      match handleOne rm w p.2 with
      | .stop => .stopped
      | .raised _ => .raised
      | .cont w' p' =>
        match handleAll rm w' ps with
        | .done w'' ps' => .done w'' ((p.1, p') :: ps')
        | r => r
    else
      match handleAll rm w ps with
      | .done w'' ps' => .done w'' (p :: ps')
      | r => r

/-- Particles kept by `remove_deleted_soa`. Models: parcels/kernel.py:384-395. -/
def kept {V : Type} (ps : List (TP V)) : List (TP V) := ps.filter (fun p => p.2.state ≠ .delete)

/-- Particles removed (and handed to the output file) by `remove_deleted_soa`.
Models: parcels/kernel.py:384-395. -/
def dropped {V : Type} (ps : List (TP V)) : List (TP V) := ps.filter (fun p => p.2.state = .delete)

/-- One call of `execute_python` on tagged particles. The list of ghost call traces is returned
with the tags. Models: parcels/kernel.py:418-421, 460-463. -/
def runPass {W V : Type} (K : Kern W V) (E dt : ℚ) (fuel : Nat) (w : W) (ps : List (TP V)) :
    Option (W × List (TP V) × List (Nat × List (Call V))) :=
  match pass K E dt fuel w none (ps.map Prod.snd) with
  | none => none
  | some (w', _, rs) =>
    some (w', List.zipWith (fun a r => (a.1, r.1)) ps rs,
      List.zipWith (fun a r => (a.1, r.2)) ps rs)

/-- How `Kernel.execute` ended. Models: kernel.py:397-465. -/
inductive Ending where
  | normal
  | stopped
  | raised
deriving DecidableEq, Repr

/-- Result of `Kernel.execute`: the particles in the set, and ghost logs of the removed particles
and of the kernel calls, pass by pass. Models: kernel.py:397-465. -/
structure Result (V : Type) where
  ending : Ending
  ps : List (TP V)
  removed : List (TP V)
  calls : List (List (Nat × List (Call V)))

/-- The `while n_error > 0` loop; the outer fuel bounds the number of rounds.
Models: parcels/kernel.py:430-465. -/
def rounds {W V : Type} (K : Kern W V) (rm : RMap W V) (E dt : ℚ) (fuel : Nat) :
    Nat → W → List (TP V) → List (TP V) → List (List (Nat × List (Call V))) → Option (Result V)
  | 0, _, _, _, _ => none
  | n + 1, w, ps, removed, calls =>
    if ps.any (fun p => isError p.2) then
      match handleAll rm w ps with
      | .stopped => some ⟨.stopped, ps, removed, calls⟩
      | .raised => some ⟨.raised, ps, removed, calls⟩
      | .done w1 ps1 =>
        match runPass K E dt fuel w1 (kept ps1) with
        | none => none
        | some (w2, ps2, cs) => rounds K rm E dt fuel n w2 ps2 (removed ++ dropped ps1) (calls ++ [cs])
    else some ⟨.normal, ps, removed, calls⟩

/-- `Kernel.execute` (Scipy mode). Simplification: after a raise or a StopExecution the particle
list shown is the one at the start of the recovery round.
Models: parcels/kernel.py:397-465. -/
def execute {W V : Type} (K : Kern W V) (user : RMap W V) (E dt : ℚ) (fuel : Nat) (nRounds : Nat)
    (w : W) (ps : List (TP V)) : Option (Result V) :=
  match runPass K E dt fuel w (ps.map fun p => (p.1, { p.2 with state := .evaluate })) with
  | none => none
  | some (w1, ps1, cs) =>
    rounds K (recoveryMap user) E dt fuel nRounds w1 (kept ps1) (dropped ps1) [cs]

end Parcels.Recovery
