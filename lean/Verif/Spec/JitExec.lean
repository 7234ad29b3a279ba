import Verif.Model.JitExec
import Verif.Spec.Chunks

/-!
Vocabulary for C48: executing a kernel with all data in memory.
-/

namespace Parcels.JitExec

open KernelLoop Recovery

variable {V : Type}

/-- With all data of the fields `fs` (is the field used by the kernel? its data) in memory, the program for particle `p` ends
with `out`; it samples only cells of the grid, at loaded time steps, of fields that the kernel uses, and does not change the
particle's dt before the last sample. -/
inductive Ideal {α : Type} (axes : List (List Nat)) (fs : List (Bool × Chunks.Data α)) (p : Particle V) :
    Prog α V → KOut V → Prop
  | done (out : KOut V) : Ideal axes fs p (.done out) out
  | sample {now : Particle V} {field : Nat} {d : Chunks.Data α} {idx : List Nat} {ti : Nat} {first : Bool} {next : List α → Prog α V} {out : KOut V} :
    now.dt = p.dt → fs[field]? = some (true, d) → Chunks.IsCell axes idx → ti + (if first then 0 else 1) < d.tdim →
    Ideal axes fs p (next (Chunks.cellData axes d idx ti first)) out →
    Ideal axes fs p (.sample now ⟨field, idx.map fun (n : Nat) => (n : ℤ), (ti : ℤ), first⟩ next) out

/-- The kernel that does the same without looking at chunks. -/
def whole (P : Particle V → KOut V) : Kern Unit V := fun _ p => ((), P p)

/-- Kernels in this statement: they do not set dt to 0, do not return the code Evaluate, and ask for a next step only if they
succeed. -/
structure Tame (P : Particle V → KOut V) : Prop where
  dt : ∀ p, p.dt ≠ 0 → (P p).p.dt ≠ 0 ∧ (P p).nextDt ≠ some 0
  code : ∀ p, JitLoop.resolve p (P p) ≠ .evaluate
  next : ∀ p, (P p).nextDt ≠ none → JitLoop.resolve p (P p) = .success ∨ JitLoop.resolve p (P p) = .delete

/-- Recovery functions that depend on nothing but the particle. -/
abbrev Plain (V : Type) := Code → Option (Particle V → Option (Particle V))

/-- As recovery functions of the model. -/
def lift {W : Type} (u : Plain V) : RMap W V := fun c => (u c).map fun h w p => (w, h p)

/-- They leave dt different from 0 and do not ask for a repetition by the state Repeat. -/
def TamePlain (u : Plain V) : Prop :=
  ∀ c h p q, u c = some h → h p = some q → q.state ≠ .repeat ∧ (p.dt ≠ 0 → q.dt ≠ 0)

end Parcels.JitExec
