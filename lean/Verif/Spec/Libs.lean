import Verif.Model.Libs

/-!
Which histories of a process the theorems about compiled libraries are about: the process that the user runs, beside other processes that share the
directory of the files.
-/

namespace Parcels.Libs.Spec

/-- What may happen in state `s`, for a process whose file names are those of `ours`.
- Times read from the clock are later than those read before, and give file names of this process.
- A Kernel object that is used exists (it was made and not finalized); a Kernel is finalized when no ParticleSet refers to it.
- Other processes do not touch files with names of this process. -/
def Allowed (ours : Key → Prop) (s : State) : Op → Prop
  | .make _ name _ _ t => s.clock < t ∧ ours ⟨name, t⟩
  | .exec _ a t1 t2 _ => s.clock < t1 ∧ t1 < t2 ∧
      match a with
      | .func _ name _ => ours ⟨name, t1⟩ ∧ ours ⟨name, t2⟩
      | .kernel k => ∃ kern, s.kernels k = some kern ∧ ours ⟨kern.name, t2⟩
  | .drop _ => True
  | .collect k => (s.kernels k).isSome ∧ ∀ p, s.psets p ≠ some k
  | .others fs => ∀ key, ours key → fs key = s.fs key

/-- The states that a process reaches from its start by such steps, all of them satisfying `P`. At its start no files have its names. -/
inductive Reach (ours : Key → Prop) (P : Op → Prop) : State → Prop
  | start (fs : FS) (clock : Int) : (∀ key, ours key → ∀ kind, fs key kind = none) → Reach ours P (init fs clock)
  | next {s : State} (op : Op) : Reach ours P s → Allowed ours s op → P op → Reach ours P (step s op).1

/-- No compilation fails. -/
def NoFailure : Op → Prop
  | .exec _ _ _ _ fails => fails = false
  | _ => True

/-- No compilation fails, and no Kernel keeps its files. -/
def AllDelete : Op → Prop
  | .exec _ _ _ _ fails => fails = false
  | .make _ _ _ delete _ => delete = true
  | _ => True

end Parcels.Libs.Spec
