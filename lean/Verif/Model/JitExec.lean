import Verif.Model.JitLoop
import Verif.Model.Recovery
import Verif.Model.Chunks

/-!
Model of `Kernel.execute` (parcels/kernel.py:397-465) in JIT mode: like Model/Recovery, with the generated loop of
Model/JitLoop, and with what Python does before each call of the C code (`prep`). The C globals live on between the calls.
-/

namespace Parcels.JitExec

open KernelLoop Recovery

variable {W V : Type}

/-- One call of `execute_jit`. Models: parcels/kernel.py:236-271, 418-419, 459-460. -/
def runPass (K : Kern W V) (prep : W → W) (E dt : ℚ) (fuel : Nat) (w : W × Option ℚ) (ps : List (TP V)) :
    Option ((W × Option ℚ) × List (TP V)) :=
  match JitLoop.pass K E dt fuel (prep w.1) w.2 (ps.map Prod.snd) with
  | none => none
  | some (w', g', rs) => some ((w', g'), List.zipWith (fun a r => (a.1, r.1)) ps rs)

/-- The `while n_error > 0` loop: how it ended, the particles, those removed. The recovery functions are given the
world, which here is that of the kernel. Models: parcels/kernel.py:430-465. -/
def rounds (K : Kern W V) (prep : W → W) (rm : RMap W V) (E dt : ℚ) (fuel : Nat) :
    Nat → W × Option ℚ → List (TP V) → List (TP V) → Option (Ending × List (TP V) × List (TP V))
  | 0, _, _, _ => none
  | n + 1, w, ps, removed =>
    if ps.any (fun p => isError p.2) then
      match handleAll rm w.1 ps with
      | .stopped => some (.stopped, ps, removed)
      | .raised => some (.raised, ps, removed)
      | .done w1 ps1 =>
        match runPass K prep E dt fuel (w1, w.2) (kept ps1) with
        | none => none
        | some (w2, ps2) => rounds K prep rm E dt fuel n w2 ps2 (removed ++ dropped ps1)
    else some (.normal, ps, removed)

/-- `Kernel.execute` in JIT mode, with `start` for lines 411-415. Models: parcels/kernel.py:397-465. -/
def execute (K : Kern W V) (start prep : W → W) (user : RMap W V) (E dt : ℚ) (fuel nRounds : Nat) (w : W × Option ℚ)
    (ps : List (TP V)) : Option (Ending × List (TP V) × List (TP V)) :=
  match runPass K prep E dt fuel (start w.1, w.2) (ps.map fun p => (p.1, { p.2 with state := .evaluate })) with
  | none => none
  | some (w1, ps1) => rounds K prep (recoveryMap user) E dt fuel nRounds w1 (kept ps1) (dropped ps1)

/-! ### Kernels that sample fields with chunks -/

/-- What a kernel does with one particle, as far as the fields are concerned: it evaluates fields, one after the other, and
what it does next depends on the data of the cell. `now` is the particle at that point: the kernel may have changed it.
Simplification: the kernel calls `update_next_dt` only after the last sample. Models: kernel.py:315 and compilation/codegenerator.py:1038 (the call of the kernel). -/
inductive Prog (α V : Type) where
  | done (out : KOut V)
  | sample (now : Particle V) (a : Chunks.Access) (next : List α → Prog α V)

/-- Running it: the status code of each evaluation is checked (`CHECKSTATUS`), and REPEAT is returned at once.
Models: parcels/compilation/codegenerator.py:787-832, parcels/include/index_search.h:11. -/
def run {α : Type} : Prog α V → Chunks.Sys α → Chunks.Sys α × KOut V
  | .done out, s => (s, out)
  | .sample now a next, s =>
    match Chunks.evalField s a with
    | .undef => (s, ⟨now, none, .ret (some .error)⟩)
    | .rep load => ({ s with load := load }, ⟨now, none, .ret (some .repeat)⟩)
    | .ok load cell => run (next cell) { s with load := load }

/-- A kernel given by such programs. Models: kernel.py:315; compilation/codegenerator.py:467-495, 1038. -/
def kern {α : Type} (G : Particle V → Prog α V) : Kern (Chunks.Sys α) V := fun s p => run (G p) s

end Parcels.JitExec
