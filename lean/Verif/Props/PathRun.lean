import Verif.Proofs.PathRun2
import Verif.Props.RepairRun

/-!
C109: runs whose outputs, data times, particle starts and end may be anywhere.
-/

namespace Parcels.PathRun

open KernelLoop (Particle Kern Exc)
open Recovery (TP RMap)
open WholeRun
open RepairRun (Act Recovers)

variable {V : Type}

section Statements

variable {f : Scheme V} {act : Act V} {user : RMap Unit V} {raises : Bool} (hu : Recovers user act raises) {exec : Exec V} (hm : IsMode (kernel f) user exec)
  {o : Opts} {S : ℚ} {ps : List (TP V)} (h : Starts o S ps) (fuel : ℕ) (file : Output.PFile) (s : St V)

include hu hm h

/-- C109. Wherever the outputs, the times of the data, the other interruptions and the starts of the particles are: when a run returns, each particle of the set has either reached its present time and
variables from its start by an unbroken sequence of steps of the scheme, none of them longer than `dt` and all in the direction of the run, or it is gone because a step failed on such a sequence. The
particles that are left keep their order. In both modes, with recovery functions that delete, raise, or change the particle and let it go on. -/
theorem C109_run (hr : execute o exec fuel file ps = some (.done s)) :
    Account (fun q r => r.1 = q.1 ∧ Path f act o.dt q.2.time q.2.vars r.2.time r.2.vars) (fun q => raises = false ∧ Fails f act o.dt q) ps s.ps :=
  ((run_path hu hm h fuel file _ hr).1 s rfl).1.imp (fun _ _ _ _ hw => ⟨hw.tag, hw.path⟩) fun _ _ hg => hg

/-- C109. All particles that are left have arrived at the end of the run, up to 1e-8 s, and none has gone past it: those that start after it have not begun. -/
theorem C109_end (hr : execute o exec fuel file ps = some (.done s)) :
    Account (fun q r => (endOf o S - r.2.time) * sgn o.dt ≤ 1 / 100000000 ∧ ((r.2.time - endOf o S) * sgn o.dt ≤ 0 ∨ r.2.time = q.2.time)) (fun q => Fails f act o.dt q) ps s.ps := by
  obtain ⟨h1, -, -, h2⟩ := (run_path hu hm h fuel file _ hr).1 s rfl
  exact h1.imp (fun q _ r hr' hw => ⟨h2 r hr', hw.end_⟩) fun _ _ hg => hg.2

/-- C109. Each record in the output file is a point of the path of the particle with its identifier. -/
theorem C109_records (hr : execute o exec fuel file ps = some (.done s)) :
    ∀ c ∈ records s, ∃ q ∈ ps, c.1 = q.1 ∧ Path f act o.dt q.2.time q.2.vars c.2.1 c.2.2 :=
  ((run_path hu hm h fuel file _ hr).1 s rfl).2.1

/-- C109. The run raises only because a step failed on the path of one of the particles. -/
theorem C109_raises (hr : execute o exec fuel file ps = some (.raised s)) : raises = true ∧ ∃ q ∈ ps, Fails f act o.dt q :=
  (run_path hu hm h fuel file _ hr).2 s rfl

omit hu hm h in
theorem Path.keeps {dt t : ℚ} {v : V} (I : ℚ → V → Prop) (h0 : I t v) (h1 : ∀ t d v v', Step dt d → I t v → f t d v = .ok v' → I (t + d) v')
    (h2 : ∀ t e v v', I t v → act e t v = some v' → I t v') : ∀ {t' v'}, Path f act dt t v t' v' → I t' v' := by
  intro t' v' hp
  induction hp with
  | here => exact h0
  | step _ hs hf ih => exact h1 _ _ _ _ hs ih hf
  | repair _ _ _ ha ih => exact h2 _ _ _ _ ih ha

/-- C109. What each step of the scheme and each repair preserves, whatever the length of the step, holds for all particles at the end and for all records in the file. -/
theorem C109_invariant (I : ℕ → ℚ → V → Prop) (h0 : ∀ q ∈ ps, I q.1 q.2.time q.2.vars) (h1 : ∀ i t d v v', Step o.dt d → I i t v → f t d v = .ok v' → I i (t + d) v')
    (h2 : ∀ i t e v v', I i t v → act e t v = some v' → I i t v') (hr : execute o exec fuel file ps = some (.done s)) :
    (∀ r ∈ s.ps, I r.1 r.2.time r.2.vars) ∧ ∀ c ∈ records s, I c.1 c.2.1 c.2.2 := by
  constructor
  · intro r hr'
    obtain ⟨q, hq, e, hp⟩ := (C109_run hu hm h fuel file s hr).right r hr'
    rw [e]
    exact hp.keeps (I q.1) (h0 q hq) (h1 q.1) (h2 q.1)
  · intro c hc
    obtain ⟨q, hq, e, hp⟩ := C109_records hu hm h fuel file s hr c hc
    rw [e]
    exact hp.keeps (I q.1) (h0 q hq) (h1 q.1) (h2 q.1)

/-- C109. In particular: a scheme that is exact for all lengths of steps is exact in the whole run, wherever it is interrupted. `flow t t' v`: where the exact solution through `v` at `t` is at `t'`. -/
theorem C109_exact (flow : ℚ → ℚ → V → V) (hf0 : ∀ t v, flow t t v = v) (hf1 : ∀ t t1 t2 v, flow t1 t2 (flow t t1 v) = flow t t2 v)
    (hf : ∀ t d v, Step o.dt d → f t d v = .ok (flow t (t + d) v)) (hr : execute o exec fuel file ps = some (.done s)) :
    Account (fun q r => r.1 = q.1 ∧ r.2.vars = flow q.2.time r.2.time q.2.vars) (fun _ => False) ps s.ps ∧
    ∀ c ∈ records s, ∃ q ∈ ps, c.1 = q.1 ∧ c.2.2 = flow q.2.time c.2.1 q.2.vars := by
  have key : ∀ (q : TP V) {t' v'}, Path f act o.dt q.2.time q.2.vars t' v' → v' = flow q.2.time t' q.2.vars := by
    intro q t' v' hp
    induction hp with
    | here => exact (hf0 _ _).symm
    | step _ hs he ih =>
      rw [hf _ _ _ hs, ih, hf1] at he
      exact (Except.ok.inj he).symm
    | repair _ hs he => rw [hf _ _ _ hs] at he; cases he
  constructor
  · refine (C109_run hu hm h fuel file s hr).imp (fun q _ r _ hp => ⟨hp.1, key q hp.2⟩) fun q _ hg => ?_
    obtain ⟨-, t, v, d, e, -, hs, he, -⟩ := hg
    rw [hf _ _ _ hs] at he
    cases he
  · intro c hc
    obtain ⟨q, hq, e, hp⟩ := C109_records hu hm h fuel file s hr c hc
    exact ⟨q, hq, e, key q hp⟩

end Statements

/-! ### Cases -/

/-- Output every 3/2 s and a movie every 7/5 s, in a run of 17/4 s with steps of 1 s. -/
def exOdd : Opts := ⟨1, .runtime (17 / 4), true, some (3 / 2), some (7 / 5), none, fun _ _ => .pinf⟩

def exOddPs : List (TP ℚ) := [(0, ⟨1 / 3, 1, .success, 1⟩), (1, ⟨1, 1, .success, 70⟩), (2, ⟨5 / 2, 1, .success, 190⟩), (3, ⟨6, 1, .success, 3⟩)]

theorem exStarts : Starts exOdd (1 / 3) exOddPs := by
  refine ⟨⟨_, List.mem_cons_self, rfl⟩, by decide +kernel, by norm_num [exOdd], by decide +kernel⟩

/-- The hypotheses can be met, and the run returns, in both modes, with the same result: the second particle is brought back, the third is gone, the last has not begun. -/
theorem exOddRuns :
    (match execute exOdd (scipyExec (kernel exScheme) RepairRun.exUser 20 20) 20 exFile exOddPs with
    | some (.done s) => decide (s.ps.map (·.1) = [0, 1, 3] ∧ s.ps.map (·.2.time) = [55 / 12, 55 / 12, 6])
    | _ => false) = true ∧
    (match execute exOdd (jitExec (kernel exScheme) RepairRun.exUser 20 20) 20 exFile exOddPs with
    | some (.done s) => decide (s.ps.map (·.1) = [0, 1, 3] ∧ s.ps.map (·.2.time) = [55 / 12, 55 / 12, 6])
    | _ => false) = true := by decide +kernel

example : Recovers RepairRun.exUser RepairRun.exAct false ∧ Starts exOdd (1 / 3) exOddPs ∧ endOf exOdd (1 / 3) = 55 / 12 :=
  ⟨RepairRun.exRecovers, exStarts, by decide +kernel⟩

/-- A scheme that is exact for all steps: constant speed. -/
example : ∀ t d v : ℚ, (fun _ d v => .ok (v + 3 * d) : Scheme ℚ) t d v = .ok ((fun t t' v => v + 3 * (t' - t) : ℚ → ℚ → ℚ → ℚ) t (t + d) v) := by
  intro t d v
  simp

/-- C109. The particles need not arrive at the end of the run exactly: if less than 1e-8 s is left, no step is taken for it, and the time of the particle is not set to the end either. -/
theorem C109_exact_end_fails : ∃ s : St ℚ, Starts (exOpts 2 (.runtime (4 + 1 / 1000000000))) 0 exPs ∧
    execute (exOpts 2 (.runtime (4 + 1 / 1000000000))) (scipyExec (kernel exScheme) exDelete 5 2) 5 exFile exPs = some (.done s) ∧
    s.sched.time = 4 + 1 / 1000000000 ∧ s.ps.map (·.2.time) = [4, 4] := by
  have h1 : (match execute (exOpts 2 (.runtime (4 + 1 / 1000000000))) (scipyExec (kernel exScheme) exDelete 5 2) 5 exFile exPs with
    | some (.done s) => decide (s.sched.time = 4 + 1 / 1000000000 ∧ s.ps.map (·.2.time) = [4, 4]) | _ => false) = true := by decide +kernel
  split at h1
  · rename_i s hs
    exact ⟨s, ⟨⟨_, List.mem_cons_self, rfl⟩, by decide +kernel, by norm_num [exOpts], by decide +kernel⟩, hs, (of_decide_eq_true h1).1, (of_decide_eq_true h1).2⟩
  · cases h1

end Parcels.PathRun
