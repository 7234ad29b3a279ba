import Verif.Proofs.RepairRun
import Verif.Props.WholeRun

/-!
C108: recovery functions that change the particle and let it go on.
-/

namespace Parcels.RepairRun

open KernelLoop (Particle Kern Exc)
open Recovery (TP RMap)
open WholeRun

variable {V : Type}

theorem mode_ends {f : Scheme V} {act : Act V} {user : RMap Unit V} {raises : Bool} (hu : Recovers user act raises) {dt : ℚ} (hdt : 1 / 100000000 < |dt|) {k : ℕ}
    (hk : Settles f act dt k) {exec : Exec V} (hm : IsMode (kernel f) user exec) :
    ∀ T ps e ps', (∀ q ∈ ps, q.2.dt = dt ∧ Fits dt T q) → exec T dt ps = some (e, ps') → Effect (plainMap raises) (mended f act k) dt T ps e ps' := by
  obtain ⟨fuel, nRounds, rfl | rfl⟩ := hm
  · exact fun T ps e ps' hps h => effect_of (scipy_ends hu hdt (Or.inr hk) hps h)
  · exact fun T ps e ps' hps h => effect_of (jit_ends hu hdt (Or.inr hk) hps h)

/-- C108. If the recovery functions change the particle and let it go on, or else delete it, and there are never more than `k` such repairs in a row, a run returns, and exactly those particles are left
that the scheme with repairs does not lose, each where this scheme leads: after each repair, the failed step is taken again, at the same time, from the repaired variables, and no other step of this or
any other particle is affected. In both modes. -/
theorem C108_run {f : Scheme V} {act : Act V} {user : RMap Unit V} (hu : Recovers user act false) {exec : Exec V} (hm : IsMode (kernel f) user exec) {o : Opts} {S : ℚ} {N : ℕ}
    {ps : List (TP V)} (h : Regular o S N ps) {k : ℕ} (hk : Settles f act o.dt k) (fuel : ℕ) (file : Output.PFile) (r : Run V) (hr : execute o exec fuel file ps = some r) :
    ∃ s, r = .done s ∧ s.ps.map core = ps.filterMap (trajectory (mended f act k) o.dt (S + N * o.dt)) := by
  obtain ⟨s, h1, h2, -⟩ := execute_good h (mode_ends hu h.step hk hm) (Or.inl plain_false) fuel file r hr
  exact ⟨s, h1, h2⟩

/-- C108. The output file then contains these trajectories at the output times. -/
theorem C108_records {f : Scheme V} {act : Act V} {user : RMap Unit V} (hu : Recovers user act false) {exec : Exec V} (hm : IsMode (kernel f) user exec) {o : Opts} {S : ℚ} {N : ℕ}
    {ps : List (TP V)} (h : Regular o S N ps) {k : ℕ} (hk : Settles f act o.dt k) (fuel : ℕ) (file : Output.PFile) (r : Run V) (hr : execute o exec fuel file ps = some r)
    (hf : o.hasFile = true) (hw : file.writeOndelete = false) (hl : file.lasttime ≠ some S) (i : ℚ) (hi : o.outputdt = some i) :
    ∃ s, r = .done s ∧ records s = (outputTimes S o.dt i N).flatMap fun t => ps.filterMap (record (mended f act k) o.dt t) := by
  obtain ⟨s, h1, -, -, h3⟩ := execute_good h (mode_ends hu h.step hk hm) (Or.inl plain_false) fuel file r hr
  obtain ⟨-, -, h4⟩ := h3 hf hw i hi
  refine ⟨s, h1, ?_⟩
  rw [h4, firstRecords, if_neg hl]
  obtain ⟨k, hk, rfl⟩ := h.output i hi
  have h1 : N / k * k ≤ N := Nat.div_mul_le_self N k
  have h2 : N < (N / k + 1) * k := (Nat.div_lt_iff_lt_mul hk).mp (Nat.lt_succ_self _)
  rw [outputTimes_eq (ne_zero_of h.step) hk h1 h2, List.tail_cons, List.flatMap_cons]

/-- C108. If the recovery functions raise where they do not let the particle go on, the run raises if the scheme with repairs loses one of the particles; else it returns with all of them, each where this
scheme leads. -/
theorem C108_raises {f : Scheme V} {act : Act V} {user : RMap Unit V} (hu : Recovers user act true) {exec : Exec V} (hm : IsMode (kernel f) user exec) {o : Opts} {S : ℚ} {N : ℕ}
    {ps : List (TP V)} (h : Regular o S N ps) {k : ℕ} (hk : Settles f act o.dt k) (fuel : ℕ) (file : Output.PFile) (r : Run V) (hr : execute o exec fuel file ps = some r) :
    ((∃ q ∈ ps, trajectory (mended f act k) o.dt (S + N * o.dt) q = none) → ∃ s, r = .raised s) ∧
    ((∀ q ∈ ps, (trajectory (mended f act k) o.dt (S + N * o.dt) q).isSome) →
      ∃ s, r = .done s ∧ s.ps.map core = ps.filterMap (trajectory (mended f act k) o.dt (S + N * o.dt))) := by
  refine ⟨fun hb => execute_bad h (mode_ends hu h.step hk hm) plain_true hb fuel file r hr, fun hg => ?_⟩
  obtain ⟨s, h1, h2, -⟩ := execute_good h (mode_ends hu h.step hk hm) (Or.inr hg) fuel file r hr
  exact ⟨s, h1, h2⟩

/-- C108. The run ends: in each interval between two stops, `N * k + 2` rounds of recovery are enough. -/
theorem C108_ends {f : Scheme V} {act : Act V} {user : RMap Unit V} {raises : Bool} (hu : Recovers user act raises) {o : Opts} {S : ℚ} {N : ℕ}
    {ps : List (TP V)} (h : Regular o S N ps) {k : ℕ} (hk : Settles f act o.dt k) (file : Output.PFile) :
    (execute o (scipyExec (kernel f) user (N + 1) (N * k + 2)) (N + 1) file ps).isSome ∧
    (execute o (jitExec (kernel f) user (N + 1) (N * k + 2)) (N + 1) file ps).isSome := by
  have hok : Deletes (plainMap (V := V) raises) ∨ Raises (plainMap (V := V) raises) := by
    cases raises
    · exact Or.inl plain_false
    · exact Or.inr plain_true
  exact ⟨execute_total h (mode_ends hu h.step hk ⟨_, _, Or.inl rfl⟩) (fun n ps hn hps => scipy_total hu h.step hk n ps hn hps) hok file,
    execute_total h (mode_ends hu h.step hk ⟨_, _, Or.inr rfl⟩) (fun n ps hn hps => jit_total hu h.step hk n ps hn hps) hok file⟩

/-- C108. If the recovery functions always let the particle go on, and no number of repairs brings one of the particles to the end of the run, the run does not end: `execute` tries the step again and again. -/
theorem C108_endless {f : Scheme V} {act : Act V} {user : RMap Unit V} (hu : Recovers user act false) (ha : ∀ e t v, (act e t v).isSome) {exec : Exec V}
    (hm : IsMode (kernel f) user exec) {o : Opts} {S : ℚ} {N : ℕ} {ps : List (TP V)} (h : Regular o S N ps) (q : TP V) (hq : q ∈ ps)
    (hn : ∀ k, trajectory (mended f act k) o.dt (S + N * o.dt) q = none) (fuel : ℕ) (file : Output.PFile) : execute o exec fuel file ps = none := by
  have hu' : Recovers user act true := by
    intro e
    obtain ⟨g, h1, h2⟩ := hu e
    refine ⟨g, h1, fun w p => ?_⟩
    have h3 := h2 w p
    have h4 := ha e p.time p.vars
    cases hc : act e p.time p.vars with
    | none => rw [hc] at h4; cases h4
    | some v => rw [hc] at h3; exact h3
  cases hr : execute o exec fuel file ps with
  | none => rfl
  | some r =>
    exfalso
    obtain ⟨fuel', nRounds, hm⟩ := hm
    have key : ∀ raises, Recovers user act raises → ∀ T ps e ps', (∀ q ∈ ps, q.2.dt = o.dt ∧ Fits o.dt T q) → exec T o.dt ps = some (e, ps') →
        Effect (plainMap raises) (mended f act nRounds) o.dt T ps e ps' := by
      intro raises hu
      rcases hm with rfl | rfl
      · exact fun T ps e ps' hps h' => effect_of (scipy_ends hu h.step (Or.inl le_rfl) hps h')
      · exact fun T ps e ps' hps h' => effect_of (jit_ends hu h.step (Or.inl le_rfl) hps h')
    obtain ⟨s, h1, -⟩ := execute_good h (key false hu) (Or.inl plain_false) fuel file r hr
    obtain ⟨s', h2⟩ := execute_bad h (key true hu') plain_true ⟨q, hq, hn nRounds⟩ fuel file r hr
    rw [h1] at h2
    cases h2

/-! ### Cases -/

/-- Particles a little outside are brought back to 50, those far outside are lost. -/
def exAct : Act ℚ := fun _ _ v => if v < 180 then some 50 else none

def exUser : RMap Unit ℚ := fun _ => some fun w p => (w, some (if p.vars < 180 then { p with vars := 50 } else { p with state := .delete }))

theorem exRecovers : Recovers exUser exAct false := by
  intro e
  refine ⟨_, by cases e <;> rfl, fun w p => ?_⟩
  by_cases c : p.vars < 180
  · simp [exAct, c]
  · simp [exAct, c]

theorem exSettles (dt : ℚ) : Settles exScheme exAct dt 1 := by
  intro t v
  unfold repairs exScheme
  by_cases c : v < 100
  · simp [c]
  · simp only [c, if_false]
    unfold exAct
    by_cases d : v < 180
    · simp only [d, if_true]
      unfold repairs
      norm_num
    · simp [d]

def exSet : List (TP ℚ) := [(0, ⟨0, 1, .success, 1⟩), (1, ⟨1, 1, .success, 70⟩), (2, ⟨2, 1, .success, 95⟩)]

theorem exSet_regular : Regular (exOpts 2 (.runtime 4)) 0 4 exSet := by
  refine ⟨⟨_, List.mem_cons_self, rfl⟩, by norm_num [exOpts], by norm_num [exOpts], by norm_num [exOpts], ?_, ?_, ?_, ?_, ?_, ?_⟩
  · intro i hi
    simp only [exOpts, Option.some.injEq] at hi
    exact ⟨2, by norm_num, by rw [← hi]; norm_num [exOpts]⟩
  · intro i hi; cases hi
  · intro i hi; cases hi
  · intro i t; show (0 : ℚ) < 1; norm_num
  · intro i t q hq; cases hq
  · intro q hq
    simp only [exSet, List.mem_cons, List.not_mem_nil, or_false] at hq
    rcases hq with rfl | rfl | rfl
    · exact ⟨0, by norm_num [exOpts]⟩
    · exact ⟨1, by norm_num [exOpts]⟩
    · exact ⟨2, by norm_num [exOpts]⟩

/-- The hypotheses of C108 can be met: the second particle is brought back twice, the third is lost. -/
example : Recovers exUser exAct false ∧ Settles exScheme exAct 1 1 ∧ Regular (exOpts 2 (.runtime 4)) 0 4 exSet ∧
    exSet.filterMap (trajectory (mended exScheme exAct 1) 1 4) = [(0, 4, 16), (1, 4, 100)] ∧
    exSet.filterMap (trajectory exScheme 1 4) = [(0, 4, 16)] :=
  ⟨exRecovers, exSettles 1, exSet_regular, by decide +kernel, by decide +kernel⟩

/-- The run itself, in both modes. -/
theorem exRuns :
    (match execute (exOpts 2 (.runtime 4)) (scipyExec (kernel exScheme) exUser 5 6) 5 exFile exSet with
    | some (.done s) => decide (s.ps.map core = [(0, 4, 16), (1, 4, 100)])
    | _ => false) = true ∧
    (match execute (exOpts 2 (.runtime 4)) (jitExec (kernel exScheme) exUser 5 6) 5 exFile exSet with
    | some (.done s) => decide (s.ps.map core = [(0, 4, 16), (1, 4, 100)])
    | _ => false) = true := by decide +kernel

/-- A recovery function that does nothing: the particle stays outside. -/
def exIdle : RMap Unit ℚ := fun _ => some fun w p => (w, some p)

/-- The hypotheses of C108_endless can be met: the recovery function does nothing, and the second particle leaves the field. -/
example : Recovers exIdle (fun _ _ v => some v) false ∧ ∀ k, trajectory (mended exScheme (fun _ _ v => some v) k) 1 4 (1, ⟨1, 1, .success, 70⟩) = none := by
  have hm : ∀ (k : ℕ) (t v : ℚ), ¬ v < 100 → ∃ e, mended exScheme (fun _ _ v => some v) k t 1 v = .error e := by
    intro k
    induction k with
    | zero => intro t v hv; exact ⟨.outOfBound, by simp [mended, exScheme, hv]⟩
    | succ k ih =>
      intro t v hv
      obtain ⟨e, he⟩ := ih t v hv
      exact ⟨e, by simp only [mended, exScheme, hv, if_false]; exact he⟩
  have hg : ∀ (k : ℕ), mended exScheme (fun _ _ v => some v) k 1 1 70 = .ok 140 := by
    intro k
    cases k <;> norm_num [mended, exScheme]
  refine ⟨fun e => ⟨_, by cases e <;> rfl, fun w p => rfl⟩, fun k => ?_⟩
  rw [trajectory_steps _ (by norm_num) _ 3 (by norm_num)]
  obtain ⟨e, he⟩ := hm k 2 140 (by norm_num)
  simp only [solution, hg]
  norm_num [he]

end Parcels.RepairRun
