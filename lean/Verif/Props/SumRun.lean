import Verif.Proofs.SumRun
import Verif.Props.NestRun

/-!
C115: whole runs with summed fields use, at each sample, the sum of the values of all fields of the list.
-/

namespace Parcels.SumRun

open Search Interp TimeInterp FieldLists
open KernelLoop (Exc)
open WholeRun (Scheme Opts Run Exec St execute scipyExec jitExec kernel solution trajectory record records outputTimes core Regular Deletes Raises)
open Recovery (TP RMap)
open GridRun (Fld Hint Sound FieldValue HintOk Hints Grids Covers exc bare strip filterMap_bare regular_strip filterMap_length)
open NestRun (Prog Body member follow refScheme)

variable {V : Type}

/-! ### Samples -/

/-- C115. A sample of a summed field in Scipy mode gives, for each component, the sum of the values of all members. -/
theorem C115_scipy_value {fs : Nat → Fld} (hf : ∀ i, Sound (fs i)) {k : Nat} {ms : List (List Nat)} (hm : Shape k ms) (hk : 0 < k) (t z y x : ℚ) (ws : List ℚ) :
    sumS fs ms t z y x = .ok ws ↔ SumValue fs k ms t z y x ws := sum_iff hf hm hk t z y x ws

/-- C115. It fails exactly where one of the members does not cover position and time. -/
theorem C115_covers {fs : Nat → Fld} (hf : ∀ i, Sound (fs i)) (ms : List (List Nat)) (t z y x : ℚ) :
    (∃ ws, sumS fs ms t z y x = .ok ws) ↔ ∀ m ∈ ms, ∀ i ∈ m, Covers (fs i) t z y x := by
  rw [← members_covers hf]
  unfold sumS
  cases members fs t z y x ms with
  | error e => exact ⟨fun ⟨_, h⟩ => (by cases h), fun ⟨_, h⟩ => by cases h⟩
  | ok vs => exact ⟨fun _ => ⟨_, rfl⟩, fun _ => ⟨_, rfl⟩⟩

/-- C115. The same in JIT mode for sums of scalar fields, whatever cells the particle remembers; and for sums of vector fields, if all members cover wherever the last does. -/
theorem C115_jit_value_partial {fs : Nat → Fld} (hf : ∀ i, Sound (fs i)) (hg : Grids fs) (junk : Nat → ℚ) {vec : Bool} {k : Nat} {ms : List (List Nat)} (hm : Shape k ms) (hk : 0 < k)
    (hv : vec = true → Together fs ms) (t z y x : ℚ) (ws : List ℚ) (hs : Nat → Hint) (hh : Hints fs hs) :
    ((cSum junk fs vec ms t z y x hs).1 = .ok ws ↔ SumValue fs k ms t z y x ws) ∧ Hints fs (cSum junk fs vec ms t z y x hs).2 := by
  obtain ⟨c1, c2, c3⟩ := cSum_cases hf hg junk hm.1 hv t z y x hs hh
  rw [← sum_iff hf hm hk]
  refine ⟨⟨fun h => ?_, c2 ws⟩, c1⟩
  cases hs : sumS fs ms t z y x with
  | error e =>
    obtain ⟨e, he⟩ := c3 ⟨e, hs⟩
    rw [he] at h
    cases h
  | ok ws' =>
    rw [c2 ws' hs] at h
    exact h

/-- C115 fails for sums of vector fields in JIT mode: wherever the last member covers position and time, the sample succeeds, whether or not the others do. -/
theorem C115_swallow_fails {fs : Nat → Fld} (hf : ∀ i, Sound (fs i)) (hg : Grids fs) (junk : Nat → ℚ) (ms : List (List Nat)) (last : List Nat) (t z y x : ℚ)
    (hl : ∀ i ∈ last, Covers (fs i) t z y x) (hs : Nat → Hint) (hh : Hints fs hs) : ∃ ws, (cSum junk fs true (ms ++ [last]) t z y x hs).1 = .ok ws := by
  have := (cVectors_last hf hg junk t z y x (ms ++ [last]) none hs last hh (by simp)).mpr ((member_covers hf t z y x last).mpr hl)
  unfold cSum
  rw [if_pos rfl]
  generalize cVectors junk fs t z y x (ms ++ [last]) none hs = r at *
  rcases r with ⟨err, vs, hs'⟩
  dsimp only at this
  subst this
  exact ⟨_, rfl⟩

/-! ### Runs -/

/-- C115. The values the theorems speak of exist. -/
theorem C115_values {fs : Nat → Fld} {comps : Nat → Nat} {ns : Nat → List (List Nat)} (hf : ∀ i, Sound (fs i)) (hn : ∀ n, Shape (comps n) (ns n) ∧ 0 < comps n) : ∃ val, Sums fs comps ns val :=
  sums_exists hf hn

/-- C115. A run in Scipy mode with a kernel that samples summed fields: the particles that are left are where the trajectories in the summed values lead. -/
theorem C115_scipy {fs : Nat → Fld} {comps : Nat → Nat} {ns : Nat → List (List Nat)} (hf : ∀ i, Sound (fs i)) (hn : ∀ n, Shape (comps n) (ns n) ∧ 0 < comps n)
    {val : Nat → (t z y x : ℚ) → Option (List ℚ)} (hv : Sums fs comps ns val) (b : Body V)
    {user : RMap Unit V} {o : Opts} {S : ℚ} {N : ℕ} {ps : List (TP V)} (h : Regular o S N ps)
    (hok : Deletes user ∨ ∀ q ∈ ps, (trajectory (refScheme val b) o.dt (S + N * o.dt) q).isSome) (k n fuel : ℕ) (file : Output.PFile) (r : Run V)
    (hr : execute o (scipyExec (kernel (scipyScheme fs ns b)) user k n) fuel file ps = some r) :
    ∃ s, r = .done s ∧ s.ps.map core = ps.filterMap (trajectory (refScheme val b) o.dt (S + N * o.dt)) := by
  rw [← trajectory_scipy (sum_scipy hf hn hv) b] at hok ⊢
  exact WholeRun.C97_run ⟨k, n, Or.inl rfl⟩ h hok fuel file r hr

theorem traj_jit {fs : Nat → Fld} {comps : Nat → Nat} {ns : Nat → List (List Nat)} {vec : Nat → Bool} (junk : Nat → ℚ) (hf : ∀ i, Sound (fs i)) (hg : Grids fs)
    (hn : ∀ n, Shape (comps n) (ns n) ∧ 0 < comps n) (ht : ∀ n, vec n = true → Together fs (ns n)) {val : Nat → (t z y x : ℚ) → Option (List ℚ)} (hv : Sums fs comps ns val)
    (b : Body V) (dt t : ℚ) (q : TP (V × (Nat → Hint))) (hq : Hints fs q.2.vars.2) :
    (trajectory (jitScheme junk fs vec ns b) dt t q).map bare = trajectory (refScheme val b) dt t (strip q) := trajectory_jit (sum_jit junk hf hg hn ht hv) b dt t q hq

theorem rec_jit {fs : Nat → Fld} {comps : Nat → Nat} {ns : Nat → List (List Nat)} {vec : Nat → Bool} (junk : Nat → ℚ) (hf : ∀ i, Sound (fs i)) (hg : Grids fs)
    (hn : ∀ n, Shape (comps n) (ns n) ∧ 0 < comps n) (ht : ∀ n, vec n = true → Together fs (ns n)) {val : Nat → (t z y x : ℚ) → Option (List ℚ)} (hv : Sums fs comps ns val)
    (b : Body V) (dt t : ℚ) (q : TP (V × (Nat → Hint))) (hq : Hints fs q.2.vars.2) :
    (record (jitScheme junk fs vec ns b) dt t q).map bare = record (refScheme val b) dt t (strip q) := record_jit (sum_jit junk hf hg hn ht hv) b dt t q hq

theorem traj_scipy {fs : Nat → Fld} {comps : Nat → Nat} {ns : Nat → List (List Nat)} (hf : ∀ i, Sound (fs i)) (hn : ∀ n, Shape (comps n) (ns n) ∧ 0 < comps n)
    {val : Nat → (t z y x : ℚ) → Option (List ℚ)} (hv : Sums fs comps ns val) (b : Body V) : trajectory (scipyScheme fs ns b) = trajectory (refScheme val b) :=
  trajectory_scipy (sum_scipy hf hn hv) b

/-- C115. The same in JIT mode, if in sums of vector fields all members cover wherever the last does. -/
theorem C115_jit_partial {fs : Nat → Fld} {comps : Nat → Nat} {ns : Nat → List (List Nat)} {vec : Nat → Bool} (junk : Nat → ℚ) (hf : ∀ i, Sound (fs i)) (hg : Grids fs)
    (hn : ∀ n, Shape (comps n) (ns n) ∧ 0 < comps n) (ht : ∀ n, vec n = true → Together fs (ns n)) {val : Nat → (t z y x : ℚ) → Option (List ℚ)} (hv : Sums fs comps ns val) (b : Body V)
    {user : RMap Unit (V × (Nat → Hint))} {o : Opts} {S : ℚ} {N : ℕ} {ps : List (TP (V × (Nat → Hint)))} (h : Regular o S N ps)
    (hh : ∀ q ∈ ps, Hints fs q.2.vars.2)
    (hok : Deletes user ∨ ∀ q ∈ ps, (trajectory (refScheme val b) o.dt (S + N * o.dt) (strip q)).isSome) (k n fuel : ℕ) (file : Output.PFile)
    (r : Run (V × (Nat → Hint))) (hr : execute o (jitExec (kernel (jitScheme junk fs vec ns b)) user k n) fuel file ps = some r) :
    ∃ s, r = .done s ∧ (s.ps.map core).map bare = (ps.map strip).filterMap (trajectory (refScheme val b) o.dt (S + N * o.dt)) := by
  have hok' : Deletes user ∨ ∀ q ∈ ps, (trajectory (jitScheme junk fs vec ns b) o.dt (S + N * o.dt) q).isSome := by
    refine hok.imp_right fun H q hq => ?_
    have := H q hq
    rw [← traj_jit junk hf hg hn ht hv b _ _ q (hh q hq), Option.isSome_map] at this
    exact this
  obtain ⟨s, h1, h2⟩ := WholeRun.C97_run (f := jitScheme junk fs vec ns b) ⟨k, n, Or.inr rfl⟩ h hok' fuel file r hr
  refine ⟨s, h1, ?_⟩
  rw [h2]
  exact filterMap_bare _ _ _ _ _ fun q hq => traj_jit junk hf hg hn ht hv b _ _ q (hh q hq)

/-- C115. In JIT mode for all summed fields, scalar or vector: if the trajectories of all particles stay where all members cover, the particles end where these lead. -/
theorem C115_jit_covered {fs : Nat → Fld} {comps : Nat → Nat} {ns : Nat → List (List Nat)} (vec : Nat → Bool) (junk : Nat → ℚ) (hf : ∀ i, Sound (fs i)) (hg : Grids fs)
    (hn : ∀ n, Shape (comps n) (ns n) ∧ 0 < comps n) {val : Nat → (t z y x : ℚ) → Option (List ℚ)} (hv : Sums fs comps ns val) (b : Body V)
    {user : RMap Unit (V × (Nat → Hint))} {o : Opts} {S : ℚ} {N : ℕ} {ps : List (TP (V × (Nat → Hint)))} (h : Regular o S N ps)
    (hh : ∀ q ∈ ps, Hints fs q.2.vars.2) (hok : ∀ q ∈ ps, (trajectory (refScheme val b) o.dt (S + N * o.dt) (strip q)).isSome) (k n fuel : ℕ) (file : Output.PFile)
    (r : Run (V × (Nat → Hint))) (hr : execute o (jitExec (kernel (jitScheme junk fs vec ns b)) user k n) fuel file ps = some r) :
    ∃ s, r = .done s ∧ (s.ps.map core).map bare = (ps.map strip).filterMap (trajectory (refScheme val b) o.dt (S + N * o.dt)) := by
  have key : ∀ q ∈ ps, (trajectory (jitScheme junk fs vec ns b) o.dt (S + N * o.dt) q).map bare = trajectory (refScheme val b) o.dt (S + N * o.dt) (strip q) := fun q hq =>
    trajectory_jit' (sum_jit' vec junk hf hg hn hv) b _ _ q (hh q hq) (hok q hq)
  have hok' : Deletes user ∨ ∀ q ∈ ps, (trajectory (jitScheme junk fs vec ns b) o.dt (S + N * o.dt) q).isSome := by
    refine Or.inr fun q hq => ?_
    have := hok q hq
    rw [← key q hq, Option.isSome_map] at this
    exact this
  obtain ⟨s, h1, h2⟩ := WholeRun.C97_run (f := jitScheme junk fs vec ns b) ⟨k, n, Or.inr rfl⟩ h hok' fuel file r hr
  refine ⟨s, h1, ?_⟩
  rw [h2]
  exact filterMap_bare _ _ _ _ _ key

/-- C115. If in sums of vector fields all members cover wherever the last does: with recovery functions that delete, the two modes give the same particles, and the same records in the output file. -/
theorem C115_modes_partial {fs : Nat → Fld} {comps : Nat → Nat} {ns : Nat → List (List Nat)} {vec : Nat → Bool} (junk : Nat → ℚ) (hf : ∀ i, Sound (fs i)) (hg : Grids fs)
    (hn : ∀ n, Shape (comps n) (ns n) ∧ 0 < comps n) (ht : ∀ n, vec n = true → Together fs (ns n)) (b : Body V) {user : RMap Unit V} {user' : RMap Unit (V × (Nat → Hint))}
    (hu : Deletes user) (hu' : Deletes user') {o : Opts} {S : ℚ} {N : ℕ} {ps : List (TP (V × (Nat → Hint)))} (h : Regular o S N ps)
    (hh : ∀ q ∈ ps, Hints fs q.2.vars.2) (k n fuel k' n' fuel' : ℕ) (file : Output.PFile) (r : Run V) (r' : Run (V × (Nat → Hint)))
    (hr : execute o (scipyExec (kernel (scipyScheme fs ns b)) user k n) fuel file (ps.map strip) = some r)
    (hr' : execute o (jitExec (kernel (jitScheme junk fs vec ns b)) user' k' n') fuel' file ps = some r') :
    ∃ s s', r = .done s ∧ r' = .done s' ∧ s.ps.map core = (s'.ps.map core).map bare ∧
      (o.hasFile = true → file.writeOndelete = false → file.lasttime ≠ some S → o.outputdt ≠ none → records s = (records s').map bare) := by
  obtain ⟨val, hv⟩ := sums_exists hf hn
  obtain ⟨s, e1, e2⟩ := C115_scipy hf hn hv b (regular_strip h) (Or.inl hu) k n fuel file r hr
  obtain ⟨s', e1', e2'⟩ := C115_jit_partial junk hf hg hn ht hv b h hh (Or.inl hu') k' n' fuel' file r' hr'
  refine ⟨s, s', e1, e1', by rw [e2, e2'], fun c1 c2 c3 c4 => ?_⟩
  obtain ⟨i, hi⟩ := Option.ne_none_iff_exists'.mp c4
  obtain ⟨s2, a1, a2⟩ := WholeRun.C97_records (f := scipyScheme fs ns b) ⟨k, n, Or.inl rfl⟩ (regular_strip h) (Or.inl hu) fuel file r hr c1 c2 c3 i hi
  obtain ⟨s2', a1', a2'⟩ := WholeRun.C97_records (f := jitScheme junk fs vec ns b) ⟨k', n', Or.inr rfl⟩ h (Or.inl hu') fuel' file r' hr' c1 c2 c3 i hi
  rw [e1] at a1
  rw [e1'] at a1'
  injection a1 with a1
  injection a1' with a1'
  subst a1 a1'
  rw [a2, a2', List.map_flatMap]
  congr 1
  funext t
  rw [filterMap_bare _ (record (refScheme val b) o.dt t) bare strip ps fun q hq => rec_jit junk hf hg hn ht hv b _ _ q (hh q hq)]
  unfold record
  rw [traj_scipy hf hn hv b]

/-- C115. Under the same condition, with recovery functions that raise (the default), either both modes raise, or both return with the same particles. -/
theorem C115_modes_raise_partial {fs : Nat → Fld} {comps : Nat → Nat} {ns : Nat → List (List Nat)} {vec : Nat → Bool} (junk : Nat → ℚ) (hf : ∀ i, Sound (fs i)) (hg : Grids fs)
    (hn : ∀ n, Shape (comps n) (ns n) ∧ 0 < comps n) (ht : ∀ n, vec n = true → Together fs (ns n)) (b : Body V) {user : RMap Unit V} {user' : RMap Unit (V × (Nat → Hint))}
    (hu : Raises user) (hu' : Raises user') {o : Opts} {S : ℚ} {N : ℕ} {ps : List (TP (V × (Nat → Hint)))} (h : Regular o S N ps)
    (hh : ∀ q ∈ ps, Hints fs q.2.vars.2) (k n fuel k' n' fuel' : ℕ) (file : Output.PFile) (r : Run V) (r' : Run (V × (Nat → Hint)))
    (hr : execute o (scipyExec (kernel (scipyScheme fs ns b)) user k n) fuel file (ps.map strip) = some r)
    (hr' : execute o (jitExec (kernel (jitScheme junk fs vec ns b)) user' k' n') fuel' file ps = some r') :
    (∃ s s', r = .raised s ∧ r' = .raised s') ∨
    (∃ s s', r = .done s ∧ r' = .done s' ∧ s.ps.map core = (s'.ps.map core).map bare ∧ s.ps.length = ps.length) := by
  obtain ⟨val, hv⟩ := sums_exists hf hn
  by_cases c : ∀ q ∈ ps, (trajectory (refScheme val b) o.dt (S + N * o.dt) (strip q)).isSome
  · right
    have c' : ∀ q ∈ ps.map strip, (trajectory (refScheme val b) o.dt (S + N * o.dt) q).isSome := by
      intro q hq
      obtain ⟨p, hp, rfl⟩ := List.mem_map.mp hq
      exact c p hp
    obtain ⟨s, e1, e2⟩ := C115_scipy hf hn hv b (regular_strip h) (Or.inr c') k n fuel file r hr
    obtain ⟨s', e1', e2'⟩ := C115_jit_partial junk hf hg hn ht hv b h hh (Or.inr c) k' n' fuel' file r' hr'
    refine ⟨s, s', e1, e1', by rw [e2, e2'], ?_⟩
    have l := congrArg List.length e2
    rw [List.length_map, filterMap_length c', List.length_map] at l
    exact l
  · left
    push Not at c
    obtain ⟨q, hq, hno⟩ := c
    have hn' : trajectory (refScheme val b) o.dt (S + N * o.dt) (strip q) = none := by
      cases e : trajectory (refScheme val b) o.dt (S + N * o.dt) (strip q) with
      | none => rfl
      | some v => rw [e] at hno; exact absurd rfl hno
    obtain ⟨s, e1⟩ := WholeRun.C97_raises (f := scipyScheme fs ns b) ⟨k, n, Or.inl rfl⟩ (regular_strip h) hu
      ⟨strip q, List.mem_map_of_mem hq, by rw [traj_scipy hf hn hv b]; exact hn'⟩ fuel file r hr
    obtain ⟨s', e1'⟩ := WholeRun.C97_raises (f := jitScheme junk fs vec ns b) ⟨k', n', Or.inr rfl⟩ h hu'
      ⟨q, hq, by
        have := traj_jit junk hf hg hn ht hv b o.dt (S + N * o.dt) q (hh q hq)
        rw [hn', Option.map_eq_none_iff] at this
        exact this⟩ fuel' file r' hr'
    exact ⟨s, s', e1, e1'⟩

/-! ### Cases -/

/-- The sum of the velocities on the large grid and on the small one. -/
def exNs : Nat → List (List Nat) := fun _ => [[2, 3], [0, 1]]

theorem exShape : ∀ n, Shape 2 (exNs n) ∧ 0 < 2 := by
  intro n
  refine ⟨⟨by simp [exNs], ?_⟩, by norm_num⟩
  intro m hm
  simp only [exNs, List.mem_cons, List.not_mem_nil, or_false] at hm
  rcases hm with rfl | rfl <;> rfl

theorem exTogether : Together NestRun.exFs (exNs 0) := by
  intro last hl t z y x hc
  obtain rfl : [0, 1] = last := Option.some.inj hl
  obtain ⟨⟨a, b, ha, hb, ha', hb'⟩, ⟨c, d, hc1, hd, hc', hd'⟩, -, h4⟩ := hc 0 (by simp)
  have c1 := hc 1 (by simp)
  simp [NestRun.exFs] at ha hb hc1 hd
  have lon : 0 ≤ x ∧ x ≤ 1 := by rcases ha with rfl | rfl <;> rcases hb with rfl | rfl <;> constructor <;> linarith
  have lat : 0 ≤ y ∧ y ≤ 2 := by rcases hc1 with rfl | rfl <;> rcases hd with rfl | rfl <;> constructor <;> linarith
  have time : 0 ≤ t ∧ t ≤ 10 := by
    rcases h4 with h4 | ⟨e, f, he, hf, he', hf'⟩
    · simp [NestRun.exFs] at h4
    · simp [NestRun.exFs] at he hf
      rcases he with rfl | rfl <;> rcases hf with rfl | rfl <;> constructor <;> linarith
  have big : ∀ i, i = 2 ∨ i = 3 → Covers (NestRun.exFs i) t z y x := by
    rintro i (rfl | rfl)
    all_goals exact ⟨⟨-1, 2, by simp [NestRun.exFs], by simp [NestRun.exFs], by linarith, by linarith⟩, ⟨-1, 4, by simp [NestRun.exFs], by simp [NestRun.exFs], by linarith, by linarith⟩,
      fun h => by simp [NestRun.exFs] at h, Or.inr ⟨0, 50, by simp [NestRun.exFs], by simp [NestRun.exFs], by linarith, by linarith⟩⟩
  intro m hm i hi
  simp only [exNs, List.mem_cons, List.not_mem_nil, or_false] at hm
  rcases hm with rfl | rfl <;> simp only [List.mem_cons, List.not_mem_nil, or_false] at hi
  · exact big i hi
  · rcases hi with rfl | rfl
    · exact hc 0 (by simp)
    · exact c1

/-- Three particles: the first stays, the others leave the small grid. -/
def exParts : List (TP ((ℚ × ℚ × ℚ) × (Nat → Hint))) :=
  [(0, ⟨0, 1 / 16, .success, ((1 / 2, 1, 0), GridRun.newHints)⟩), (1, ⟨0, 1 / 16, .success, ((7 / 8, 1, 0), GridRun.newHints)⟩), (2, ⟨0, 1 / 16, .success, ((3, 3, 1 / 2), GridRun.newHints)⟩)]

/-- A quarter of a second. -/
def exOpts : Opts := ⟨1 / 16, .runtime (1 / 4), true, some (1 / 8), none, none, fun _ _ => .pinf⟩

theorem exRegular : Regular exOpts 0 4 exParts := by
  refine ⟨⟨_, List.mem_cons_self, rfl⟩, by norm_num [exOpts, abs_div], by norm_num [exOpts, abs_div], by norm_num [exOpts, abs_div], ?_, ?_, ?_, ?_, ?_, ?_⟩
  · intro i hi
    simp only [exOpts, Option.some.injEq] at hi
    exact ⟨2, by norm_num, by rw [← hi]; norm_num [exOpts, abs_div]⟩
  · intro i hi; cases hi
  · intro i hi; cases hi
  · intro i t; show (0 : ℚ) < 1 / 16; norm_num
  · intro i t q hq; cases hq
  · intro q hq
    simp only [exParts, List.mem_cons, List.not_mem_nil, or_false] at hq
    rcases hq with rfl | rfl | rfl <;> exact ⟨0, by norm_num [exOpts]⟩

/-- The hypotheses of C115 can be met: the runs in the two modes end, with the same particles and records, or raise. -/
example : (∀ i, Sound (NestRun.exFs i)) ∧ Grids NestRun.exFs ∧ (∀ n, Shape 2 (exNs n) ∧ 0 < 2) ∧ Together NestRun.exFs (exNs 0) ∧ Regular exOpts 0 4 exParts ∧
    (∀ q ∈ exParts, Hints NestRun.exFs q.2.vars.2) ∧
    (match execute exOpts (scipyExec (kernel (scipyScheme NestRun.exFs exNs NestRun.rk4)) WholeRun.exDelete 5 2) 5 WholeRun.exFile (exParts.map strip),
      execute exOpts (jitExec (kernel (jitScheme (fun _ => 99) NestRun.exFs (fun _ => true) exNs NestRun.rk4)) WholeRun.exDelete 5 2) 5 WholeRun.exFile exParts with
    | some (.done s), some (.done s') => decide (s.ps.map core = (s'.ps.map core).map bare ∧ records s = (records s').map bare ∧
        s.ps.map (fun q => (q.1, q.2.time)) = [(0, 1 / 4)] ∧ 4 ≤ (records s).length)
    | _, _ => false) = true ∧
    (match execute exOpts (scipyExec (kernel (scipyScheme NestRun.exFs exNs NestRun.rk4)) (fun _ => none) 5 2) 5 WholeRun.exFile (exParts.map strip),
      execute exOpts (jitExec (kernel (jitScheme (fun _ => 99) NestRun.exFs (fun _ => true) exNs NestRun.rk4)) (fun _ => none) 5 2) 5 WholeRun.exFile exParts with
    | some (.raised _), some (.raised _) => true
    | _, _ => false) = true := by
  refine ⟨NestRun.exSound, NestRun.exGrids, exShape, exTogether, exRegular, ?_, by decide +kernel, by decide +kernel⟩
  intro q hq
  simp only [exParts, List.mem_cons, List.not_mem_nil, or_false] at hq
  rcases hq with rfl | rfl | rfl <;> exact NestRun.exHints

/-- Samples: where both members cover, and where only one does. -/
example : sumS NestRun.exFs (exNs 0) 5 0 1 (1 / 2) = .ok [8 / 5, 3 / 8] ∧ (cSum (fun _ => 99) NestRun.exFs true (exNs 0) 5 0 1 (1 / 2) GridRun.newHints).1 = .ok [8 / 5, 3 / 8] ∧
    (cSum (fun _ => 99) NestRun.exFs false [[2], [0]] 5 0 1 (1 / 2) GridRun.newHints).1 = .ok [8 / 5] ∧ sumS NestRun.exFs (exNs 0) 5 0 3 (1 / 2) = .error oob := by decide +kernel

/-- C115. A run with the members in the other order: in Scipy mode the two particles outside the small grid are deleted; in JIT mode they are not, and where they go depends on what the temporaries held. -/
theorem C115_run_fails :
    (match execute exOpts (scipyExec (kernel (scipyScheme NestRun.exFs (fun _ => [[0, 1], [2, 3]]) NestRun.rk4)) WholeRun.exDelete 5 2) 5 WholeRun.exFile (exParts.map strip),
      execute exOpts (jitExec (kernel (jitScheme (fun _ => 0) NestRun.exFs (fun _ => true) (fun _ => [[0, 1], [2, 3]]) NestRun.rk4)) WholeRun.exDelete 5 2) 5 WholeRun.exFile exParts,
      execute exOpts (jitExec (kernel (jitScheme (fun _ => 1) NestRun.exFs (fun _ => true) (fun _ => [[0, 1], [2, 3]]) NestRun.rk4)) WholeRun.exDelete 5 2) 5 WholeRun.exFile exParts with
    | some (.done s), some (.done s'), some (.done s'') => decide (s.ps.map (·.1) = [0] ∧ s'.ps.map (·.1) = [0, 1, 2] ∧ s''.ps.map (·.1) = [0, 1, 2] ∧
        s'.ps.map (fun q => q.2.vars.1) ≠ s''.ps.map (fun q => q.2.vars.1))
    | _, _, _ => false) = true := by decide +kernel

end Parcels.SumRun
