import Verif.Proofs.CGridSteps
import Verif.Props.PathRun
import Verif.Props.CGridRun

/-!
C121: whole runs in the flow of a C-grid.
-/

namespace Parcels.CGridRun

open Search Interp
open CGrid (Metric)
open Curvilinear (IsSqrt)
open KernelLoop (Exc)
open GridRun (Fld Hint Sound)
open Recovery (TP RMap)
open RepairRun (Act Recovers)
open PathRun (Step Starts Account)
open WholeRun (IsMode Exec Opts St kernel records execute scipyExec jitExec)

variable {V : Type}

/-- C121 (Scipy mode): in every run of a kernel that samples the velocity of a C-grid, each particle has followed an unbroken path of steps, where each sample is the velocity on the faces around the sampled position, interpolated in space and time; or it is gone because a sample on such a path was not covered by the field. Each record is a point of the path of its particle. -/
theorem C121_scipy (m : Metric ℚ) (hs : IsSqrt m.sqrt) (mit per : Bool) (f : Fld) (hf : Sound f) (dV : Nat → Arr) (hp : per = true → Closed f dV) (b : Body V) {act : Act V} {user : RMap Unit V} {raises : Bool}
    (hu : Recovers user act raises) {exec : Exec V} (hm : IsMode (kernel (scipyScheme m mit per f dV b)) user exec) {o : Opts} {S : ℚ} {ps : List (TP V)} (h : Starts o S ps) (fuel : ℕ) (file : Output.PFile) (s : St V)
    (hr : execute o exec fuel file ps = some (.done s)) :
    Account (fun q r => r.1 = q.1 ∧ FlowPath mit per f dV b act o.dt q.2.time q.2.vars r.2.time r.2.vars) (fun q => raises = false ∧ Lost mit per f dV b act o.dt q.2.time q.2.vars) ps s.ps ∧
    ∀ c ∈ records s, ∃ q ∈ ps, c.1 = q.1 ∧ FlowPath mit per f dV b act o.dt q.2.time q.2.vars c.2.1 c.2.2 := by
  constructor
  · refine (PathRun.C109_run hu hm h fuel file s hr).imp (fun q _ r _ hw => ⟨hw.1, scipy_path hs mit hf hp b act hw.2⟩) fun q _ hg => ⟨hg.1, ?_⟩
    obtain ⟨-, t, v, d, e, h1, h2, h3, h4⟩ := hg
    exact ⟨t, v, d, e, scipy_path hs mit hf hp b act h1, h2, (scipy_follows hs mit hf hp _).2 e h3, h4⟩
  · intro c hc
    obtain ⟨q, hq, e, hw⟩ := PathRun.C109_records hu hm h fuel file s hr c hc
    exact ⟨q, hq, e, scipy_path hs mit hf hp b act hw⟩

/-- C121 (JIT mode): the same, from all remembered cells of the grid, if no cell is wider than 180. -/
theorem C121_jit_partial (m : Metric ℚ) (hs : IsSqrt m.sqrt) (mit per : Bool) (f : Fld) (hf : Sound f) (hn : NarrowCells f) (dV : Nat → Arr) (hp : per = true → Closed f dV) (b : Body V) {act : Act V}
    {user : RMap Unit (V × Hint)} {raises : Bool} (hu : Recovers user (keeping act) raises) {exec : Exec (V × Hint)} (hm : IsMode (kernel (jitScheme m mit per f dV b)) user exec) {o : Opts} {S : ℚ}
    {ps : List (TP (V × Hint))} (hh : ∀ q ∈ ps, Remembered f q.2.vars.2) (h : Starts o S ps) (fuel : ℕ) (file : Output.PFile) (s : St (V × Hint)) (hr : execute o exec fuel file ps = some (.done s)) :
    Account (fun q r => r.1 = q.1 ∧ FlowPath mit per f dV b act o.dt q.2.time q.2.vars.1 r.2.time r.2.vars.1) (fun q => raises = false ∧ Lost mit per f dV b act o.dt q.2.time q.2.vars.1) ps s.ps ∧
    ∀ c ∈ records s, ∃ q ∈ ps, c.1 = q.1 ∧ FlowPath mit per f dV b act o.dt q.2.time q.2.vars.1 c.2.1 c.2.2.1 := by
  constructor
  · refine (PathRun.C109_run hu hm h fuel file s hr).imp (fun q hq r _ hw => ⟨hw.1, (jit_path hs mit hf hp hn b act (hh q hq) hw.2).1⟩) fun q hq hg => ⟨hg.1, ?_⟩
    obtain ⟨-, t, v, d, e, h1, h2, h3, h4⟩ := hg
    obtain ⟨a, c⟩ := jit_path hs mit hf hp hn b act (hh q hq) h1
    refine ⟨t, v.1, d, e, a, h2, (jit_follows hs mit hf hp hn _ _ c).2 e h3, ?_⟩
    unfold keeping at h4
    exact Option.map_eq_none_iff.mp h4
  · intro c hc
    obtain ⟨q, hq, e, hw⟩ := PathRun.C109_records hu hm h fuel file s hr c hc
    exact ⟨q, hq, e, (jit_path hs mit hf hp hn b act (hh q hq) hw).1⟩

/-- C121: a run raises only because a sample on the path of one of the particles was not covered by the field. -/
theorem C121_raises (m : Metric ℚ) (hs : IsSqrt m.sqrt) (mit per : Bool) (f : Fld) (hf : Sound f) (dV : Nat → Arr) (hp : per = true → Closed f dV) (b : Body V) {act : Act V} {raises : Bool} {o : Opts} {S : ℚ}
    (fuel : ℕ) (file : Output.PFile) :
    (∀ {user : RMap Unit V}, Recovers user act raises → ∀ {exec : Exec V}, IsMode (kernel (scipyScheme m mit per f dV b)) user exec → ∀ {ps : List (TP V)}, Starts o S ps → ∀ s,
      execute o exec fuel file ps = some (.raised s) → raises = true ∧ ∃ q ∈ ps, Lost mit per f dV b act o.dt q.2.time q.2.vars) ∧
    (NarrowCells f → ∀ {user : RMap Unit (V × Hint)}, Recovers user (keeping act) raises → ∀ {exec : Exec (V × Hint)}, IsMode (kernel (jitScheme m mit per f dV b)) user exec →
      ∀ {ps : List (TP (V × Hint))}, (∀ q ∈ ps, Remembered f q.2.vars.2) → Starts o S ps → ∀ s,
      execute o exec fuel file ps = some (.raised s) → raises = true ∧ ∃ q ∈ ps, Lost mit per f dV b act o.dt q.2.time q.2.vars.1) := by
  constructor
  · intro user hu exec hm ps h s hr
    obtain ⟨a, q, hq, t, v, d, e, h1, h2, h3, h4⟩ := PathRun.C109_raises hu hm h fuel file s hr
    exact ⟨a, q, hq, t, v, d, e, scipy_path hs mit hf hp b act h1, h2, (scipy_follows hs mit hf hp _).2 e h3, h4⟩
  · intro hn user hu exec hm ps hh h s hr
    obtain ⟨a, q, hq, t, v, d, e, h1, h2, h3, h4⟩ := PathRun.C109_raises hu hm h fuel file s hr
    obtain ⟨a', c⟩ := jit_path hs mit hf hp hn b act (hh q hq) h1
    refine ⟨a, q, hq, t, v.1, d, e, a', h2, (jit_follows hs mit hf hp hn _ _ c).2 e h3, ?_⟩
    unfold keeping at h4
    exact Option.map_eq_none_iff.mp h4

/-- C121: a step whose samples are off the nodes of the grid has the same result in both modes, whatever the remembered cell. -/
theorem C121_step_partial (m : Metric ℚ) (hs : IsSqrt m.sqrt) (mit per : Bool) (f : Fld) (hf : Sound f) (hn : NarrowCells f) (dV : Nat → Arr) (hp : per = true → Closed f dV) (b : Body V) (t d : ℚ) (v w : V)
    (hint : Hint) (hh : Remembered f hint) (w' : V × Hint) (ho : OffNodes mit per f dV (b t d v)) (h : scipyScheme m mit per f dV b t d v = .ok w)
    (h' : jitScheme m mit per f dV b t d (v, hint) = .ok w') : w'.1 = w :=
  follows_unique hf hp ho ((jit_follows hs mit hf hp hn _ _ hh).1 _ h').1 ((scipy_follows hs mit hf hp _).1 _ h)

/-- C121: the steps of the kernels. A step of `AdvectionRK4` from `(x, y)` is one of the classical Runge-Kutta method: the velocity is sampled at the
start, twice half a step ahead and once a whole step ahead, each time at the position the sample before leads to, and the mean has the weights 1, 2, 2, 1; a step of `AdvectionEE`
is one of Euler's method. The depth stays. -/
theorem C121_kernels (mit per : Bool) (f : Fld) (dV : Nat → Arr) (t h x y z : ℚ) (w : ℚ × ℚ × ℚ) :
    (Follows mit per f dV (rk4 t h (x, y, z)) w ↔ ∃ u1 v1 u2 v2 u3 v3 u4 v4, Gives mit per f dV t z y x u1 v1 ∧
      Gives mit per f dV (t + h / 2) z (y + h / 2 * v1) (x + h / 2 * u1) u2 v2 ∧
      Gives mit per f dV (t + h / 2) z (y + h / 2 * v2) (x + h / 2 * u2) u3 v3 ∧
      Gives mit per f dV (t + h) z (y + h * v3) (x + h * u3) u4 v4 ∧
      w = (x + h / 6 * (u1 + 2 * u2 + 2 * u3 + u4), y + h / 6 * (v1 + 2 * v2 + 2 * v3 + v4), z)) ∧
    (Follows mit per f dV (ee t h (x, y, z)) w ↔ ∃ u v, Gives mit per f dV t z y x u v ∧ w = (x + h * u, y + h * v, z)) := by
  have e1 : ∀ a b : ℚ, a + b * (1 / 2) * h = a + h / 2 * b := fun a b => by ring
  have e2 : t + 1 / 2 * h = t + h / 2 := by ring
  have e3 : ∀ a b : ℚ, a + b * h = a + h * b := fun a b => by ring
  have e4 : ∀ a b : ℚ, a + h * (b / 6) = a + h / 6 * b := fun a b => by ring
  constructor
  · unfold rk4
    simp only [e1, e2, e3, e4]
    constructor
    · intro q
      cases q with | get g1 q =>
      cases q with | get g2 q =>
      cases q with | get g3 q =>
      cases q with | get g4 q =>
      cases q
      exact ⟨_, _, _, _, _, _, _, _, g1, g2, g3, g4, rfl⟩
    · rintro ⟨u1, v1, u2, v2, u3, v3, u4, v4, g1, g2, g3, g4, rfl⟩
      exact .get g1 (.get g2 (.get g3 (.get g4 (.ret _))))
  · unfold ee
    simp only [e3]
    constructor
    · intro q
      cases q with | get g1 q =>
      cases q
      exact ⟨_, _, g1, rfl⟩
    · rintro ⟨u, v, g, rfl⟩
      exact .get g (.ret _)

/-- C121: if on all faces the given velocity is `(u, v)`, particles advected with `AdvectionRK4` or `AdvectionEE` move exactly with this velocity, along every path (so in every run, by `C121_scipy` and `C121_jit_partial`). -/
theorem C121_uniform (mit per : Bool) (f : Fld) (dV : Nat → Arr) (u v : ℚ) (h : OnFaces mit f dV (· = u) (· = v)) (b : Body (ℚ × ℚ × ℚ)) (hb : b = rk4 ∨ b = ee) (dt t : ℚ) (p : ℚ × ℚ × ℚ) (t' : ℚ) (p' : ℚ × ℚ × ℚ)
    (hw : FlowPath mit per f dV b (fun _ _ _ => none) dt t p t' p') : p' = (p.1 + u * (t' - t), p.2.1 + v * (t' - t), p.2.2) := by
  induction hw with
  | here => simp
  | step _ _ h2 ih =>
    obtain ⟨u', v', rfl, rfl, e⟩ := step_mean (convex_eq u) (convex_eq v) h hb h2
    rw [e, ih]
    refine Prod.ext ?_ (Prod.ext ?_ rfl) <;> dsimp only <;> ring
  | repair _ _ _ h4 => cases h4

/-- C121: if no given velocity is faster than `B` eastward or westward and `C` northward or southward, no particle is: its displacement is at most the elapsed time times `B` and `C`. -/
theorem C121_speed (mit per : Bool) (f : Fld) (dV : Nat → Arr) (B C : ℚ) (h : OnFaces mit f dV (|·| ≤ B) (|·| ≤ C)) (b : Body (ℚ × ℚ × ℚ)) (hb : b = rk4 ∨ b = ee) (dt t : ℚ) (p : ℚ × ℚ × ℚ) (t' : ℚ) (p' : ℚ × ℚ × ℚ)
    (hw : FlowPath mit per f dV b (fun _ _ _ => none) dt t p t' p') : |p'.1 - p.1| ≤ B * |t' - t| ∧ |p'.2.1 - p.2.1| ≤ C * |t' - t| ∧ p'.2.2 = p.2.2 := by
  have key : 0 ≤ (t' - t) * sgn dt ∧ |t' - t| = (t' - t) * sgn dt ∧ |p'.1 - p.1| ≤ B * |t' - t| ∧ |p'.2.1 - p.2.1| ≤ C * |t' - t| ∧ p'.2.2 = p.2.2 := by
    induction hw with
    | here => simp
    | @step t1 v1 d v2 _ h1 h2 ih =>
      obtain ⟨i1, i2, i3, i4, i5⟩ := ih
      obtain ⟨u', v', hu, hv, rfl⟩ := step_mean (convex_abs B) (convex_abs C) h hb h2
      have e := sgn_abs h1.1
      have e1 : 0 < (t1 + d - t) * sgn dt := by
        have := h1.1
        nlinarith
      have e2 : |t1 + d - t| = |t1 - t| + |d| := by
        rw [sgn_abs e1, i2, e]
        ring
      refine ⟨e1.le, sgn_abs e1, ?_, ?_, i5⟩
      · rw [e2]
        calc |v1.1 + u' * d - p.1| = |(v1.1 - p.1) + u' * d| := by ring_nf
          _ ≤ |v1.1 - p.1| + |u' * d| := abs_add_le _ _
          _ ≤ B * |t1 - t| + B * |d| := by
            rw [abs_mul]
            have := mul_le_mul_of_nonneg_right hu (abs_nonneg d)
            linarith
          _ = B * (|t1 - t| + |d|) := by ring
      · rw [e2]
        calc |v1.2.1 + v' * d - p.2.1| = |(v1.2.1 - p.2.1) + v' * d| := by ring_nf
          _ ≤ |v1.2.1 - p.2.1| + |v' * d| := abs_add_le _ _
          _ ≤ C * |t1 - t| + C * |d| := by
            rw [abs_mul]
            have := mul_le_mul_of_nonneg_right hv (abs_nonneg d)
            linarith
          _ = C * (|t1 - t| + |d|) := by ring
    | repair _ _ _ h4 => cases h4
  exact key.2.2

/-! ### Cases -/

/-- The eastward velocity is that of the row, all water flows south. -/
def shear : Fld := { sea with data := fun _ => { nz := 1, ny := 3, nx := 3, v := fun _ j _ => j }, extrap := true }
def south : Nat → Arr := fun _ => { nz := 1, ny := 3, nx := 3, v := fun _ _ _ => -1 }

theorem shear_sound : Sound shear :=
  ⟨rfl, rfl, rfl, sea_sound.lonInc, sea_sound.lonLen, sea_sound.latInc, sea_sound.latLen, sea_sound.depth, sea_sound.timeInc, sea_sound.timeLen, fun _ => ⟨rfl, rfl, rfl⟩⟩

/-- One particle just north of the boundary between the rows, one that leaves the grid in the south. -/
def swimmers : List (TP (ℚ × ℚ × ℚ)) := [(0, ⟨0, 1, .success, (3, 12, 0)⟩), (1, ⟨0, 1, .success, (3, 1, 0)⟩)]
def fresh (q : TP (ℚ × ℚ × ℚ)) : TP ((ℚ × ℚ × ℚ) × Hint) := (q.1, ⟨q.2.time, q.2.dt, q.2.state, (q.2.vars, ⟨0, 0, 0, 0⟩)⟩)

theorem delete_recovers {V : Type} : Recovers (WholeRun.exDelete (V := V)) (fun _ _ _ => none) false := by
  intro e
  exact ⟨_, by cases e <;> rfl, fun w p => rfl⟩

/-- A step of `AdvectionRK4` in this sea. -/
example : ∃ w, Follows false false shear south (rk4 0 1 (3, 12, 0)) w := by
  have h : (match scipy root false false shear south (rk4 0 1 (3, 12, 0)) with | .ok _ => true | .error _ => false) = true := by decide +kernel
  cases e : scipy root false false shear south (rk4 0 1 (3, 12, 0)) with
  | error x => rw [e] at h; cases h
  | ok w => exact ⟨w, (scipy_follows root_sqrt false shear_sound (fun q => by cases q) _).1 _ e⟩

def trip : Opts := WholeRun.exOpts 1 (.runtime 3)

example : Sound shear ∧ NarrowCells shear ∧ (∀ q ∈ swimmers.map fresh, Remembered shear q.2.vars.2) ∧ Starts trip 0 swimmers ∧ Starts trip 0 (swimmers.map fresh) ∧
    Recovers (WholeRun.exDelete (V := (ℚ × ℚ × ℚ) × Hint)) (keeping (H := Hint) (fun _ _ (_ : ℚ × ℚ × ℚ) => none)) false ∧ OnFaces false shear south (|·| ≤ 2) (|·| ≤ 1) := by
  refine ⟨shear_sound, sea_narrow, ?_, ⟨⟨_, List.mem_cons_self, rfl⟩, by decide +kernel, by norm_num [trip, WholeRun.exOpts], by decide +kernel⟩,
    ⟨⟨_, List.mem_cons_self, rfl⟩, by decide +kernel, by norm_num [trip, WholeRun.exOpts], by decide +kernel⟩, delete_recovers, ?_, ?_⟩
  · intro q hq
    obtain ⟨q', -, rfl⟩ := List.mem_map.mp hq
    change Remembered shear ⟨0, 0, 0, 0⟩
    unfold Remembered
    decide +kernel
  · intro i k m n hm hn
    change |((m + 1 : ℕ) : ℚ)| ≤ 2
    have : m + 1 < 3 := hm
    rw [abs_of_nonneg (by positivity)]
    exact_mod_cast (by omega : m + 1 ≤ 2)
  · intro i k m n hm hn
    change |(-1 : ℚ)| ≤ 1
    norm_num

/-- C121 fails: runs differ between the modes. A particle that comes from the north is, after two steps, exactly on the boundary between two rows. In JIT mode it moves on with the velocity of the northern row, in Scipy mode with that of the southern one. The other particle left the grid, in both modes. -/
theorem C121_modes_fails : ∃ s s', execute trip (scipyExec (kernel (scipyScheme root false false shear south ee)) WholeRun.exDelete 10 5) 10 WholeRun.exFile swimmers = some (.done s) ∧
    execute trip (jitExec (kernel (jitScheme root false false shear south ee)) WholeRun.exDelete 10 5) 10 WholeRun.exFile (swimmers.map fresh) = some (.done s') ∧
    s.ps.map (·.2.vars) = [(8, 9, 0)] ∧ s'.ps.map (·.2.vars.1) = [(9, 9, 0)] := by
  have h1 : (match execute trip (scipyExec (kernel (scipyScheme root false false shear south ee)) WholeRun.exDelete 10 5) 10 WholeRun.exFile swimmers with
    | some (.done s) => decide (s.ps.map (·.2.vars) = [(8, 9, 0)]) | _ => false) = true := by decide +kernel
  have h2 : (match execute trip (jitExec (kernel (jitScheme root false false shear south ee)) WholeRun.exDelete 10 5) 10 WholeRun.exFile (swimmers.map fresh) with
    | some (.done s) => decide (s.ps.map (·.2.vars.1) = [(9, 9, 0)]) | _ => false) = true := by decide +kernel
  split at h1
  · rename_i s hs
    split at h2
    · rename_i s' hs'
      exact ⟨s, s', hs, hs', of_decide_eq_true h1, of_decide_eq_true h2⟩
    · cases h2
  · cases h1

example : OffNodes false false sea seaV (ee 0 1 (5, 4, 0)) := .get (by decide +kernel) (by decide +kernel) (Or.inl (by decide)) fun u v _ => .ret _

/-- A step with `AdvectionRK4`, in both modes. -/
example : (match scipyScheme root false false sea seaV rk4 0 1 (5, 4, 0), jitScheme root false false sea seaV rk4 0 1 ((5, 4, 0), ⟨1, 1, 0, 0⟩) with
    | .ok a, .ok b => decide (a = b.1) && decide (a ≠ (5, 4, 0))
    | _, _ => false) = true := by decide +kernel

end Parcels.CGridRun
