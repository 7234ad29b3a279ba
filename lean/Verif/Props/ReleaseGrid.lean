import Verif.Proofs.ReleaseGrid
import Verif.Props.PeriodRun
import Verif.Props.SumRun
import Verif.Props.SphereRun

/-!
C118: runs with repeated release on gridded data follow the fields, and the two modes agree. The theorems are stated for each kind of field that the earlier
properties treat: plain (C99), periodic in time (C113), nested (C112), summed (C115) and on a spherical mesh (C101).
-/

namespace Parcels.ReleaseGrid

open Recovery (TP RMap)
open GridRun (Hint bare strip)
open WholeRun (Opts Run St Scheme trajectory record records outputTimes core Regular Deletes Raises kernel scipyExec jitExec)
open ReleaseRun (Repeat Repeats everyone execute scipyPass jitPass)

variable {V : Type}

/-! ### rectilinear flat grids -/

theorem link_plain {fs : Nat → GridRun.Fld} (hf : ∀ i, GridRun.Sound (fs i)) (hg : GridRun.Grids fs)
    {val : Nat → (t z y x : ℚ) → Option ℚ} (hv : GridRun.Interpolates fs val) (b : GridRun.Body V) : Link (GridRun.refScheme val b) (GridRun.scipyScheme fs b) (GridRun.jitScheme fs b) (GridRun.Hints fs) :=
  ⟨GridRun.trajectory_scipy hf hv b, fun dt t q hq => GridRun.trajectory_jit hf hg hv b dt t q hq, fun dt t q hq => GridRun.record_jit hf hg hv b dt t q hq⟩

/-- C118, for rectilinear flat grids. A run with repeated release of the values `vs`, in which everything happens after a whole number of steps: if the recovery functions delete, or
if no trajectory ends, it returns in both modes; and in both modes the particles at the end, and in the output file, are those whose trajectory in the fields has not
ended, each where its trajectory is. -/
theorem C118_plain {fs : Nat → GridRun.Fld} (hf : ∀ i, GridRun.Sound (fs i)) (hg : GridRun.Grids fs)
    {val : Nat → (t z y x : ℚ) → Option ℚ} (hv : GridRun.Interpolates fs val) (b : GridRun.Body V)
    {user : RMap Unit V} {user' : RMap Unit (V × (Nat → Hint))} {o : Opts} {S : ℚ} {N : ℕ} {ps : List (TP (V × (Nat → Hint)))} (h : Regular o S N ps)
    (hh : ∀ q ∈ ps, GridRun.Hints fs q.2.vars.2) {rep : Repeat (V × (Nat → Hint))} (hrep : Repeats o S rep) {vs : List (V × (Nat → Hint))} (hheld : rep.held = some vs)
    (hvs : ∀ v ∈ vs, GridRun.Hints fs v.2)
    (hok : (Deletes user ∧ Deletes user') ∨
      ∀ q ∈ everyone o S (bareRep rep) (vs.map Prod.fst) N (ps.map strip), (trajectory (GridRun.refScheme val b) o.dt (S + N * o.dt) q).isSome)
    (fresh : V → V) (fresh' : V × (Nat → Hint) → V × (Nat → Hint)) (k n fuel k' n' fuel' : ℕ) (file : Output.PFile) (r : Run V × Repeat V)
    (r' : Run (V × (Nat → Hint)) × Repeat (V × (Nat → Hint)))
    (hr : execute o (scipyExec (kernel (GridRun.scipyScheme fs b)) user k n) (scipyPass (kernel (GridRun.scipyScheme fs b)) k) fresh fuel file (bareRep rep) (ps.map strip) = some r)
    (hr' : execute o (jitExec (kernel (GridRun.jitScheme fs b)) user' k' n') (jitPass (kernel (GridRun.jitScheme fs b)) k') fresh' fuel' file rep ps = some r') :
    ∃ s s', r.1 = .done s ∧ r'.1 = .done s' ∧ Follow (GridRun.refScheme val b) o S N (everyone o S (bareRep rep) (vs.map Prod.fst) N (ps.map strip)) file s s' :=
  pair_good (link_plain hf hg hv b) h hh hrep hheld hvs hok ⟨k, n, Or.inl ⟨rfl, rfl⟩⟩ ⟨k', n', Or.inr ⟨rfl, rfl⟩⟩ fresh fresh' fuel fuel' file r r' hr hr'

/-- C118, for rectilinear flat grids. With recovery functions that raise (the default), both modes raise if the trajectory of one of the particles, or of those that are to be
released, ends. -/
theorem C118_plain_raise {fs : Nat → GridRun.Fld} (hf : ∀ i, GridRun.Sound (fs i)) (hg : GridRun.Grids fs)
    {val : Nat → (t z y x : ℚ) → Option ℚ} (hv : GridRun.Interpolates fs val) (b : GridRun.Body V)
    {user : RMap Unit V} {user' : RMap Unit (V × (Nat → Hint))} {o : Opts} {S : ℚ} {N : ℕ} {ps : List (TP (V × (Nat → Hint)))} (h : Regular o S N ps)
    (hh : ∀ q ∈ ps, GridRun.Hints fs q.2.vars.2) {rep : Repeat (V × (Nat → Hint))} (hrep : Repeats o S rep) {vs : List (V × (Nat → Hint))} (hheld : rep.held = some vs)
    (hvs : ∀ v ∈ vs, GridRun.Hints fs v.2) (hu : Raises user) (hu' : Raises user')
    (hbad : ∃ q ∈ everyone o S (bareRep rep) (vs.map Prod.fst) N (ps.map strip), trajectory (GridRun.refScheme val b) o.dt (S + N * o.dt) q = none)
    (fresh : V → V) (fresh' : V × (Nat → Hint) → V × (Nat → Hint)) (k n fuel k' n' fuel' : ℕ) (file : Output.PFile) (r : Run V × Repeat V)
    (r' : Run (V × (Nat → Hint)) × Repeat (V × (Nat → Hint)))
    (hr : execute o (scipyExec (kernel (GridRun.scipyScheme fs b)) user k n) (scipyPass (kernel (GridRun.scipyScheme fs b)) k) fresh fuel file (bareRep rep) (ps.map strip) = some r)
    (hr' : execute o (jitExec (kernel (GridRun.jitScheme fs b)) user' k' n') (jitPass (kernel (GridRun.jitScheme fs b)) k') fresh' fuel' file rep ps = some r') :
    (∃ s, r.1 = .raised s) ∧ ∃ s', r'.1 = .raised s' :=
  pair_bad (link_plain hf hg hv b) h hh hrep hheld hvs hu hu' hbad ⟨k, n, Or.inl ⟨rfl, rfl⟩⟩ ⟨k', n', Or.inr ⟨rfl, rfl⟩⟩ fresh fresh' fuel fuel' file r r' hr hr'

/-- C118, for rectilinear flat grids. In the first run of a set, the values that are released are those of the particles after a number `n` of steps (a finding of C102); this number is
the same in both modes, and so are the particles and the output files, if the trajectories of the particles do not end and the recovery functions delete (some of those
that are released may go further and leave). -/
theorem C118_plain_first {fs : Nat → GridRun.Fld} (hf : ∀ i, GridRun.Sound (fs i)) (hg : GridRun.Grids fs)
    {val : Nat → (t z y x : ℚ) → Option ℚ} (hv : GridRun.Interpolates fs val) (b : GridRun.Body V)
    {user : RMap Unit V} {user' : RMap Unit (V × (Nat → Hint))} (hu : Deletes user) (hu' : Deletes user') {o : Opts} {S : ℚ} {N : ℕ} {ps : List (TP (V × (Nat → Hint)))}
    (h : Regular o S N ps) (hh : ∀ q ∈ ps, GridRun.Hints fs q.2.vars.2) {rep : Repeat (V × (Nat → Hint))} (hrep : Repeats o S rep) (hheld : rep.held = none)
    (hall : ∀ q ∈ ps.map strip, (trajectory (GridRun.refScheme val b) o.dt (S + N * o.dt) q).isSome)
    {fresh : V → V} {fresh' : V × (Nat → Hint) → V × (Nat → Hint)} (hfresh : ∀ x, (fresh' x).1 = fresh x.1 ∧ GridRun.Hints fs (fresh' x).2)
    (k n fuel k' n' fuel' : ℕ) (file : Output.PFile) (r : Run V × Repeat V)
    (r' : Run (V × (Nat → Hint)) × Repeat (V × (Nat → Hint)))
    (hr : execute o (scipyExec (kernel (GridRun.scipyScheme fs b)) user k n) (scipyPass (kernel (GridRun.scipyScheme fs b)) k) fresh fuel file (bareRep rep) (ps.map strip) = some r)
    (hr' : execute o (jitExec (kernel (GridRun.jitScheme fs b)) user' k' n') (jitPass (kernel (GridRun.jitScheme fs b)) k') fresh' fuel' file rep ps = some r') :
    ∃ m : ℕ, 0 < m ∧ m ≤ N ∧ ∃ s s', r.1 = .done s ∧ r'.1 = .done s' ∧ Follow (GridRun.refScheme val b) o S N
      (everyone o S (bareRep rep) (((ps.map strip).filterMap (trajectory (GridRun.refScheme val b) o.dt (S + m * o.dt))).map fun c => fresh c.2.2) N (ps.map strip)) file s s' :=
  pair_first (link_plain hf hg hv b) h hh hrep hheld hall ⟨k, n, Or.inl ⟨rfl, rfl⟩⟩ ⟨k', n', Or.inr ⟨rfl, rfl⟩⟩ hfresh ⟨hu, hu'⟩ fuel fuel' file r r' hr hr'
/-! ### fields of which any may be periodic in time -/

theorem link_periodic {per : Nat → Bool} {fs : Nat → GridRun.Fld} (hf : ∀ i, GridRun.Sound (fs i)) (hp : ∀ i, per i = true → PeriodRun.Closed (fs i)) (hg : GridRun.Grids fs)
    {val : Nat → (t z y x : ℚ) → Option ℚ} (hv : PeriodRun.Gives per fs val) (b : GridRun.Body V) : Link (GridRun.refScheme val b) (PeriodRun.scipyScheme per fs b) (PeriodRun.jitScheme per fs b) (GridRun.Hints fs) :=
  ⟨PeriodRun.traj_scipy hf hp hv b, fun dt t q hq => PeriodRun.traj_jit hf hp hg hv b dt t q hq, fun dt t q hq => PeriodRun.rec_jit hf hp hg hv b dt t q hq⟩

/-- C118, for fields of which any may be periodic in time. A run with repeated release of the values `vs`, in which everything happens after a whole number of steps: if the recovery functions delete, or
if no trajectory ends, it returns in both modes; and in both modes the particles at the end, and in the output file, are those whose trajectory in the fields has not
ended, each where its trajectory is. -/
theorem C118_periodic {per : Nat → Bool} {fs : Nat → GridRun.Fld} (hf : ∀ i, GridRun.Sound (fs i)) (hp : ∀ i, per i = true → PeriodRun.Closed (fs i)) (hg : GridRun.Grids fs)
    {val : Nat → (t z y x : ℚ) → Option ℚ} (hv : PeriodRun.Gives per fs val) (b : GridRun.Body V)
    {user : RMap Unit V} {user' : RMap Unit (V × (Nat → Hint))} {o : Opts} {S : ℚ} {N : ℕ} {ps : List (TP (V × (Nat → Hint)))} (h : Regular o S N ps)
    (hh : ∀ q ∈ ps, GridRun.Hints fs q.2.vars.2) {rep : Repeat (V × (Nat → Hint))} (hrep : Repeats o S rep) {vs : List (V × (Nat → Hint))} (hheld : rep.held = some vs)
    (hvs : ∀ v ∈ vs, GridRun.Hints fs v.2)
    (hok : (Deletes user ∧ Deletes user') ∨
      ∀ q ∈ everyone o S (bareRep rep) (vs.map Prod.fst) N (ps.map strip), (trajectory (GridRun.refScheme val b) o.dt (S + N * o.dt) q).isSome)
    (fresh : V → V) (fresh' : V × (Nat → Hint) → V × (Nat → Hint)) (k n fuel k' n' fuel' : ℕ) (file : Output.PFile) (r : Run V × Repeat V)
    (r' : Run (V × (Nat → Hint)) × Repeat (V × (Nat → Hint)))
    (hr : execute o (scipyExec (kernel (PeriodRun.scipyScheme per fs b)) user k n) (scipyPass (kernel (PeriodRun.scipyScheme per fs b)) k) fresh fuel file (bareRep rep) (ps.map strip) = some r)
    (hr' : execute o (jitExec (kernel (PeriodRun.jitScheme per fs b)) user' k' n') (jitPass (kernel (PeriodRun.jitScheme per fs b)) k') fresh' fuel' file rep ps = some r') :
    ∃ s s', r.1 = .done s ∧ r'.1 = .done s' ∧ Follow (GridRun.refScheme val b) o S N (everyone o S (bareRep rep) (vs.map Prod.fst) N (ps.map strip)) file s s' :=
  pair_good (link_periodic hf hp hg hv b) h hh hrep hheld hvs hok ⟨k, n, Or.inl ⟨rfl, rfl⟩⟩ ⟨k', n', Or.inr ⟨rfl, rfl⟩⟩ fresh fresh' fuel fuel' file r r' hr hr'

/-- C118, for fields of which any may be periodic in time. With recovery functions that raise (the default), both modes raise if the trajectory of one of the particles, or of those that are to be
released, ends. -/
theorem C118_periodic_raise {per : Nat → Bool} {fs : Nat → GridRun.Fld} (hf : ∀ i, GridRun.Sound (fs i)) (hp : ∀ i, per i = true → PeriodRun.Closed (fs i)) (hg : GridRun.Grids fs)
    {val : Nat → (t z y x : ℚ) → Option ℚ} (hv : PeriodRun.Gives per fs val) (b : GridRun.Body V)
    {user : RMap Unit V} {user' : RMap Unit (V × (Nat → Hint))} {o : Opts} {S : ℚ} {N : ℕ} {ps : List (TP (V × (Nat → Hint)))} (h : Regular o S N ps)
    (hh : ∀ q ∈ ps, GridRun.Hints fs q.2.vars.2) {rep : Repeat (V × (Nat → Hint))} (hrep : Repeats o S rep) {vs : List (V × (Nat → Hint))} (hheld : rep.held = some vs)
    (hvs : ∀ v ∈ vs, GridRun.Hints fs v.2) (hu : Raises user) (hu' : Raises user')
    (hbad : ∃ q ∈ everyone o S (bareRep rep) (vs.map Prod.fst) N (ps.map strip), trajectory (GridRun.refScheme val b) o.dt (S + N * o.dt) q = none)
    (fresh : V → V) (fresh' : V × (Nat → Hint) → V × (Nat → Hint)) (k n fuel k' n' fuel' : ℕ) (file : Output.PFile) (r : Run V × Repeat V)
    (r' : Run (V × (Nat → Hint)) × Repeat (V × (Nat → Hint)))
    (hr : execute o (scipyExec (kernel (PeriodRun.scipyScheme per fs b)) user k n) (scipyPass (kernel (PeriodRun.scipyScheme per fs b)) k) fresh fuel file (bareRep rep) (ps.map strip) = some r)
    (hr' : execute o (jitExec (kernel (PeriodRun.jitScheme per fs b)) user' k' n') (jitPass (kernel (PeriodRun.jitScheme per fs b)) k') fresh' fuel' file rep ps = some r') :
    (∃ s, r.1 = .raised s) ∧ ∃ s', r'.1 = .raised s' :=
  pair_bad (link_periodic hf hp hg hv b) h hh hrep hheld hvs hu hu' hbad ⟨k, n, Or.inl ⟨rfl, rfl⟩⟩ ⟨k', n', Or.inr ⟨rfl, rfl⟩⟩ fresh fresh' fuel fuel' file r r' hr hr'

/-- C118, for fields of which any may be periodic in time. In the first run of a set, the values that are released are those of the particles after a number `n` of steps (a finding of C102); this number is
the same in both modes, and so are the particles and the output files, if the trajectories of the particles do not end and the recovery functions delete (some of those
that are released may go further and leave). -/
theorem C118_periodic_first {per : Nat → Bool} {fs : Nat → GridRun.Fld} (hf : ∀ i, GridRun.Sound (fs i)) (hp : ∀ i, per i = true → PeriodRun.Closed (fs i)) (hg : GridRun.Grids fs)
    {val : Nat → (t z y x : ℚ) → Option ℚ} (hv : PeriodRun.Gives per fs val) (b : GridRun.Body V)
    {user : RMap Unit V} {user' : RMap Unit (V × (Nat → Hint))} (hu : Deletes user) (hu' : Deletes user') {o : Opts} {S : ℚ} {N : ℕ} {ps : List (TP (V × (Nat → Hint)))}
    (h : Regular o S N ps) (hh : ∀ q ∈ ps, GridRun.Hints fs q.2.vars.2) {rep : Repeat (V × (Nat → Hint))} (hrep : Repeats o S rep) (hheld : rep.held = none)
    (hall : ∀ q ∈ ps.map strip, (trajectory (GridRun.refScheme val b) o.dt (S + N * o.dt) q).isSome)
    {fresh : V → V} {fresh' : V × (Nat → Hint) → V × (Nat → Hint)} (hfresh : ∀ x, (fresh' x).1 = fresh x.1 ∧ GridRun.Hints fs (fresh' x).2)
    (k n fuel k' n' fuel' : ℕ) (file : Output.PFile) (r : Run V × Repeat V)
    (r' : Run (V × (Nat → Hint)) × Repeat (V × (Nat → Hint)))
    (hr : execute o (scipyExec (kernel (PeriodRun.scipyScheme per fs b)) user k n) (scipyPass (kernel (PeriodRun.scipyScheme per fs b)) k) fresh fuel file (bareRep rep) (ps.map strip) = some r)
    (hr' : execute o (jitExec (kernel (PeriodRun.jitScheme per fs b)) user' k' n') (jitPass (kernel (PeriodRun.jitScheme per fs b)) k') fresh' fuel' file rep ps = some r') :
    ∃ m : ℕ, 0 < m ∧ m ≤ N ∧ ∃ s s', r.1 = .done s ∧ r'.1 = .done s' ∧ Follow (GridRun.refScheme val b) o S N
      (everyone o S (bareRep rep) (((ps.map strip).filterMap (trajectory (GridRun.refScheme val b) o.dt (S + m * o.dt))).map fun c => fresh c.2.2) N (ps.map strip)) file s s' :=
  pair_first (link_periodic hf hp hg hv b) h hh hrep hheld hall ⟨k, n, Or.inl ⟨rfl, rfl⟩⟩ ⟨k', n', Or.inr ⟨rfl, rfl⟩⟩ hfresh ⟨hu, hu'⟩ fuel fuel' file r r' hr hr'
/-! ### nested fields -/

theorem link_nested {fs : Nat → GridRun.Fld} {ns : Nat → List (List Nat)} (hf : ∀ i, GridRun.Sound (fs i)) (hg : GridRun.Grids fs)
    {val : Nat → (t z y x : ℚ) → Option (List ℚ)} (hv : NestRun.Nests fs ns val) (b : NestRun.Body V) : Link (NestRun.refScheme val b) (NestRun.scipyScheme fs ns b) (NestRun.jitScheme fs ns b) (GridRun.Hints fs) :=
  ⟨NestRun.trajectory_scipy hf hv b, fun dt t q hq => NestRun.trajectory_jit hf hg hv b dt t q hq, fun dt t q hq => NestRun.record_jit hf hg hv b dt t q hq⟩

/-- C118, for nested fields. A run with repeated release of the values `vs`, in which everything happens after a whole number of steps: if the recovery functions delete, or
if no trajectory ends, it returns in both modes; and in both modes the particles at the end, and in the output file, are those whose trajectory in the fields has not
ended, each where its trajectory is. -/
theorem C118_nested {fs : Nat → GridRun.Fld} {ns : Nat → List (List Nat)} (hf : ∀ i, GridRun.Sound (fs i)) (hg : GridRun.Grids fs)
    {val : Nat → (t z y x : ℚ) → Option (List ℚ)} (hv : NestRun.Nests fs ns val) (b : NestRun.Body V)
    {user : RMap Unit V} {user' : RMap Unit (V × (Nat → Hint))} {o : Opts} {S : ℚ} {N : ℕ} {ps : List (TP (V × (Nat → Hint)))} (h : Regular o S N ps)
    (hh : ∀ q ∈ ps, GridRun.Hints fs q.2.vars.2) {rep : Repeat (V × (Nat → Hint))} (hrep : Repeats o S rep) {vs : List (V × (Nat → Hint))} (hheld : rep.held = some vs)
    (hvs : ∀ v ∈ vs, GridRun.Hints fs v.2)
    (hok : (Deletes user ∧ Deletes user') ∨
      ∀ q ∈ everyone o S (bareRep rep) (vs.map Prod.fst) N (ps.map strip), (trajectory (NestRun.refScheme val b) o.dt (S + N * o.dt) q).isSome)
    (fresh : V → V) (fresh' : V × (Nat → Hint) → V × (Nat → Hint)) (k n fuel k' n' fuel' : ℕ) (file : Output.PFile) (r : Run V × Repeat V)
    (r' : Run (V × (Nat → Hint)) × Repeat (V × (Nat → Hint)))
    (hr : execute o (scipyExec (kernel (NestRun.scipyScheme fs ns b)) user k n) (scipyPass (kernel (NestRun.scipyScheme fs ns b)) k) fresh fuel file (bareRep rep) (ps.map strip) = some r)
    (hr' : execute o (jitExec (kernel (NestRun.jitScheme fs ns b)) user' k' n') (jitPass (kernel (NestRun.jitScheme fs ns b)) k') fresh' fuel' file rep ps = some r') :
    ∃ s s', r.1 = .done s ∧ r'.1 = .done s' ∧ Follow (NestRun.refScheme val b) o S N (everyone o S (bareRep rep) (vs.map Prod.fst) N (ps.map strip)) file s s' :=
  pair_good (link_nested hf hg hv b) h hh hrep hheld hvs hok ⟨k, n, Or.inl ⟨rfl, rfl⟩⟩ ⟨k', n', Or.inr ⟨rfl, rfl⟩⟩ fresh fresh' fuel fuel' file r r' hr hr'

/-- C118, for nested fields. With recovery functions that raise (the default), both modes raise if the trajectory of one of the particles, or of those that are to be
released, ends. -/
theorem C118_nested_raise {fs : Nat → GridRun.Fld} {ns : Nat → List (List Nat)} (hf : ∀ i, GridRun.Sound (fs i)) (hg : GridRun.Grids fs)
    {val : Nat → (t z y x : ℚ) → Option (List ℚ)} (hv : NestRun.Nests fs ns val) (b : NestRun.Body V)
    {user : RMap Unit V} {user' : RMap Unit (V × (Nat → Hint))} {o : Opts} {S : ℚ} {N : ℕ} {ps : List (TP (V × (Nat → Hint)))} (h : Regular o S N ps)
    (hh : ∀ q ∈ ps, GridRun.Hints fs q.2.vars.2) {rep : Repeat (V × (Nat → Hint))} (hrep : Repeats o S rep) {vs : List (V × (Nat → Hint))} (hheld : rep.held = some vs)
    (hvs : ∀ v ∈ vs, GridRun.Hints fs v.2) (hu : Raises user) (hu' : Raises user')
    (hbad : ∃ q ∈ everyone o S (bareRep rep) (vs.map Prod.fst) N (ps.map strip), trajectory (NestRun.refScheme val b) o.dt (S + N * o.dt) q = none)
    (fresh : V → V) (fresh' : V × (Nat → Hint) → V × (Nat → Hint)) (k n fuel k' n' fuel' : ℕ) (file : Output.PFile) (r : Run V × Repeat V)
    (r' : Run (V × (Nat → Hint)) × Repeat (V × (Nat → Hint)))
    (hr : execute o (scipyExec (kernel (NestRun.scipyScheme fs ns b)) user k n) (scipyPass (kernel (NestRun.scipyScheme fs ns b)) k) fresh fuel file (bareRep rep) (ps.map strip) = some r)
    (hr' : execute o (jitExec (kernel (NestRun.jitScheme fs ns b)) user' k' n') (jitPass (kernel (NestRun.jitScheme fs ns b)) k') fresh' fuel' file rep ps = some r') :
    (∃ s, r.1 = .raised s) ∧ ∃ s', r'.1 = .raised s' :=
  pair_bad (link_nested hf hg hv b) h hh hrep hheld hvs hu hu' hbad ⟨k, n, Or.inl ⟨rfl, rfl⟩⟩ ⟨k', n', Or.inr ⟨rfl, rfl⟩⟩ fresh fresh' fuel fuel' file r r' hr hr'

/-- C118, for nested fields. In the first run of a set, the values that are released are those of the particles after a number `n` of steps (a finding of C102); this number is
the same in both modes, and so are the particles and the output files, if the trajectories of the particles do not end and the recovery functions delete (some of those
that are released may go further and leave). -/
theorem C118_nested_first {fs : Nat → GridRun.Fld} {ns : Nat → List (List Nat)} (hf : ∀ i, GridRun.Sound (fs i)) (hg : GridRun.Grids fs)
    {val : Nat → (t z y x : ℚ) → Option (List ℚ)} (hv : NestRun.Nests fs ns val) (b : NestRun.Body V)
    {user : RMap Unit V} {user' : RMap Unit (V × (Nat → Hint))} (hu : Deletes user) (hu' : Deletes user') {o : Opts} {S : ℚ} {N : ℕ} {ps : List (TP (V × (Nat → Hint)))}
    (h : Regular o S N ps) (hh : ∀ q ∈ ps, GridRun.Hints fs q.2.vars.2) {rep : Repeat (V × (Nat → Hint))} (hrep : Repeats o S rep) (hheld : rep.held = none)
    (hall : ∀ q ∈ ps.map strip, (trajectory (NestRun.refScheme val b) o.dt (S + N * o.dt) q).isSome)
    {fresh : V → V} {fresh' : V × (Nat → Hint) → V × (Nat → Hint)} (hfresh : ∀ x, (fresh' x).1 = fresh x.1 ∧ GridRun.Hints fs (fresh' x).2)
    (k n fuel k' n' fuel' : ℕ) (file : Output.PFile) (r : Run V × Repeat V)
    (r' : Run (V × (Nat → Hint)) × Repeat (V × (Nat → Hint)))
    (hr : execute o (scipyExec (kernel (NestRun.scipyScheme fs ns b)) user k n) (scipyPass (kernel (NestRun.scipyScheme fs ns b)) k) fresh fuel file (bareRep rep) (ps.map strip) = some r)
    (hr' : execute o (jitExec (kernel (NestRun.jitScheme fs ns b)) user' k' n') (jitPass (kernel (NestRun.jitScheme fs ns b)) k') fresh' fuel' file rep ps = some r') :
    ∃ m : ℕ, 0 < m ∧ m ≤ N ∧ ∃ s s', r.1 = .done s ∧ r'.1 = .done s' ∧ Follow (NestRun.refScheme val b) o S N
      (everyone o S (bareRep rep) (((ps.map strip).filterMap (trajectory (NestRun.refScheme val b) o.dt (S + m * o.dt))).map fun c => fresh c.2.2) N (ps.map strip)) file s s' :=
  pair_first (link_nested hf hg hv b) h hh hrep hheld hall ⟨k, n, Or.inl ⟨rfl, rfl⟩⟩ ⟨k', n', Or.inr ⟨rfl, rfl⟩⟩ hfresh ⟨hu, hu'⟩ fuel fuel' file r r' hr hr'
/-! ### summed fields (in sums of vector fields all members cover wherever the last does: see C115) -/

theorem link_summed {fs : Nat → GridRun.Fld} {comps : Nat → Nat} {ns : Nat → List (List Nat)} {vec : Nat → Bool} (junk : Nat → ℚ) (hf : ∀ i, GridRun.Sound (fs i)) (hg : GridRun.Grids fs)
    (hn : ∀ n, SumRun.Shape (comps n) (ns n) ∧ 0 < comps n) (ht : ∀ n, vec n = true → SumRun.Together fs (ns n))
    {val : Nat → (t z y x : ℚ) → Option (List ℚ)} (hv : SumRun.Sums fs comps ns val) (b : NestRun.Body V) : Link (NestRun.refScheme val b) (SumRun.scipyScheme fs ns b) (SumRun.jitScheme junk fs vec ns b) (GridRun.Hints fs) :=
  ⟨SumRun.traj_scipy hf hn hv b, fun dt t q hq => SumRun.traj_jit junk hf hg hn ht hv b dt t q hq, fun dt t q hq => SumRun.rec_jit junk hf hg hn ht hv b dt t q hq⟩

/-- C118, for summed fields (in sums of vector fields all members cover wherever the last does: see C115). A run with repeated release of the values `vs`, in which everything happens after a whole number of steps: if the recovery functions delete, or
if no trajectory ends, it returns in both modes; and in both modes the particles at the end, and in the output file, are those whose trajectory in the fields has not
ended, each where its trajectory is. -/
theorem C118_summed_partial {fs : Nat → GridRun.Fld} {comps : Nat → Nat} {ns : Nat → List (List Nat)} {vec : Nat → Bool} (junk : Nat → ℚ) (hf : ∀ i, GridRun.Sound (fs i)) (hg : GridRun.Grids fs)
    (hn : ∀ n, SumRun.Shape (comps n) (ns n) ∧ 0 < comps n) (ht : ∀ n, vec n = true → SumRun.Together fs (ns n))
    {val : Nat → (t z y x : ℚ) → Option (List ℚ)} (hv : SumRun.Sums fs comps ns val) (b : NestRun.Body V)
    {user : RMap Unit V} {user' : RMap Unit (V × (Nat → Hint))} {o : Opts} {S : ℚ} {N : ℕ} {ps : List (TP (V × (Nat → Hint)))} (h : Regular o S N ps)
    (hh : ∀ q ∈ ps, GridRun.Hints fs q.2.vars.2) {rep : Repeat (V × (Nat → Hint))} (hrep : Repeats o S rep) {vs : List (V × (Nat → Hint))} (hheld : rep.held = some vs)
    (hvs : ∀ v ∈ vs, GridRun.Hints fs v.2)
    (hok : (Deletes user ∧ Deletes user') ∨
      ∀ q ∈ everyone o S (bareRep rep) (vs.map Prod.fst) N (ps.map strip), (trajectory (NestRun.refScheme val b) o.dt (S + N * o.dt) q).isSome)
    (fresh : V → V) (fresh' : V × (Nat → Hint) → V × (Nat → Hint)) (k n fuel k' n' fuel' : ℕ) (file : Output.PFile) (r : Run V × Repeat V)
    (r' : Run (V × (Nat → Hint)) × Repeat (V × (Nat → Hint)))
    (hr : execute o (scipyExec (kernel (SumRun.scipyScheme fs ns b)) user k n) (scipyPass (kernel (SumRun.scipyScheme fs ns b)) k) fresh fuel file (bareRep rep) (ps.map strip) = some r)
    (hr' : execute o (jitExec (kernel (SumRun.jitScheme junk fs vec ns b)) user' k' n') (jitPass (kernel (SumRun.jitScheme junk fs vec ns b)) k') fresh' fuel' file rep ps = some r') :
    ∃ s s', r.1 = .done s ∧ r'.1 = .done s' ∧ Follow (NestRun.refScheme val b) o S N (everyone o S (bareRep rep) (vs.map Prod.fst) N (ps.map strip)) file s s' :=
  pair_good (link_summed junk hf hg hn ht hv b) h hh hrep hheld hvs hok ⟨k, n, Or.inl ⟨rfl, rfl⟩⟩ ⟨k', n', Or.inr ⟨rfl, rfl⟩⟩ fresh fresh' fuel fuel' file r r' hr hr'

/-- C118, for summed fields (in sums of vector fields all members cover wherever the last does: see C115). With recovery functions that raise (the default), both modes raise if the trajectory of one of the particles, or of those that are to be
released, ends. -/
theorem C118_summed_raise_partial {fs : Nat → GridRun.Fld} {comps : Nat → Nat} {ns : Nat → List (List Nat)} {vec : Nat → Bool} (junk : Nat → ℚ) (hf : ∀ i, GridRun.Sound (fs i)) (hg : GridRun.Grids fs)
    (hn : ∀ n, SumRun.Shape (comps n) (ns n) ∧ 0 < comps n) (ht : ∀ n, vec n = true → SumRun.Together fs (ns n))
    {val : Nat → (t z y x : ℚ) → Option (List ℚ)} (hv : SumRun.Sums fs comps ns val) (b : NestRun.Body V)
    {user : RMap Unit V} {user' : RMap Unit (V × (Nat → Hint))} {o : Opts} {S : ℚ} {N : ℕ} {ps : List (TP (V × (Nat → Hint)))} (h : Regular o S N ps)
    (hh : ∀ q ∈ ps, GridRun.Hints fs q.2.vars.2) {rep : Repeat (V × (Nat → Hint))} (hrep : Repeats o S rep) {vs : List (V × (Nat → Hint))} (hheld : rep.held = some vs)
    (hvs : ∀ v ∈ vs, GridRun.Hints fs v.2) (hu : Raises user) (hu' : Raises user')
    (hbad : ∃ q ∈ everyone o S (bareRep rep) (vs.map Prod.fst) N (ps.map strip), trajectory (NestRun.refScheme val b) o.dt (S + N * o.dt) q = none)
    (fresh : V → V) (fresh' : V × (Nat → Hint) → V × (Nat → Hint)) (k n fuel k' n' fuel' : ℕ) (file : Output.PFile) (r : Run V × Repeat V)
    (r' : Run (V × (Nat → Hint)) × Repeat (V × (Nat → Hint)))
    (hr : execute o (scipyExec (kernel (SumRun.scipyScheme fs ns b)) user k n) (scipyPass (kernel (SumRun.scipyScheme fs ns b)) k) fresh fuel file (bareRep rep) (ps.map strip) = some r)
    (hr' : execute o (jitExec (kernel (SumRun.jitScheme junk fs vec ns b)) user' k' n') (jitPass (kernel (SumRun.jitScheme junk fs vec ns b)) k') fresh' fuel' file rep ps = some r') :
    (∃ s, r.1 = .raised s) ∧ ∃ s', r'.1 = .raised s' :=
  pair_bad (link_summed junk hf hg hn ht hv b) h hh hrep hheld hvs hu hu' hbad ⟨k, n, Or.inl ⟨rfl, rfl⟩⟩ ⟨k', n', Or.inr ⟨rfl, rfl⟩⟩ fresh fresh' fuel fuel' file r r' hr hr'

/-- C118, for summed fields (in sums of vector fields all members cover wherever the last does: see C115). In the first run of a set, the values that are released are those of the particles after a number `n` of steps (a finding of C102); this number is
the same in both modes, and so are the particles and the output files, if the trajectories of the particles do not end and the recovery functions delete (some of those
that are released may go further and leave). -/
theorem C118_summed_first_partial {fs : Nat → GridRun.Fld} {comps : Nat → Nat} {ns : Nat → List (List Nat)} {vec : Nat → Bool} (junk : Nat → ℚ) (hf : ∀ i, GridRun.Sound (fs i)) (hg : GridRun.Grids fs)
    (hn : ∀ n, SumRun.Shape (comps n) (ns n) ∧ 0 < comps n) (ht : ∀ n, vec n = true → SumRun.Together fs (ns n))
    {val : Nat → (t z y x : ℚ) → Option (List ℚ)} (hv : SumRun.Sums fs comps ns val) (b : NestRun.Body V)
    {user : RMap Unit V} {user' : RMap Unit (V × (Nat → Hint))} (hu : Deletes user) (hu' : Deletes user') {o : Opts} {S : ℚ} {N : ℕ} {ps : List (TP (V × (Nat → Hint)))}
    (h : Regular o S N ps) (hh : ∀ q ∈ ps, GridRun.Hints fs q.2.vars.2) {rep : Repeat (V × (Nat → Hint))} (hrep : Repeats o S rep) (hheld : rep.held = none)
    (hall : ∀ q ∈ ps.map strip, (trajectory (NestRun.refScheme val b) o.dt (S + N * o.dt) q).isSome)
    {fresh : V → V} {fresh' : V × (Nat → Hint) → V × (Nat → Hint)} (hfresh : ∀ x, (fresh' x).1 = fresh x.1 ∧ GridRun.Hints fs (fresh' x).2)
    (k n fuel k' n' fuel' : ℕ) (file : Output.PFile) (r : Run V × Repeat V)
    (r' : Run (V × (Nat → Hint)) × Repeat (V × (Nat → Hint)))
    (hr : execute o (scipyExec (kernel (SumRun.scipyScheme fs ns b)) user k n) (scipyPass (kernel (SumRun.scipyScheme fs ns b)) k) fresh fuel file (bareRep rep) (ps.map strip) = some r)
    (hr' : execute o (jitExec (kernel (SumRun.jitScheme junk fs vec ns b)) user' k' n') (jitPass (kernel (SumRun.jitScheme junk fs vec ns b)) k') fresh' fuel' file rep ps = some r') :
    ∃ m : ℕ, 0 < m ∧ m ≤ N ∧ ∃ s s', r.1 = .done s ∧ r'.1 = .done s' ∧ Follow (NestRun.refScheme val b) o S N
      (everyone o S (bareRep rep) (((ps.map strip).filterMap (trajectory (NestRun.refScheme val b) o.dt (S + m * o.dt))).map fun c => fresh c.2.2) N (ps.map strip)) file s s' :=
  pair_first (link_summed junk hf hg hn ht hv b) h hh hrep hheld hall ⟨k, n, Or.inl ⟨rfl, rfl⟩⟩ ⟨k', n', Or.inr ⟨rfl, rfl⟩⟩ hfresh ⟨hu, hu'⟩ fuel fuel' file r r' hr hr'
/-! ### spherical meshes (of which none goes around the globe: see C101) -/

theorem link_sphere {fs : Nat → SphereRun.SFld} {U : Nat → List ℚ} (hf : ∀ i, SphereRun.Sound (fs i).fld (U i)) (hreg : ∀ i, SphereRun.Regional (fs i).fld.grid (U i)) (hg : SphereRun.Grids fs) {cosd : ℚ → ℚ}
    {val : Nat → (t z y x : ℚ) → Option ℚ} (hv : SphereRun.Interpolates cosd fs U val) (b : GridRun.Body V) : Link (GridRun.refScheme val b) (SphereRun.scipyScheme cosd fs b) (SphereRun.jitScheme cosd fs b) (SphereRun.Hints fs) :=
  ⟨by funext dt t q; exact SphereRun.trajectory_scipy hf hv b dt t q (Or.inl hreg), fun dt t q hq => SphereRun.trajectory_jit hf hg hv b dt t q hq (Or.inl hreg),
    fun dt t q hq => SphereRun.record_jit hf hg hv b dt t q hq hreg⟩

/-- C118, for spherical meshes (of which none goes around the globe: see C101). A run with repeated release of the values `vs`, in which everything happens after a whole number of steps: if the recovery functions delete, or
if no trajectory ends, it returns in both modes; and in both modes the particles at the end, and in the output file, are those whose trajectory in the fields has not
ended, each where its trajectory is. -/
theorem C118_sphere_partial {fs : Nat → SphereRun.SFld} {U : Nat → List ℚ} (hf : ∀ i, SphereRun.Sound (fs i).fld (U i)) (hreg : ∀ i, SphereRun.Regional (fs i).fld.grid (U i)) (hg : SphereRun.Grids fs) {cosd : ℚ → ℚ}
    {val : Nat → (t z y x : ℚ) → Option ℚ} (hv : SphereRun.Interpolates cosd fs U val) (b : GridRun.Body V)
    {user : RMap Unit V} {user' : RMap Unit (V × (Nat → Hint))} {o : Opts} {S : ℚ} {N : ℕ} {ps : List (TP (V × (Nat → Hint)))} (h : Regular o S N ps)
    (hh : ∀ q ∈ ps, SphereRun.Hints fs q.2.vars.2) {rep : Repeat (V × (Nat → Hint))} (hrep : Repeats o S rep) {vs : List (V × (Nat → Hint))} (hheld : rep.held = some vs)
    (hvs : ∀ v ∈ vs, SphereRun.Hints fs v.2)
    (hok : (Deletes user ∧ Deletes user') ∨
      ∀ q ∈ everyone o S (bareRep rep) (vs.map Prod.fst) N (ps.map strip), (trajectory (GridRun.refScheme val b) o.dt (S + N * o.dt) q).isSome)
    (fresh : V → V) (fresh' : V × (Nat → Hint) → V × (Nat → Hint)) (k n fuel k' n' fuel' : ℕ) (file : Output.PFile) (r : Run V × Repeat V)
    (r' : Run (V × (Nat → Hint)) × Repeat (V × (Nat → Hint)))
    (hr : execute o (scipyExec (kernel (SphereRun.scipyScheme cosd fs b)) user k n) (scipyPass (kernel (SphereRun.scipyScheme cosd fs b)) k) fresh fuel file (bareRep rep) (ps.map strip) = some r)
    (hr' : execute o (jitExec (kernel (SphereRun.jitScheme cosd fs b)) user' k' n') (jitPass (kernel (SphereRun.jitScheme cosd fs b)) k') fresh' fuel' file rep ps = some r') :
    ∃ s s', r.1 = .done s ∧ r'.1 = .done s' ∧ Follow (GridRun.refScheme val b) o S N (everyone o S (bareRep rep) (vs.map Prod.fst) N (ps.map strip)) file s s' :=
  pair_good (link_sphere hf hreg hg hv b) h hh hrep hheld hvs hok ⟨k, n, Or.inl ⟨rfl, rfl⟩⟩ ⟨k', n', Or.inr ⟨rfl, rfl⟩⟩ fresh fresh' fuel fuel' file r r' hr hr'

/-- C118, for spherical meshes (of which none goes around the globe: see C101). With recovery functions that raise (the default), both modes raise if the trajectory of one of the particles, or of those that are to be
released, ends. -/
theorem C118_sphere_raise_partial {fs : Nat → SphereRun.SFld} {U : Nat → List ℚ} (hf : ∀ i, SphereRun.Sound (fs i).fld (U i)) (hreg : ∀ i, SphereRun.Regional (fs i).fld.grid (U i)) (hg : SphereRun.Grids fs) {cosd : ℚ → ℚ}
    {val : Nat → (t z y x : ℚ) → Option ℚ} (hv : SphereRun.Interpolates cosd fs U val) (b : GridRun.Body V)
    {user : RMap Unit V} {user' : RMap Unit (V × (Nat → Hint))} {o : Opts} {S : ℚ} {N : ℕ} {ps : List (TP (V × (Nat → Hint)))} (h : Regular o S N ps)
    (hh : ∀ q ∈ ps, SphereRun.Hints fs q.2.vars.2) {rep : Repeat (V × (Nat → Hint))} (hrep : Repeats o S rep) {vs : List (V × (Nat → Hint))} (hheld : rep.held = some vs)
    (hvs : ∀ v ∈ vs, SphereRun.Hints fs v.2) (hu : Raises user) (hu' : Raises user')
    (hbad : ∃ q ∈ everyone o S (bareRep rep) (vs.map Prod.fst) N (ps.map strip), trajectory (GridRun.refScheme val b) o.dt (S + N * o.dt) q = none)
    (fresh : V → V) (fresh' : V × (Nat → Hint) → V × (Nat → Hint)) (k n fuel k' n' fuel' : ℕ) (file : Output.PFile) (r : Run V × Repeat V)
    (r' : Run (V × (Nat → Hint)) × Repeat (V × (Nat → Hint)))
    (hr : execute o (scipyExec (kernel (SphereRun.scipyScheme cosd fs b)) user k n) (scipyPass (kernel (SphereRun.scipyScheme cosd fs b)) k) fresh fuel file (bareRep rep) (ps.map strip) = some r)
    (hr' : execute o (jitExec (kernel (SphereRun.jitScheme cosd fs b)) user' k' n') (jitPass (kernel (SphereRun.jitScheme cosd fs b)) k') fresh' fuel' file rep ps = some r') :
    (∃ s, r.1 = .raised s) ∧ ∃ s', r'.1 = .raised s' :=
  pair_bad (link_sphere hf hreg hg hv b) h hh hrep hheld hvs hu hu' hbad ⟨k, n, Or.inl ⟨rfl, rfl⟩⟩ ⟨k', n', Or.inr ⟨rfl, rfl⟩⟩ fresh fresh' fuel fuel' file r r' hr hr'

/-- C118, for spherical meshes (of which none goes around the globe: see C101). In the first run of a set, the values that are released are those of the particles after a number `n` of steps (a finding of C102); this number is
the same in both modes, and so are the particles and the output files, if the trajectories of the particles do not end and the recovery functions delete (some of those
that are released may go further and leave). -/
theorem C118_sphere_first_partial {fs : Nat → SphereRun.SFld} {U : Nat → List ℚ} (hf : ∀ i, SphereRun.Sound (fs i).fld (U i)) (hreg : ∀ i, SphereRun.Regional (fs i).fld.grid (U i)) (hg : SphereRun.Grids fs) {cosd : ℚ → ℚ}
    {val : Nat → (t z y x : ℚ) → Option ℚ} (hv : SphereRun.Interpolates cosd fs U val) (b : GridRun.Body V)
    {user : RMap Unit V} {user' : RMap Unit (V × (Nat → Hint))} (hu : Deletes user) (hu' : Deletes user') {o : Opts} {S : ℚ} {N : ℕ} {ps : List (TP (V × (Nat → Hint)))}
    (h : Regular o S N ps) (hh : ∀ q ∈ ps, SphereRun.Hints fs q.2.vars.2) {rep : Repeat (V × (Nat → Hint))} (hrep : Repeats o S rep) (hheld : rep.held = none)
    (hall : ∀ q ∈ ps.map strip, (trajectory (GridRun.refScheme val b) o.dt (S + N * o.dt) q).isSome)
    {fresh : V → V} {fresh' : V × (Nat → Hint) → V × (Nat → Hint)} (hfresh : ∀ x, (fresh' x).1 = fresh x.1 ∧ SphereRun.Hints fs (fresh' x).2)
    (k n fuel k' n' fuel' : ℕ) (file : Output.PFile) (r : Run V × Repeat V)
    (r' : Run (V × (Nat → Hint)) × Repeat (V × (Nat → Hint)))
    (hr : execute o (scipyExec (kernel (SphereRun.scipyScheme cosd fs b)) user k n) (scipyPass (kernel (SphereRun.scipyScheme cosd fs b)) k) fresh fuel file (bareRep rep) (ps.map strip) = some r)
    (hr' : execute o (jitExec (kernel (SphereRun.jitScheme cosd fs b)) user' k' n') (jitPass (kernel (SphereRun.jitScheme cosd fs b)) k') fresh' fuel' file rep ps = some r') :
    ∃ m : ℕ, 0 < m ∧ m ≤ N ∧ ∃ s s', r.1 = .done s ∧ r'.1 = .done s' ∧ Follow (GridRun.refScheme val b) o S N
      (everyone o S (bareRep rep) (((ps.map strip).filterMap (trajectory (GridRun.refScheme val b) o.dt (S + m * o.dt))).map fun c => fresh c.2.2) N (ps.map strip)) file s s' :=
  pair_first (link_sphere hf hreg hg hv b) h hh hrep hheld hall ⟨k, n, Or.inl ⟨rfl, rfl⟩⟩ ⟨k', n', Or.inr ⟨rfl, rfl⟩⟩ hfresh ⟨hu, hu'⟩ fuel fuel' file r r' hr hr'
/-! ### Examples -/

/-- Every unit of time, two particles are released: one in the interior, and one that leaves the domain. -/
def exRep : Repeat ((ℚ × ℚ × ℚ) × (Nat → Hint)) := ⟨1, some 0, some [((0, 1 / 4, 1 / 4), GridRun.newHints), ((2, 3, 1), GridRun.newHints)], 3⟩

def exFirst : Repeat ((ℚ × ℚ × ℚ) × (Nat → Hint)) := ⟨1, none, none, 3⟩

theorem exRepeats : Repeats GridRun.exOpts 0 exRep ∧ Repeats GridRun.exOpts 0 exFirst :=
  ⟨⟨⟨2, by norm_num, by norm_num [exRep, GridRun.exOpts, abs_div]⟩, 0, by simp [exRep]⟩, ⟨2, by norm_num, by norm_num [exFirst, GridRun.exOpts, abs_div]⟩, 0, by simp [exFirst]⟩

def exFresh (x : (ℚ × ℚ × ℚ) × (Nat → Hint)) : (ℚ × ℚ × ℚ) × (Nat → Hint) := (x.1, GridRun.newHints)
/-- The hypotheses of the theorems for plain fields can be met, and the runs end: one particle is deleted soon after its release. -/
example : (∀ q ∈ GridRun.exParts, GridRun.Hints GridRun.exFs q.2.vars.2) ∧ (∀ v ∈ exRep.held.getD [], GridRun.Hints GridRun.exFs v.2) ∧
    (∀ x, (exFresh x).1 = id x.1 ∧ GridRun.Hints GridRun.exFs (exFresh x).2) ∧
    (match execute GridRun.exOpts (scipyExec (kernel (GridRun.scipyScheme GridRun.exFs GridRun.rk4)) WholeRun.exDelete 5 2) (scipyPass (kernel (GridRun.scipyScheme GridRun.exFs GridRun.rk4)) 5) id 5 WholeRun.exFile (bareRep exRep) (GridRun.exParts.map strip),
      execute GridRun.exOpts (jitExec (kernel (GridRun.jitScheme GridRun.exFs GridRun.rk4)) WholeRun.exDelete 5 2) (jitPass (kernel (GridRun.jitScheme GridRun.exFs GridRun.rk4)) 5) exFresh 5 WholeRun.exFile exRep GridRun.exParts with
    | some (.done s, _), some (.done s', _) => decide (s.ps.map core = (s'.ps.map core).map bare) && decide (records s = (records s').map bare) && decide (s.ps.map (fun q => q.1) = [0, 2, 3, 5, 6])
    | _, _ => false) = true ∧
    (match execute GridRun.exOpts (scipyExec (kernel (GridRun.scipyScheme GridRun.exFs GridRun.rk4)) (fun _ => none) 5 2) (scipyPass (kernel (GridRun.scipyScheme GridRun.exFs GridRun.rk4)) 5) id 5 WholeRun.exFile (bareRep exRep) (GridRun.exParts.map strip),
      execute GridRun.exOpts (jitExec (kernel (GridRun.jitScheme GridRun.exFs GridRun.rk4)) (fun _ => none) 5 2) (jitPass (kernel (GridRun.jitScheme GridRun.exFs GridRun.rk4)) 5) exFresh 5 WholeRun.exFile exRep GridRun.exParts with
    | some (.raised _, _), some (.raised _, _) => true
    | _, _ => false) = true ∧
    (match execute GridRun.exOpts (scipyExec (kernel (GridRun.scipyScheme GridRun.exFs GridRun.rk4)) WholeRun.exDelete 5 2) (scipyPass (kernel (GridRun.scipyScheme GridRun.exFs GridRun.rk4)) 5) id 5 WholeRun.exFile (bareRep exFirst) ((GridRun.exParts.take 1).map strip),
      execute GridRun.exOpts (jitExec (kernel (GridRun.jitScheme GridRun.exFs GridRun.rk4)) WholeRun.exDelete 5 2) (jitPass (kernel (GridRun.jitScheme GridRun.exFs GridRun.rk4)) 5) exFresh 5 WholeRun.exFile exFirst (GridRun.exParts.take 1) with
    | some (.done s, _), some (.done s', _) => decide (s.ps.map core = (s'.ps.map core).map bare) && decide (records s = (records s').map bare) && decide (s.ps.map (fun q => q.1) = [0, 3, 4])
    | _, _ => false) = true := by
  refine ⟨?_, ?_, fun x => ⟨rfl, GridRun.exHints⟩, by decide +kernel, by decide +kernel, by decide +kernel⟩
  · intro q hq
    simp only [GridRun.exParts, List.mem_cons, List.not_mem_nil, or_false] at hq
    rcases hq with rfl | rfl | rfl <;> exact GridRun.exHints
  · intro v hv
    simp only [exRep, Option.getD_some, List.mem_cons, List.not_mem_nil, or_false] at hv
    rcases hv with rfl | rfl <;> exact GridRun.exHints
/-- One particle is released every unit of time. -/
def exOne : Repeat ((ℚ × ℚ × ℚ) × (Nat → Hint)) := ⟨1, some 0, some [((1 / 4, 1 / 4, 1 / 4), GridRun.newHints)], 3⟩

def exShort : Repeat ((ℚ × ℚ × ℚ) × (Nat → Hint)) := ⟨1 / 8, some 0, some [((1 / 4, 1 / 4, 1 / 4), GridRun.newHints)], 3⟩

def exEast : Repeat ((ℚ × ℚ × ℚ) × (Nat → Hint)) := ⟨1, some 0, some [((179, 1, 0), GridRun.newHints)], 3⟩
/-- With fields that are periodic in time. -/
example : (∀ v ∈ exOne.held.getD [], GridRun.Hints PeriodRun.exFs v.2) ∧ Repeats PeriodRun.exOpts 0 exOne ∧
    (match execute PeriodRun.exOpts (scipyExec (kernel (PeriodRun.scipyScheme PeriodRun.exPer PeriodRun.exFs GridRun.rk4)) WholeRun.exDelete 9 2) (scipyPass (kernel (PeriodRun.scipyScheme PeriodRun.exPer PeriodRun.exFs GridRun.rk4)) 9) id 9 WholeRun.exFile (bareRep exOne) (PeriodRun.exParts.map strip),
      execute PeriodRun.exOpts (jitExec (kernel (PeriodRun.jitScheme PeriodRun.exPer PeriodRun.exFs GridRun.rk4)) WholeRun.exDelete 9 2) (jitPass (kernel (PeriodRun.jitScheme PeriodRun.exPer PeriodRun.exFs GridRun.rk4)) 9) exFresh 9 WholeRun.exFile exOne PeriodRun.exParts with
    | some (.done s, _), some (.done s', _) => decide (s.ps.map core = (s'.ps.map core).map bare) && decide (records s = (records s').map bare) && decide (s.ps.map (fun q => q.1) = [0, 2, 3, 4, 5, 6])
    | _, _ => false) = true := by
  refine ⟨?_, ⟨⟨2, by norm_num, by norm_num [exOne, PeriodRun.exOpts, abs_div]⟩, 0, by simp [exOne]⟩, by decide +kernel⟩
  intro v hv
  simp only [exOne, Option.getD_some, List.mem_cons, List.not_mem_nil, or_false] at hv
  subst hv
  exact PeriodRun.exHints
/-- With nested fields. -/
example : (∀ v ∈ exOne.held.getD [], GridRun.Hints NestRun.exFs v.2) ∧ Repeats GridRun.exOpts 0 exOne ∧
    (match execute GridRun.exOpts (scipyExec (kernel (NestRun.scipyScheme NestRun.exFs NestRun.exNs NestRun.rk4)) WholeRun.exDelete 5 2) (scipyPass (kernel (NestRun.scipyScheme NestRun.exFs NestRun.exNs NestRun.rk4)) 5) id 5 WholeRun.exFile (bareRep exOne) (NestRun.exParts.map strip),
      execute GridRun.exOpts (jitExec (kernel (NestRun.jitScheme NestRun.exFs NestRun.exNs NestRun.rk4)) WholeRun.exDelete 5 2) (jitPass (kernel (NestRun.jitScheme NestRun.exFs NestRun.exNs NestRun.rk4)) 5) exFresh 5 WholeRun.exFile exOne NestRun.exParts with
    | some (.done s, _), some (.done s', _) => decide (s.ps.map core = (s'.ps.map core).map bare) && decide (records s = (records s').map bare) && decide (s.ps.map (fun q => q.1) = [0, 1, 3, 4])
    | _, _ => false) = true := by
  refine ⟨?_, ⟨⟨2, by norm_num, by norm_num [exOne, GridRun.exOpts, abs_div]⟩, 0, by simp [exOne]⟩, by decide +kernel⟩
  intro v hv
  simp only [exOne, Option.getD_some, List.mem_cons, List.not_mem_nil, or_false] at hv
  subst hv
  exact NestRun.exHints
/-- With summed fields. -/
example : (∀ v ∈ exShort.held.getD [], GridRun.Hints NestRun.exFs v.2) ∧ Repeats SumRun.exOpts 0 exShort ∧
    (match execute SumRun.exOpts (scipyExec (kernel (SumRun.scipyScheme NestRun.exFs SumRun.exNs NestRun.rk4)) WholeRun.exDelete 5 2) (scipyPass (kernel (SumRun.scipyScheme NestRun.exFs SumRun.exNs NestRun.rk4)) 5) id 5 WholeRun.exFile (bareRep exShort) (SumRun.exParts.map strip),
      execute SumRun.exOpts (jitExec (kernel (SumRun.jitScheme (fun _ => 7) NestRun.exFs (fun _ => true) SumRun.exNs NestRun.rk4)) WholeRun.exDelete 5 2) (jitPass (kernel (SumRun.jitScheme (fun _ => 7) NestRun.exFs (fun _ => true) SumRun.exNs NestRun.rk4)) 5) exFresh 5 WholeRun.exFile exShort SumRun.exParts with
    | some (.done s, _), some (.done s', _) => decide (s.ps.map core = (s'.ps.map core).map bare) && decide (records s = (records s').map bare) && decide (s.ps.map (fun q => q.1) = [0, 3, 4])
    | _, _ => false) = true := by
  refine ⟨?_, ⟨⟨2, by norm_num, by norm_num [exShort, SumRun.exOpts, abs_div]⟩, 0, by simp [exShort]⟩, by decide +kernel⟩
  intro v hv
  simp only [exShort, Option.getD_some, List.mem_cons, List.not_mem_nil, or_false] at hv
  subst hv
  exact NestRun.exHints
/-- On a spherical mesh, across the date line. -/
example : (∀ v ∈ exEast.held.getD [], SphereRun.Hints SphereRun.exPac v.2) ∧ Repeats SphereRun.exPacOpts 0 exEast ∧
    (match execute SphereRun.exPacOpts (scipyExec (kernel (SphereRun.scipyScheme SphereRun.exCos SphereRun.exPac GridRun.rk4)) WholeRun.exDelete 5 2) (scipyPass (kernel (SphereRun.scipyScheme SphereRun.exCos SphereRun.exPac GridRun.rk4)) 5) id 5 WholeRun.exFile (bareRep exEast) (SphereRun.exPacParts.map strip),
      execute SphereRun.exPacOpts (jitExec (kernel (SphereRun.jitScheme SphereRun.exCos SphereRun.exPac GridRun.rk4)) WholeRun.exDelete 5 2) (jitPass (kernel (SphereRun.jitScheme SphereRun.exCos SphereRun.exPac GridRun.rk4)) 5) exFresh 5 WholeRun.exFile exEast SphereRun.exPacParts with
    | some (.done s, _), some (.done s', _) => decide (s.ps.map core = (s'.ps.map core).map bare) && decide (records s = (records s').map bare) && decide (s.ps.map (fun q => q.1) = [0, 4])
    | _, _ => false) = true := by
  refine ⟨?_, ⟨⟨2, by norm_num, by norm_num [exEast, SphereRun.exPacOpts, abs_div]⟩, 0, by simp [exEast]⟩, by decide +kernel⟩
  intro v hv
  simp only [exEast, Option.getD_some, List.mem_cons, List.not_mem_nil, or_false] at hv
  subst hv
  exact SphereRun.exPac_hints
end Parcels.ReleaseGrid
