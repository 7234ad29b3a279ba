import Verif.Proofs.WholeRun3
import Verif.Proofs.KernelLoop2
import Verif.Proofs.Advection

namespace Parcels.WholeRun

open KernelLoop (Particle Kern Exc LS)
open Recovery (TP RMap)

variable {V : Type}

/-! ### Executing the kernel ends -/

theorem pass_total (K : Kern Unit V) (T dt : ℚ) (fuel : Nat) : ∀ (ps : List (Particle V)) (w : Unit) (b : Option (Particle V)),
    (∀ p ∈ ps, ∀ w b, (KernelLoop.exec1 K T dt fuel w b p).isSome) → (KernelLoop.pass K T dt fuel w b ps).isSome := by
  intro ps
  induction ps with
  | nil => intro w b _; rfl
  | cons p ps ih =>
    intro w b h
    unfold KernelLoop.pass
    obtain ⟨s, hs⟩ := Option.isSome_iff_exists.mp (h p List.mem_cons_self w b)
    rw [hs]
    dsimp only
    obtain ⟨r, hr⟩ := Option.isSome_iff_exists.mp (ih s.w s.back (fun q hq => h q (List.mem_cons_of_mem _ hq)))
    rw [hr]
    rfl

theorem runPass_total (K : Kern Unit V) (T dt : ℚ) (fuel : Nat) (ps : List (TP V)) (w : Unit)
    (h : ∀ q ∈ ps, ∀ w b, (KernelLoop.exec1 K T dt fuel w b q.2).isSome) : (Recovery.runPass K T dt fuel w ps).isSome := by
  unfold Recovery.runPass
  obtain ⟨r, hr⟩ := Option.isSome_iff_exists.mp (pass_total K T dt fuel (ps.map Prod.snd) w none (fun p hp => by
    obtain ⟨q, hq, rfl⟩ := List.mem_map.mp hp
    exact h q hq))
  rw [hr]
  rfl

theorem kernel_dt (f : Scheme V) : KernelLoop.LeavesDtAlone (kernel f) := by
  intro w p
  unfold kernel
  dsimp only
  split <;> exact ⟨rfl, rfl, rfl⟩

theorem exec1_total (f : Scheme V) {S dt : ℚ} (hdt : 1 / 100000000 < |dt|) {n N : ℕ} (hn : n ≤ N) (w : Unit) (b : Option (Particle V)) (p : Particle V)
    (hd : p.dt = dt) (hp : ∃ j : ℕ, p.time = S + j * dt) : (KernelLoop.exec1 (kernel f) (S + n * dt) dt (N + 1) w b p).isSome := by
  have hne := ne_zero_of hdt
  obtain ⟨j, hj⟩ := hp
  rcases Nat.lt_or_ge j n with c | c
  · apply KernelLoop.exec1_terminates (kernel f) (kernel_dt f) _ dt (not_close hdt) N w b p
    · rw [hd]; exact abs_pos.mpr hne
    · unfold KernelLoop.NotBefore
      rw [hj]
      exact (grid_le hne).mpr c.le
    · rw [hd, hj, show S + (n : ℚ) * dt - (S + j * dt) = ((n : ℚ) - j) * dt by ring, abs_mul]
      have h1 : (j : ℚ) ≤ n := by exact_mod_cast c.le
      have h2 : (n : ℚ) ≤ N := by exact_mod_cast hn
      have h3 : (0 : ℚ) ≤ j := Nat.cast_nonneg j
      rw [abs_of_nonneg (by linarith)]
      exact mul_le_mul_of_nonneg_right (by linarith) (abs_nonneg dt)
  · obtain ⟨s, hs, -⟩ := exec1_idle (kernel f) (S + n * dt) dt hdt (N + 1) w b p (by rw [hj]; exact (grid_le hne).mpr c)
    rw [hs]
    rfl

theorem scipy_total (f : Scheme V) (user : RMap Unit V) {S dt : ℚ} (hdt : 1 / 100000000 < |dt|) {N : ℕ} (hok : Deletes user ∨ Raises user) (n : ℕ)
    (ps : List (TP V)) (hn : n ≤ N) (hps : ∀ q ∈ ps, q.2.dt = dt ∧ ∃ j : ℕ, q.2.time = S + j * dt) :
    (scipyExec (kernel f) user (N + 1) 2 (S + n * dt) dt ps).isSome := by
  have hne := ne_zero_of hdt
  have hfits : ∀ q ∈ ps, q.2.dt = dt ∧ Fits dt (S + n * dt) q := by
    intro q hq
    refine ⟨(hps q hq).1, ?_⟩
    obtain ⟨j, hj⟩ := (hps q hq).2
    rcases Nat.lt_or_ge j n with c | c
    · exact Or.inr ⟨n - j - 1, by rw [hj, Nat.cast_sub (by omega : 1 ≤ n - j), Nat.cast_sub c.le]; push_cast; ring⟩
    · exact Or.inl (by rw [hj]; exact (grid_le hne).mpr c)
  have hready := ready hfits
  unfold scipyExec
  rw [Option.isSome_map]
  unfold Recovery.execute
  obtain ⟨⟨w1, ps1, cs⟩, hp1⟩ := Option.isSome_iff_exists.mp (runPass_total (kernel f) (S + n * dt) dt (N + 1)
    (ps.map fun q : TP V => (q.1, { q.2 with state := Code.evaluate })) () (fun q hq w b => by
      obtain ⟨r, hr, rfl⟩ := List.mem_map.mp hq
      exact exec1_total f hdt hn w b _ (hps r hr).1 (hps r hr).2))
  rw [hp1]
  dsimp only
  have hran : List.Forall₂ (Ran f dt (S + n * dt)) _ ps1 := runPass_forall (kernel f) (S + n * dt) dt (N + 1) (Ran f dt (S + n * dt)) _ ps1 () w1 cs
    (fun i p w b s hm hs => ran_of f dt (S + n * dt) hdt (N + 1) w b i p (hready _ hm).1 (hready _ hm).2.1 (hready _ hm).2.2 s hs) hp1
  obtain ⟨k1, k2, k3, k4⟩ := ran_facts hran
  rw [kept_all ps1 k1, Recovery.rounds]
  by_cases herr : ∃ q ∈ ps1, Recovery.isError q.2
  · have hany : (ps1.any fun p => decide (Recovery.isError p.2)) = true := by
      obtain ⟨q, hq, hq'⟩ := herr
      exact List.any_eq_true.mpr ⟨q, hq, by simpa using hq'⟩
    rw [if_pos hany]
    rcases hok with hu | hu
    · rw [handleAll_deletes hu ps1 w1 k2]
      dsimp only
      rw [kept_mark ps1 k1]
      have hidle : ∀ q ∈ ps1.filter (fun r : TP V => decide (¬ Recovery.isError r.2)), 0 ≤ (q.2.time - (S + n * dt)) * sgn dt := by
        intro q hm
        rw [List.mem_filter] at hm
        obtain ⟨a, ha1, ha2⟩ := forall₂_right hran _ hm.1
        exact ran_after hne ha2 (hready a ha1).2.2 (by simpa using hm.2)
      obtain ⟨⟨w2, ps2, cs2⟩, hp2⟩ := Option.isSome_iff_exists.mp (runPass_total (kernel f) (S + n * dt) dt (N + 1)
        (ps1.filter (fun r : TP V => decide (¬ Recovery.isError r.2))) w1 (fun q hm w b => by
          obtain ⟨s', e1, -⟩ := exec1_idle (kernel f) (S + n * dt) dt hdt (N + 1) w b q.2 (hidle q hm)
          rw [e1]
          rfl))
      rw [hp2]
      dsimp only
      have hrest : List.Forall₂ (Rests dt) _ ps2 := runPass_forall (kernel f) (S + n * dt) dt (N + 1) (Rests dt) _ ps2 w1 w2 cs2
        (fun i p w b s hm hs => by
          obtain ⟨s', e1, -, e2⟩ := exec1_idle (kernel f) (S + n * dt) dt hdt (N + 1) w b p (hidle _ hm)
          rw [e1] at hs
          obtain rfl := Option.some.inj hs
          rcases e2 with e2 | e2 <;> rw [e2]
          · exact ⟨rfl, rfl, Or.inl rfl⟩
          · exact ⟨rfl, rfl, Or.inr rfl⟩) hp2
      have hno : ∀ q ∈ ps2, ¬ Recovery.isError q.2 := by
        intro q hq
        obtain ⟨a, ha1, ha2⟩ := forall₂_right hrest q hq
        rw [List.mem_filter] at ha1
        have hna : ¬ Recovery.isError a.2 := by simpa using ha1.2
        rintro ⟨x1, x2⟩
        rcases ha2.2.2 with e | e
        · exact hna ⟨by rw [← e]; exact x1, by rw [← e]; exact x2⟩
        · exact x1 e
      rw [Recovery.rounds, if_neg]
      · rfl
      · rw [List.any_eq_true]
        rintro ⟨q, hq, hq'⟩
        exact hno q hq (by simpa using hq')
    · rw [handleAll_raises hu ps1 w1 k2 herr]
      rfl
  · rw [if_neg]
    · rfl
    · rw [List.any_eq_true]
      rintro ⟨q, hq, hq'⟩
      exact herr ⟨q, hq, by simpa using hq'⟩

theorem jrunPass_total (f : Scheme V) {T dt : ℚ} (hdt : 1 / 100000000 < |dt|) (fuel : Nat) (ps ps' : List (TP V)) (w w' : Unit) (cs)
    (hps : ∀ q ∈ ps, q.2.dt ≠ 0) (h : Recovery.runPass (kernel f) T dt fuel w ps = some (w', ps', cs)) :
    JitExec.runPass (kernel f) id T dt fuel (w, none) ps = some ((w', none), ps') := by
  unfold Recovery.runPass at h
  split at h
  · cases h
  rename_i w1 b1 rs hp
  simp only [Option.some.injEq, Prod.mk.injEq] at h
  obtain ⟨-, rfl, -⟩ := h
  have := JitLoop.pass_same (kernel f) (kernel_steady f) T dt (not_close hdt) fuel _ _ _ none _ _
    (fun p hp => by obtain ⟨q, hq, rfl⟩ := List.mem_map.mp hp; exact hps q hq) hp
  unfold JitExec.runPass
  dsimp only [id]
  rw [this]

theorem jit_total (f : Scheme V) (user : RMap Unit V) {S dt : ℚ} (hdt : 1 / 100000000 < |dt|) {N : ℕ} (hok : Deletes user ∨ Raises user) (n : ℕ)
    (ps : List (TP V)) (hn : n ≤ N) (hps : ∀ q ∈ ps, q.2.dt = dt ∧ ∃ j : ℕ, q.2.time = S + j * dt) :
    (jitExec (kernel f) user (N + 1) 2 (S + n * dt) dt ps).isSome := by
  have hne := ne_zero_of hdt
  have hfits : ∀ q ∈ ps, q.2.dt = dt ∧ Fits dt (S + n * dt) q := by
    intro q hq
    refine ⟨(hps q hq).1, ?_⟩
    obtain ⟨j, hj⟩ := (hps q hq).2
    rcases Nat.lt_or_ge j n with c | c
    · exact Or.inr ⟨n - j - 1, by rw [hj, Nat.cast_sub (by omega : 1 ≤ n - j), Nat.cast_sub c.le]; push_cast; ring⟩
    · exact Or.inl (by rw [hj]; exact (grid_le hne).mpr c)
  have hready := ready hfits
  unfold jitExec
  rw [Option.isSome_map]
  unfold JitExec.execute
  obtain ⟨⟨w1, ps1, cs⟩, hp1⟩ := Option.isSome_iff_exists.mp (runPass_total (kernel f) (S + n * dt) dt (N + 1)
    (ps.map fun q : TP V => (q.1, { q.2 with state := Code.evaluate })) () (fun q hq w b => by
      obtain ⟨r, hr, rfl⟩ := List.mem_map.mp hq
      exact exec1_total f hdt hn w b _ (hps r hr).1 (hps r hr).2))
  rw [show ((id () : Unit), (none : Option ℚ)) = ((), none) from rfl,
    jrunPass_total f hdt (N + 1) _ ps1 () w1 cs (fun q hq => by rw [(hready q hq).2.1]; exact hne) hp1]
  dsimp only
  have hran : List.Forall₂ (Ran f dt (S + n * dt)) _ ps1 := runPass_forall (kernel f) (S + n * dt) dt (N + 1) (Ran f dt (S + n * dt)) _ ps1 () w1 cs
    (fun i p w b s hm hs => ran_of f dt (S + n * dt) hdt (N + 1) w b i p (hready _ hm).1 (hready _ hm).2.1 (hready _ hm).2.2 s hs) hp1
  obtain ⟨k1, k2, k3, k4⟩ := ran_facts hran
  rw [kept_all ps1 k1, JitExec.rounds]
  by_cases herr : ∃ q ∈ ps1, Recovery.isError q.2
  · have hany : (ps1.any fun p => decide (Recovery.isError p.2)) = true := by
      obtain ⟨q, hq, hq'⟩ := herr
      exact List.any_eq_true.mpr ⟨q, hq, by simpa using hq'⟩
    rw [if_pos hany]
    rcases hok with hu | hu
    · rw [handleAll_deletes hu ps1 w1 k2]
      dsimp only
      rw [kept_mark ps1 k1]
      have hidle : ∀ q ∈ ps1.filter (fun r : TP V => decide (¬ Recovery.isError r.2)), 0 ≤ (q.2.time - (S + n * dt)) * sgn dt := by
        intro q hm
        rw [List.mem_filter] at hm
        obtain ⟨a, ha1, ha2⟩ := forall₂_right hran _ hm.1
        exact ran_after hne ha2 (hready a ha1).2.2 (by simpa using hm.2)
      obtain ⟨⟨w2, ps2, cs2⟩, hp2⟩ := Option.isSome_iff_exists.mp (runPass_total (kernel f) (S + n * dt) dt (N + 1)
        (ps1.filter (fun r : TP V => decide (¬ Recovery.isError r.2))) w1 (fun q hm w b => by
          obtain ⟨s', e1, -⟩ := exec1_idle (kernel f) (S + n * dt) dt hdt (N + 1) w b q.2 (hidle q hm)
          rw [e1]
          rfl))
      rw [jrunPass_total f hdt (N + 1) _ ps2 w1 w2 cs2 (fun q hq => by rw [k3 q (List.mem_filter.mp hq).1]; exact hne) hp2]
      dsimp only
      have hrest : List.Forall₂ (Rests dt) _ ps2 := runPass_forall (kernel f) (S + n * dt) dt (N + 1) (Rests dt) _ ps2 w1 w2 cs2
        (fun i p w b s hm hs => by
          obtain ⟨s', e1, -, e2⟩ := exec1_idle (kernel f) (S + n * dt) dt hdt (N + 1) w b p (hidle _ hm)
          rw [e1] at hs
          obtain rfl := Option.some.inj hs
          rcases e2 with e2 | e2 <;> rw [e2]
          · exact ⟨rfl, rfl, Or.inl rfl⟩
          · exact ⟨rfl, rfl, Or.inr rfl⟩) hp2
      have hno : ∀ q ∈ ps2, ¬ Recovery.isError q.2 := by
        intro q hq
        obtain ⟨a, ha1, ha2⟩ := forall₂_right hrest q hq
        rw [List.mem_filter] at ha1
        have hna : ¬ Recovery.isError a.2 := by simpa using ha1.2
        rintro ⟨x1, x2⟩
        rcases ha2.2.2 with e | e
        · exact hna ⟨by rw [← e]; exact x1, by rw [← e]; exact x2⟩
        · exact x1 e
      rw [JitExec.rounds, if_neg]
      · rfl
      · rw [List.any_eq_true]
        rintro ⟨q, hq, hq'⟩
        exact hno q hq (by simpa using hq')
    · rw [handleAll_raises hu ps1 w1 k2 herr]
      rfl
  · rw [if_neg]
    · rfl
    · rw [List.any_eq_true]
      rintro ⟨q, hq, hq'⟩
      exact herr ⟨q, hq, by simpa using hq'⟩

/-! ### Both modes -/

theorem mode_effect {f : Scheme V} {user : RMap Unit V} {exec : Exec V} (hm : IsMode (kernel f) user exec) {dt : ℚ} (hdt : 1 / 100000000 < |dt|) :
    ∀ T ps e ps', (∀ q ∈ ps, q.2.dt = dt ∧ Fits dt T q) → exec T dt ps = some (e, ps') → Effect user f dt T ps e ps' := by
  obtain ⟨fuel, nRounds, rfl | rfl⟩ := hm
  · exact fun T ps e ps' hps h => scipy_effect f user dt T hdt fuel nRounds ps ps' e hps h
  · exact fun T ps e ps' hps h => jit_effect f user dt T hdt fuel nRounds ps ps' e hps h

/-! ### Runge-Kutta -/

/-- The scheme of `AdvectionRK4`. -/
def rk4Scheme (uv : Advection.Flow ℚ) : Scheme (ℚ × ℚ × ℚ) := fun t dt v =>
  match Advection.rk4 uv ⟨t, dt, v.1, v.2.1, v.2.2⟩ with
  | .ok p => .ok (p.lon, p.lat, p.depth)
  | .error e => .error e

theorem rk4_keeps (uv : Advection.Flow ℚ) (p p' : Advection.Pt ℚ) (h : Advection.rk4 uv p = .ok p') : p'.time = p.time ∧ p'.dt = p.dt := by
  simp only [Advection.rk4] at h
  repeat' split at h
  all_goals first
    | (cases h; exact ⟨rfl, rfl⟩)
    | cases h

theorem rk4_kernel (uv : Advection.Flow ℚ) : Advection.toKern (Advection.plain (Advection.rk4 uv)) = kernel (rk4Scheme uv) := by
  funext w p
  unfold Advection.toKern Advection.plain kernel rk4Scheme
  dsimp only
  cases h : Advection.rk4 uv ⟨p.time, p.dt, p.vars.1, p.vars.2.1, p.vars.2.2⟩ with
  | error e => rfl
  | ok p' =>
    obtain ⟨h1, h2⟩ := rk4_keeps uv _ _ h
    dsimp only at h1 h2 ⊢
    rw [h1, h2]

theorem rk4_solution (g : ℚ → ℚ → ℚ × ℚ → ℚ × ℚ) (dt : ℚ) : ∀ (n : ℕ) (t : ℚ) (v : ℚ × ℚ × ℚ),
    solution (rk4Scheme (Advection.total g)) dt n t v =
      some ((rk4Path g dt v.2.2 n t (v.1, v.2.1)).1, (rk4Path g dt v.2.2 n t (v.1, v.2.1)).2, v.2.2) := by
  intro n
  induction n with
  | zero => intro t v; rfl
  | succ n ih =>
    intro t v
    rw [solution]
    have e : rk4Scheme (Advection.total g) t dt v = .ok ((Advection.classical.step (fun s => g s v.2.2) t dt (v.1, v.2.1)).1,
        (Advection.classical.step (fun s => g s v.2.2) t dt (v.1, v.2.1)).2, v.2.2) := by
      unfold rk4Scheme
      rw [Advection.rk4_eq]
    rw [e]
    dsimp only
    rw [ih]
    rfl

theorem rk4_trajectory (g : ℚ → ℚ → ℚ × ℚ → ℚ × ℚ) (dt t : ℚ) (q : TP (ℚ × ℚ × ℚ)) :
    trajectory (rk4Scheme (Advection.total g)) dt t q = some (if 0 < (q.2.time - t) * sgn dt then core q
      else (q.1, t, (rk4Path g dt q.2.vars.2.2 ⌊(t - q.2.time) / dt⌋₊ q.2.time (q.2.vars.1, q.2.vars.2.1)).1,
        (rk4Path g dt q.2.vars.2.2 ⌊(t - q.2.time) / dt⌋₊ q.2.time (q.2.vars.1, q.2.vars.2.1)).2, q.2.vars.2.2)) := by
  unfold trajectory
  split
  · rfl
  · rw [rk4_solution]
    rfl

theorem uniform_path (u v dt d : ℚ) : ∀ (n : ℕ) (t : ℚ) (x : ℚ × ℚ), rk4Path (fun _ _ _ => (u, v)) dt d n t x = (x.1 + u * (n * dt), x.2 + v * (n * dt)) := by
  intro n
  induction n with
  | zero => intro t x; simp [rk4Path]
  | succ n ih =>
    intro t x
    rw [rk4Path, ih]
    simp only [Advection.Tableau.step, Advection.classical, Advection.slopes, Advection.comb]
    simp only [List.zipWith, List.sum_cons, List.sum_nil, List.cons_append, List.nil_append]
    push_cast
    refine Prod.ext ?_ ?_ <;> ring

/-! ### Splitting a run -/

/-- The second part of a run is regular. -/
theorem regular_second {f : Scheme V} {o : Opts} {S : ℚ} {N M : ℕ} {ps ps1 : List (TP V)} (h : Regular o S N ps) (u : Until)
    (hcore : ps1.map core = ps.filterMap (trajectory f o.dt (S + N * o.dt)))
    (hsome : ∃ q ∈ ps, ∃ c, record f o.dt (S + N * o.dt) q = some c)
    (hlen : 1 / 100000 ≤ M * |o.dt|) (hu : match u with | .runtime r => r = M * |o.dt| | .endtime e => e = S + N * o.dt + M * o.dt) :
    Regular (o.lasting u) (S + N * o.dt) M ps1 := by
  have hne := ne_zero_of h.step
  have hmem : ∀ q ∈ ps1, ∃ j : ℕ, N ≤ j ∧ q.2.time = S + j * o.dt := by
    intro q hq
    have : core q ∈ ps1.map core := List.mem_map_of_mem hq
    rw [hcore, List.mem_filterMap] at this
    obtain ⟨q0, hq0, e⟩ := this
    obtain ⟨j, hj⟩ := h.starts q0 hq0
    rcases traj_time f hne (core q0) _ j N hj e with ⟨h1, h2⟩ | ⟨h1, h2⟩
    · exact ⟨j, h1.le, by rw [← hj]; exact congrArg (fun x => x.2.1) h2⟩
    · exact ⟨N, le_refl _, h2⟩
  refine ⟨?_, h.step, hlen, hu, h.output, h.movie, h.callback, h.ahead, ?_, ?_⟩
  · · obtain ⟨q, hq, c, hc⟩ := hsome
      unfold record at hc
      split at hc
      · cases hc
      · rename_i hn
        have hin : c ∈ ps1.map core := by
          rw [hcore]
          exact List.mem_filterMap.mpr ⟨q, hq, hc⟩
        obtain ⟨r, hr, rfl⟩ := List.mem_map.mp hin
        refine ⟨r, hr, ?_⟩
        obtain ⟨j, hj⟩ := h.starts q hq
        rcases traj_time f hne (core q) _ j N hj hc with ⟨h1, -⟩ | ⟨-, h2⟩
        · rw [hj, grid_lt hne] at hn
          exact absurd h1 hn
        · exact h2
  · intro i t q hq
    obtain ⟨z, hz⟩ := h.input i t q hq
    refine ⟨z - N, ?_⟩
    change q = S + N * o.dt + ((z - N : ℤ) : ℚ) * o.dt
    rw [hz]
    push_cast
    ring
  · intro q hq
    obtain ⟨j, h1, h2⟩ := hmem q hq
    refine ⟨j - N, ?_⟩
    change q.2.time = S + N * o.dt + ((j - N : ℕ) : ℚ) * o.dt
    rw [h2, Nat.cast_sub h1]
    ring

/-- The trajectories of the second part go on where those of the first part ended. -/
theorem second_trajectory {f : Scheme V} {o : Opts} {S : ℚ} {N : ℕ} {ps ps1 : List (TP V)} (h : Regular o S N ps) (m : ℕ)
    (hcore : ps1.map core = ps.filterMap (trajectory f o.dt (S + N * o.dt))) :
    ps1.filterMap (trajectory f o.dt (S + N * o.dt + m * o.dt)) = ps.filterMap (trajectory f o.dt (S + N * o.dt + m * o.dt)) := by
  have hne := ne_zero_of h.step
  have e : S + N * o.dt + m * o.dt = S + ((N + m : ℕ) : ℚ) * o.dt := by push_cast; ring
  rw [e, filterMap_core, hcore, List.filterMap_filterMap]
  apply List.filterMap_congr
  intro q hq
  obtain ⟨j, hj⟩ := h.starts q hq
  exact traj_comp f hne (core q) j N (N + m) hj (by omega)

/-- The same for the records. -/
theorem second_record {f : Scheme V} {o : Opts} {S : ℚ} {N : ℕ} {ps ps1 : List (TP V)} (h : Regular o S N ps) (m : ℕ)
    (hcore : ps1.map core = ps.filterMap (trajectory f o.dt (S + N * o.dt))) :
    ps1.filterMap (record f o.dt (S + N * o.dt + m * o.dt)) = ps.filterMap (record f o.dt (S + N * o.dt + m * o.dt)) := by
  have hne := ne_zero_of h.step
  have e : S + N * o.dt + m * o.dt = S + ((N + m : ℕ) : ℚ) * o.dt := by push_cast; ring
  have hst : Starts S o.dt ps1 := by
    intro q hq
    have : core q ∈ ps1.map core := List.mem_map_of_mem hq
    rw [hcore, List.mem_filterMap] at this
    obtain ⟨q0, hq0, e⟩ := this
    obtain ⟨j, hj⟩ := h.starts q0 hq0
    rcases traj_time f hne (core q0) _ j N hj e with ⟨h1, h2⟩ | ⟨h1, h2⟩
    · exact ⟨j, by rw [← hj]; exact congrArg (fun x => x.2.1) h2⟩
    · exact ⟨N, h2⟩
  have h2 := second_trajectory h m hcore
  rw [e] at h2 ⊢
  rw [← record_filter f hne hst, ← record_filter f hne h.starts, h2]

/-- If the first part ends at an output time, its output times and those of the second part are those of the whole run. -/
theorem outputTimes_append {S dt : ℚ} {k K N M : ℕ} (hdt : dt ≠ 0) (hk : 0 < k) (hN : N = K * k) :
    outputTimes S dt (k * |dt|) (N + M) = outputTimes S dt (k * |dt|) N ++ (outputTimes (S + N * dt) dt (k * |dt|) M).tail := by
  have h1 : M / k * k ≤ M := Nat.div_mul_le_self M k
  have h2 : M < (M / k + 1) * k := (Nat.div_lt_iff_lt_mul hk).mp (Nat.lt_succ_self _)
  rw [outputTimes_eq hdt hk h1 h2, outputTimes_eq (K := K) (N := N) hdt hk (by omega) (by rw [hN]; exact Nat.mul_lt_mul_of_pos_right (Nat.lt_succ_self K) hk),
    outputTimes_eq (K := K + M / k) (N := N + M) hdt hk (by rw [Nat.add_mul]; omega) (by
      rw [show (K + M / k + 1) * k = K * k + (M / k + 1) * k by ring]; omega), if_pos hN.symm, List.tail_cons, List.append_nil, List.cons_append]
  congr 1
  rw [List.range_add, List.map_append, List.append_assoc, List.map_map]
  congr 2
  · apply List.map_congr_left
    intro j _
    simp only [Function.comp]
    rw [hN]
    push_cast
    ring
  · by_cases c : M / k * k = M
    · rw [if_pos c, if_pos (by rw [Nat.add_mul, c, hN])]
    · rw [if_neg c, if_neg (by rw [Nat.add_mul]; omega)]
      congr 1
      push_cast
      ring

end Parcels.WholeRun
