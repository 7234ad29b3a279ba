import Verif.Proofs.FloatTime
import Verif.Props.Schedule
import Verif.Props.KernelLoop

/-!
C94: the time loops in floating-point arithmetic.
-/

namespace Parcels.FloatTime

/-! ### Times that are multiples of a unit -/

/-- C94: if all times are multiples of a unit (a power of two of seconds, such as whole seconds), the event loop in double precision does exactly
what it does in exact arithmetic. -/
theorem C94_events_partial (fl : ℚ → ℚ) (hf : Double fl) (a : Schedule.Args) (k : ℤ) (h : OnTicks a k) (ho : Schedule.Ordinary a) (n : Nat) :
    run fl a n = Schedule.run a n := by
  unfold run Schedule.run
  rw [(init_eq hf h ho).1]
  exact eventLoop_eq hf h ho n _ (init_eq hf h ho).2

/-- C94: in particular output is written exactly at the start, at start ± j outputdt up to the end, and at the end. -/
theorem C94_output_partial (fl : ℚ → ℚ) (hf : Double fl) (a : Schedule.Args) (k : ℤ) (h : OnTicks a k) (ho : Schedule.Ordinary a) (n : Nat)
    (s : Schedule.St) (hr : run fl a n = some (.done s)) (hfile : a.hasFile = true) (o : ℚ) (hod : a.outputdt = some o) :
    Schedule.writes a s = (List.range (⌊|a.E - a.S| / o⌋₊ + 1)).map (fun j : Nat => a.S + (j : ℚ) * o * sgn a.dt) ++ [a.E] := by
  rw [C94_events_partial fl hf a k h ho] at hr
  exact Schedule.C10_output_times_exact ho h.on hr hfile o hod

/-- C94: and particles are released exactly at the times `rs ± j repeatdt`, `j ≥ 1`, after the start and not after the end. -/
theorem C94_release_partial (fl : ℚ → ℚ) (hf : Double fl) (a : Schedule.Args) (k : ℤ) (h : OnTicks a k) (ho : Schedule.Ordinary a) (n : Nat)
    (s : Schedule.St) (hr : run fl a n = some (.done s)) (r : ℚ) (hrep : a.repeatdt = some r) (hrs : Schedule.NotBefore a.dt a.rs a.S) :
    ∀ t, t ∈ Schedule.releases s ↔
      ∃ j : Nat, 1 ≤ j ∧ t = a.rs + (j : ℚ) * r * sgn a.dt ∧ Schedule.After a.dt a.S t ∧ Schedule.NotBefore a.dt t a.E := by
  rw [C94_events_partial fl hf a k h ho] at hr
  exact (Schedule.C11_release_times ho h.on hr r hrep hrs).2

section particles
open KernelLoop
variable {W V : Type}

/-- C94: the particle loop of Scipy mode in double precision does exactly what it does in exact arithmetic, for kernels that leave time and dt
alone, if the end time, dt, and the times and steps of all particles are multiples of a unit. -/
theorem C94_particles_scipy_partial (fl : ℚ → ℚ) (hf : Double fl) (k : ℤ) (hk : -24 ≤ k) (K : Kern W V) (hK : LeavesDtAlone K) (E dt : ℚ)
    (hE : Tick k E) (hdt : Tick k dt) (n : Nat) (ps : List (Particle V)) (w : W) (back : Option (Particle V))
    (h : ∀ p ∈ ps, Tick k p.time ∧ Tick k p.dt) : pass fl K E dt n w back ps = KernelLoop.pass K E dt n w back ps :=
  pass_eq hf hk K hK hE hdt n ps w back h

/-- C94: the same in JIT mode. -/
theorem C94_particles_jit_partial (fl : ℚ → ℚ) (hf : Double fl) (k : ℤ) (hk : -24 ≤ k) (K : Kern W V) (hK : LeavesDtAlone K) (E dt : ℚ)
    (hE : Tick k E) (n : Nat) (ps : List (Particle V)) (w : W) (h : ∀ p ∈ ps, Tick k p.time ∧ Tick k p.dt) :
    Jit.pass fl K E dt n w none ps = JitLoop.pass K E dt n w none ps :=
  jit_pass_eq hf hk K hK hE n ps w h

/-- C94: in particular every kernel call of a particle happens exactly a whole number of steps after its start time, and a particle that ends in
state Success has arrived exactly at the end time: no rounding error accumulates. -/
theorem C94_arrival_partial (fl : ℚ → ℚ) (hf : Double fl) (k : ℤ) (hk : -24 ≤ k) (K : Kern W V) (hK : LeavesDtAlone K) (E dt : ℚ)
    (hE : Tick k E) (hdt : Tick k dt) (hdt0 : dt ≠ 0) (n : Nat) (w : W) (back : Option (Particle V)) (p : Particle V) (s : LS W V)
    (ht : Tick k p.time) (hp : Tick k p.dt) (hp0 : p.dt ≠ 0) (ha : NotBefore dt p.time E) (hpend : Pending p)
    (h : exec1 fl K E dt n w back p = some s) :
    (s.p.state = .success → s.p.time = E) ∧
    ∀ (i : Nat) (hi : i < s.trace.length), (s.trace[i]).before.time = p.time + i * (sgn dt * |p.dt|) := by
  obtain ⟨e1, e2⟩ := exec1_eq hf hk K hK hE hdt n w back p ht hp
  rw [e1] at h
  have hu := u_ge hk
  have big : ∀ x : ℚ, Tick k x → x ≠ 0 → 1 / 100000000 < |x| := by
    intro x hx hx0
    rcases mult_zero_or (u_pos k) hx.1 with c | c
    · exact absurd c hx0
    · linarith
  have hc : Parcels.isclose dt 0 = false := by
    rw [(isclose_zero hf hk hdt.1 (by have := hdt.2; have := u_pos k; linarith)).2]
    simpa using hdt0
  have hR : RespectsClock K := fun w p => ⟨(hK w p).1, Or.inl (hK w p).2.1⟩
  have hN : RequestsRealSteps K := fun w p x hx => by rw [(hK w p).2.2] at hx; cases hx
  constructor
  · intro hs
    have hnear := exec1_success K hR hN E dt hc n w back p s h ha hpend (big _ hp hp0) hs
    have hm : Schedule.Mult (2 ^ k) (E - s.p.time) := Schedule.Mult.sub hE.1 (e2 s h).1
    rcases mult_zero_or (u_pos k) hm with c | c
    · linarith
    · exfalso; linarith
  · intro i hi
    exact (exec1_even K hK E dt hc n w back p s h ha i hi).1

end particles

/-! ### Non-vacuity -/

/-- Two days in whole seconds: output every hour, release every six hours, snapshots every day. -/
def exArgs : Schedule.Args :=
  { S := 0, E := 172800, dt := 300, hasFile := true, outputdt := some 3600, moviedt := none, callbackdt := none, repeatdt := some 21600, rs := 0,
    hasFieldset := true, input := fun _ t => if t < 86400 then .fin 86400 else .pinf }

example : Schedule.Ordinary exArgs ∧ OnTicks exArgs 0 := by
  have hq : ∀ i t q, exArgs.input i t = .fin q → q = 86400 := by
    intro i t q h
    simp only [exArgs] at h
    split at h <;> cases h
    rfl
  have hi : ∀ x i, Schedule.interval exArgs x = some i → 0 < i ∧ i ≤ 21600 := by
    intro x i h
    cases x <;> simp [Schedule.interval, exArgs, Schedule.minOpt] at h <;> subst h <;> norm_num
  refine ⟨⟨by simp [exArgs], by simp [exArgs, Schedule.NotBefore, sgn], rfl, ?_, ?_, ?_, ?_, ?_⟩,
    ⟨by norm_num, ⟨by simp [Schedule.tol]; norm_num, ⟨0, by simp [exArgs]⟩, ⟨172800, by simp [exArgs]⟩, ⟨0, by simp [exArgs]⟩, ?_, ?_, ?_, ?_, ?_⟩,
      by simp [exArgs]; norm_num, ?_, ?_⟩⟩
  · intro i t
    simp only [exArgs]
    split
    · rename_i c
      simp only [Schedule.AfterExt, Schedule.After, sgn]
      norm_num
      exact c
    · simp [Schedule.AfterExt]
  · intro o h; simp [exArgs] at h; subst h; norm_num
  · intro o h; simp [exArgs] at h
  · intro o h; simp [exArgs] at h
  · intro o h; simp [exArgs] at h; subst h; norm_num
  · intro o h; simp [exArgs] at h; exact ⟨3600, by rw [← h]; norm_num⟩
  · intro o h; simp [exArgs] at h
  · intro o h; simp [exArgs] at h
  · intro o h; simp [exArgs] at h; exact ⟨21600, by rw [← h]; norm_num⟩
  · intro i t q h; exact ⟨86400, by rw [hq i t q h]; norm_num⟩
  · intro x i h
    have := (hi x i h).2
    simp [exArgs]; linarith
  · intro i t q h; rw [hq i t q h]; norm_num

/-- Double precision with ties to even is one such rounding. -/
example : Double f64 := f64_double

example : Tick 0 86400 ∧ Tick (-1) (5 / 2) ∧ ¬ Tick 0 (5 / 2) := by
  refine ⟨⟨⟨86400, by norm_num⟩, by norm_num⟩, ⟨⟨5, by norm_num⟩, by norm_num⟩, ?_⟩
  rintro ⟨⟨z, hz⟩, -⟩
  rw [zpow_zero, mul_one, div_eq_iff (by norm_num)] at hz
  have : (5 : ℤ) = z * 2 := by exact_mod_cast hz
  omega

/-! ### Other times -/

/-- A run from 0 to 1 with output every tenth of a second (0.1 in double precision). -/
def tenths : Schedule.Args :=
  { S := 0, E := 1, dt := 1, hasFile := true, outputdt := some (f64 (1 / 10)), moviedt := none, callbackdt := none, repeatdt := none, rs := 0,
    hasFieldset := true, input := fun _ _ => .pinf }

/-- C94 fails for tenths of a second: the next output times are sums with rounding errors, so the tenth output is written at 1 - 2^-53, and then,
because the loop has not reached 1, another one at 1. In exact arithmetic, with outputdt = 1/10, the tenth output is at 1 and the last call is for
the same time again (and writes nothing, C18). -/
theorem C94_tenths_fails :
    (∃ s, run f64 tenths 30 = some (.done s) ∧ (Schedule.writes tenths s).length = 12 ∧
      (Schedule.writes tenths s).getLast? = some 1 ∧ (Schedule.writes tenths s)[10]? = some (1 - 1 / 2 ^ 53)) ∧
    ∃ s, Schedule.run { tenths with outputdt := some (1 / 10) } 30 = some (.done s) ∧
      Schedule.writes tenths s = [0, 1 / 10, 2 / 10, 3 / 10, 4 / 10, 5 / 10, 6 / 10, 7 / 10, 8 / 10, 9 / 10, 1, 1] := by
  have h1 : (match run f64 tenths 30 with
      | some (.done s) => decide ((Schedule.writes tenths s).length = 12 ∧ (Schedule.writes tenths s).getLast? = some 1 ∧
          (Schedule.writes tenths s)[10]? = some (1 - 1 / 2 ^ 53))
      | _ => false) = true := by decide +kernel
  have h2 : (match Schedule.run { tenths with outputdt := some (1 / 10) } 30 with
      | some (.done s) => decide (Schedule.writes tenths s = [0, 1 / 10, 2 / 10, 3 / 10, 4 / 10, 5 / 10, 6 / 10, 7 / 10, 8 / 10, 9 / 10, 1, 1])
      | _ => false) = true := by decide +kernel
  constructor
  · split at h1
    · rename_i s e
      exact ⟨s, e, of_decide_eq_true h1⟩
    · cases h1
  · split at h2
    · rename_i s e
      exact ⟨s, e, of_decide_eq_true h2⟩
    · cases h2

/-- A run forward from S to E with output every `o` seconds and nothing else. -/
def simple (S E o : ℚ) : Schedule.Args :=
  { S := S, E := E, dt := 1, hasFile := true, outputdt := some o, moviedt := none, callbackdt := none, repeatdt := none, rs := S,
    hasFieldset := true, input := fun _ _ => .pinf }

/-- C94 fails: if the interval is lost in rounding when it is added to the start time, execute never ends. -/
theorem C94_lost_interval_fails (fl : ℚ → ℚ) (hf : Double fl) (S E o : ℚ) (hSE : S < E) (hlost : fl (S + o) = S) (n : Nat) :
    run fl (simple S E o) n = none := by
  have hs1 : sgn 1 = 1 := by unfold sgn; norm_num
  have hout : Schedule.interval (simple S E o) .output = some o := rfl
  have hcb : Schedule.interval (simple S E o) .callback = some o := rfl
  have hnear : near fl S (.fin S) = true := by
    simp only [near, sub_self, fl_zero hf, abs_zero, decide_eq_true_eq]
    have := (fl_le hf (x := Schedule.tol) (by unfold Schedule.tol; norm_num)).2
    have e0 : Schedule.tol = 1 / 1000000000000 := rfl
    rw [e0] at this ⊢
    linarith
  have main : ∀ n (s : Schedule.St), s.time = S → s.next .release = .pinf → s.next .output = .fin S → s.next .movie = .pinf →
      s.next .callback = .fin S → s.nextIn = .pinf → eventLoop fl (simple S E o) n s = none := by
    intro n
    induction n with
    | zero => intros; rfl
    | succ n ih =>
      intro s h0 h1 h2 h3 h4 h5
      have hstop : Schedule.nextStop (simple S E o) s = .fin S := by
        unfold Schedule.nextStop
        rw [h1, h2, h3, h4, h5]
        simp only [simple, Schedule.Ext.min2]
        have : ¬ E < S := by linarith
        simp [this, Schedule.Ext.min2]
      unfold eventLoop
      have hc : Schedule.continues (simple S E o) s := Or.inl ⟨by rw [h0]; exact hSE, by simp [simple]⟩
      rw [if_pos hc, hstop]
      simp only []
      rw [if_neg (by simp [simple]), if_neg (by simp [simple])]
      refine ih _ rfl ?_ ?_ ?_ ?_ ?_
      · simp only [fire]; rw [h1]; rfl
      · simp only [fire]; rw [h2, if_pos hnear, hout]; simp only [bump]; simp only [simple]; rw [hs1, mul_one, hlost]
      · simp only [fire]; rw [h3]; rfl
      · simp only [fire]; rw [h4, if_pos hnear, hcb]; simp only [bump]; simp only [simple]; rw [hs1, mul_one, hlost]
      · simp only [fire]; rw [h5]; simp only [simple]; exact ite_self _
  refine main n _ rfl ?_ ?_ ?_ ?_ ?_
  · simp [init, initNext, Schedule.interval, simple]
  · simp [init, initNext, firstEvent, Schedule.interval, simple, hlost]
  · simp [init, initNext, firstEvent, Schedule.interval, simple]
  · simp [init, initNext, firstEvent, Schedule.interval, simple, Schedule.minOpt, hlost]
  · simp [init, Schedule.init, simple]

/-- For instance: an output every 10^-7 seconds, 34 years after the time origin. -/
example : f64 (2 ^ 30 + f64 (1 / 10 ^ 7)) = 2 ^ 30 := by decide +kernel

section particles
open KernelLoop

/-- A kernel that does nothing. -/
def idle : Kern Unit Unit := fun _ p => ((), ⟨p, none, .ret none⟩)

/-- C94 fails: if the step of a particle is lost in rounding when it is added to its time, the particle loop never ends. -/
theorem C94_lost_step_fails (fl : ℚ → ℚ) (hf : Double fl) (t E dt : ℚ) (hdt : 9 / 100000000 ≤ dt) (hE : dt ≤ fl (E - t)) (hlost : fl (t + dt) = t)
    (n : Nat) : exec1 fl idle E dt n () none ⟨t, dt, .evaluate, ()⟩ = none := by
  have hpos : 0 < dt := by linarith
  have hsd : sgn dt = 1 := by unfold sgn; rw [if_pos hpos]
  have hsE : sgn (fl (E - t)) = 1 := by unfold sgn; rw [if_pos (by linarith)]
  have hmin : min |dt| |fl (E - t)| = dt := by
    rw [abs_of_pos hpos, abs_of_pos (by linarith)]; exact min_eq_left hE
  have hcl : isclose fl dt 0 = false := by
    unfold isclose
    simp only [sub_zero, abs_zero, mul_zero, fl_zero hf, add_zero, decide_eq_false_iff_not, not_le]
    have h1 := fl_le hf (x := 1 / 100000000) (by norm_num)
    have h2 := fl_le hf (x := fl (1 / 100000000)) (by linarith)
    have h3 := fl_le hf (x := dt) hpos.le
    rw [abs_of_pos (by linarith)]
    linarith
  have main : ∀ n (s : LS Unit Unit), s.p = ⟨t, dt, .evaluate, ()⟩ → s.dtPos = dt → s.nextDt = none → loop fl idle E dt n s = none := by
    intro n
    induction n with
    | zero => intros; rfl
    | succ n ih =>
      intro s h1 h2 h3
      have hst : (step fl idle E dt s).2 = false ∧ (step fl idle E dt s).1.p = ⟨t, dt, .evaluate, ()⟩ ∧
          (step fl idle E dt s).1.dtPos = dt ∧ (step fl idle E dt s).1.nextDt = none := by
        have hr : resolve fl (⟨t, dt, .evaluate, ()⟩ : Particle Unit) ⟨⟨t, dt, .evaluate, ()⟩, none, .ret none⟩ = .success := by
          simp [resolve, (isclose_self' hf dt).1]
        simp only [step, idle, h1, h2, h3, hsd, one_mul, Option.orElse_none, hr]
        simp [hlost, hmin, hsE, hcl]
      unfold loop
      have hc : cond fl dt s := Or.inl (by rw [h1])
      rw [if_pos hc]
      rcases h : step fl idle E dt s with ⟨s1, b⟩
      rw [h] at hst
      obtain ⟨e1, e2, e3, e4⟩ := hst
      dsimp only at e1
      subst e1
      exact ih s1 e2 e3 e4
  unfold exec1
  dsimp only
  rw [if_neg (by unfold skips; dsimp only; rw [hmin, hsE, hsd, hcl]; simp)]
  exact main n _ rfl hmin rfl

example : (9 / 100000000 : ℚ) ≤ f64 (1 / 10 ^ 7) ∧ f64 (1 / 10 ^ 7) ≤ f64 (2 ^ 31 - 2 ^ 30) ∧ f64 (2 ^ 30 + f64 (1 / 10 ^ 7)) = 2 ^ 30 := by
  decide +kernel

end particles

end Parcels.FloatTime
