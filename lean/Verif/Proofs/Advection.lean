import Verif.Spec.Advection
import Verif.Model.JitLoop
import Mathlib.Tactic.Ring
import Mathlib.Tactic.FieldSimp
import Mathlib.Tactic.Linarith
import Mathlib.Analysis.Calculus.MeanValue
import Mathlib.Analysis.Calculus.Deriv.Pow

/-!
Lemmas for C49, C50 and C66.
-/

namespace Parcels.Advection

open KernelLoop (Exc KRes KOut Kern Particle)

/-! ### Trees -/

/-- All trees with `n` nodes. -/
def trees : Nat → List Tree
  | 0 => []
  | 1 => [.leaf]
  | n + 2 => (List.finRange (n + 1)).flatMap fun i =>
      (trees (i.1 + 1)).flatMap fun t => (trees (n + 1 - i.1)).map fun s => .graft t s
decreasing_by all_goals (have := i.2; omega)

theorem Tree.order_pos : ∀ t : Tree, 1 ≤ t.order
  | .leaf => le_refl _
  | .graft t s => by have := t.order_pos; show 1 ≤ t.order + s.order; omega

theorem mem_trees : ∀ t : Tree, t ∈ trees t.order
  | .leaf => by simp [Tree.order, trees]
  | .graft t s => by
    have h1 := t.order_pos
    have h2 := s.order_pos
    obtain ⟨n, hn⟩ : ∃ n, t.order + s.order = n + 2 := ⟨t.order + s.order - 2, by omega⟩
    show Tree.graft t s ∈ trees (t.order + s.order)
    rw [hn, trees]
    simp only [List.mem_flatMap, List.mem_map, List.mem_finRange, true_and]
    refine ⟨⟨t.order - 1, by omega⟩, t, ?_, s, ?_, rfl⟩
    · simp only
      rw [show t.order - 1 + 1 = t.order by omega]
      exact mem_trees t
    · simp only
      rw [show n + 1 - (t.order - 1) = s.order by omega]
      exact mem_trees s

instance (T : Tableau ℚ) (t : Tree) : Decidable (Satisfies T t) := by unfold Satisfies; infer_instance

theorem hasOrder_of (n : Nat) (T : Tableau ℚ) (h : ∀ m, m ≤ n → ∀ t ∈ trees m, Satisfies T t) (hr : ∀ r ∈ T.stages, r.2.sum = r.1) :
    HasOrder n T := ⟨fun t ht => h t.order ht t (mem_trees t), hr⟩

/-! ### The kernels are Runge-Kutta methods -/

section
variable {K : Type} [Field K] [CharZero K]

theorem ee_eq (f : K → K → K × K → K × K) (p : Pt K) :
    ee (total f) p = .ok { p with lon := (euler.step (fun t => f t p.depth) p.time p.dt (p.lon, p.lat)).1
                                  lat := (euler.step (fun t => f t p.depth) p.time p.dt (p.lon, p.lat)).2 } := by
  simp [ee, total, Tableau.step, euler, slopes, comb, mul_comm]

theorem rk4_eq (f : K → K → K × K → K × K) (p : Pt K) :
    rk4 (total f) p = .ok { p with lon := (classical.step (fun t => f t p.depth) p.time p.dt (p.lon, p.lat)).1
                                   lat := (classical.step (fun t => f t p.depth) p.time p.dt (p.lon, p.lat)).2 } := by
  have h1 : ∀ x u : K, x + u * (1 / 2) * p.dt = x + p.dt * (1 / 2 * u) := by intro x u; ring
  have h2 : ∀ x u : K, x + u * p.dt = x + p.dt * u := by intro x u; ring
  simp [rk4, total, Tableau.step, classical, slopes, comb]
  simp only [← one_div, h1, h2]
  constructor <;> ring

theorem rk45_eq (f : K → K → K × K → K × K) (p : Pt K) :
    rk45Sol (total f) p = .ok ((fehlberg4.step (fun t => f t p.depth) p.time p.dt (p.lon, p.lat)).1,
      (fehlberg4.step (fun t => f t p.depth) p.time p.dt (p.lon, p.lat)).2,
      (fehlberg5.step (fun t => f t p.depth) p.time p.dt (p.lon, p.lat)).1,
      (fehlberg5.step (fun t => f t p.depth) p.time p.dt (p.lon, p.lat)).2) := by
  simp only [rk45Sol, total, Tableau.step, fehlberg4, fehlberg5, fehlbergStages, slopes, comb, List.zipWith_nil_left,
    List.zipWith_cons_cons, List.sum_nil, List.sum_cons, List.nil_append, List.cons_append, mul_zero, add_zero, zero_mul, one_mul]
  have h1 : ∀ x u a : K, x + u * a * p.dt = x + p.dt * (a * u) := by intros; ring
  have h2 : ∀ x u1 u2 a b : K, x + (u1 * a + u2 * b) * p.dt = x + p.dt * (a * u1 + b * u2) := by intros; ring
  have h3 : ∀ x u1 u2 u3 a b c : K, x + (u1 * a + u2 * b + u3 * c) * p.dt = x + p.dt * (a * u1 + (b * u2 + c * u3)) := by
    intros; ring
  have h4 : ∀ x u1 u2 u3 u4 a b c d : K, x + (u1 * a + u2 * b + u3 * c + u4 * d) * p.dt =
      x + p.dt * (a * u1 + (b * u2 + (c * u3 + d * u4))) := by intros; ring
  have h5 : ∀ x u1 u2 u3 u4 u5 a b c d e : K, x + (u1 * a + u2 * b + u3 * c + u4 * d + u5 * e) * p.dt =
      x + p.dt * (a * u1 + (b * u2 + (c * u3 + (d * u4 + e * u5)))) := by intros; ring
  have h6 : ∀ x u1 u3 u4 u5 a c d e : K, x + (u1 * a + u3 * c + u4 * d + u5 * e) * p.dt =
      x + p.dt * (a * u1 + (c * u3 + (d * u4 + e * u5))) := by intros; ring
  simp only [h1, h2, h3, h4, h5, zero_add]

end

/-! ### Antiderivatives -/

theorem primitive_deriv (a : Fin 4 → ℝ) (t : ℝ) : HasDerivAt (primitive a) (cubic a t) t := by
  have h1 := (hasDerivAt_id t).const_mul (a 0)
  have h2 := ((hasDerivAt_pow 2 t).const_mul (a 1)).div_const 2
  have h3 := ((hasDerivAt_pow 3 t).const_mul (a 2)).div_const 3
  have h4 := ((hasDerivAt_pow 4 t).const_mul (a 3)).div_const 4
  have h := ((h1.add h2).add h3).add h4
  have e : a 0 * 1 + a 1 * (((2 : ℕ) : ℝ) * t ^ (2 - 1)) / 2 + a 2 * (((3 : ℕ) : ℝ) * t ^ (3 - 1)) / 3 +
      a 3 * (((4 : ℕ) : ℝ) * t ^ (4 - 1)) / 4 = cubic a t := by
    unfold cubic
    push_cast
    ring
  have e' : primitive a = fun t => a 0 * t + a 1 * t ^ 2 / 2 + a 2 * t ^ 3 / 3 + a 3 * t ^ 4 / 4 := by
    funext t
    unfold primitive
    ring
  rw [← e, e']
  exact h

theorem antiderivative (a : Fin 4 → ℝ) (A : ℝ → ℝ) (h : ∀ t, HasDerivAt A (cubic a t) t) (s t : ℝ) :
    A t - A s = primitive a t - primitive a s := by
  have hd : ∀ x, HasDerivAt (fun x => A x - primitive a x) 0 x := by
    intro x
    have := (h x).sub (primitive_deriv a x)
    rwa [sub_self] at this
  have := is_const_of_deriv_eq_zero (fun x => (hd x).differentiableAt) (fun x => (hd x).deriv) t s
  linarith

/-! ### Quantities that executions keep -/

section
variable {W V X : Type}

/-- Unless the kernel asks for a repetition or raises, the quantity after the step is that before it. -/
def Keeps (K : Kern W V) (q : ℚ → V → X) : Prop :=
  ∀ w p c, (K w p).2.res = .ret c → c ≠ some .repeat → q ((K w p).2.p.time + (K w p).2.p.dt) (K w p).2.p.vars = q p.time p.vars

theorem step_keeps {K : Kern W V} {q : ℚ → V → X} (h : Keeps K q) (E dt : ℚ) (s : KernelLoop.LS W V) :
    q (KernelLoop.step K E dt s).1.p.time (KernelLoop.step K E dt s).1.p.vars = q s.p.time s.p.vars := by
  unfold KernelLoop.step
  simp only
  set pre : Particle V := { s.p with dt := sgn dt * s.dtPos } with hpre
  split
  · rename_i hres
    simp only
    have hk := h s.w pre
    cases hr : (K s.w pre).2.res with
    | exc e => exfalso; unfold KernelLoop.resolve at hres; rw [hr] at hres; cases e <;> simp [KernelLoop.Exc.code] at hres
    | ret c =>
      refine (hk c hr ?_)
      rintro rfl
      unfold KernelLoop.resolve at hres
      rw [hr] at hres
      simp at hres
  · rfl

theorem loop_keeps {K : Kern W V} {q : ℚ → V → X} (h : Keeps K q) (E dt : ℚ) : ∀ (n : Nat) (s s' : KernelLoop.LS W V),
    KernelLoop.loop K E dt n s = some s' → q s'.p.time s'.p.vars = q s.p.time s.p.vars
  | 0, _, _, hs => by cases hs
  | n + 1, s, s', hs => by
    unfold KernelLoop.loop at hs
    split at hs
    · have := step_keeps h E dt s
      rcases hst : KernelLoop.step K E dt s with ⟨s1, b⟩
      rw [hst] at hs this
      cases b with
      | true => obtain rfl := Option.some.inj hs; exact this
      | false => exact (loop_keeps h E dt n s1 s' hs).trans this
    · obtain rfl := Option.some.inj hs
      rfl

theorem exec1_keeps {K : Kern W V} {q : ℚ → V → X} (h : Keeps K q) (E dt : ℚ) (n : Nat) (w : W) (back : Option (Particle V))
    (p : Particle V) (s' : KernelLoop.LS W V) (hs : KernelLoop.exec1 K E dt n w back p = some s') :
    q s'.p.time s'.p.vars = q p.time p.vars := by
  unfold KernelLoop.exec1 at hs
  simp only at hs
  split at hs
  · obtain rfl := Option.some.inj hs
    simp only
    split <;> rfl
  · exact loop_keeps h E dt n _ s' hs

theorem pass_keeps {K : Kern W V} {q : ℚ → V → X} (h : Keeps K q) (E dt : ℚ) (n : Nat) : ∀ (ps : List (Particle V)) (w w' : W)
    (back back' : Option (Particle V)) (rs : List (Particle V × List (KernelLoop.Call V))),
    KernelLoop.pass K E dt n w back ps = some (w', back', rs) →
    List.Forall₂ (fun p r => q r.1.time r.1.vars = q p.time p.vars) ps rs
  | [], w, w', back, back', rs, hs => by
    simp only [KernelLoop.pass, Option.some.injEq, Prod.mk.injEq] at hs
    rw [← hs.2.2]
    exact .nil
  | p :: ps, w, w', back, back', rs, hs => by
    simp only [KernelLoop.pass] at hs
    cases he : KernelLoop.exec1 K E dt n w back p with
    | none => rw [he] at hs; cases hs
    | some s1 =>
      rw [he] at hs
      simp only at hs
      cases hr : KernelLoop.pass K E dt n s1.w s1.back ps with
      | none => rw [hr] at hs; cases hs
      | some x =>
        obtain ⟨w2, b2, rs2⟩ := x
        rw [hr] at hs
        simp only [Option.some.injEq, Prod.mk.injEq] at hs
        rw [← hs.2.2]
        exact .cons (exec1_keeps h E dt n w back p s1 he) (pass_keeps h E dt n ps _ _ _ _ _ hr)

theorem jstep_keeps {K : Kern W V} {q : ℚ → V → X} (h : Keeps K q) (E dt : ℚ) (s : JitLoop.JS W V) :
    q (JitLoop.step K E dt s).1.p.time (JitLoop.step K E dt s).1.p.vars = q s.p.time s.p.vars := by
  unfold JitLoop.step
  simp only
  set pre : Particle V := { s.p with dt := s.dtPos * JitLoop.csgn dt } with hpre
  split
  · rename_i hres
    simp only
    have hk := h s.w pre
    cases hr : (K s.w pre).2.res with
    | exc e =>
      exfalso
      unfold JitLoop.resolve JitLoop.code at hres
      rw [hr] at hres
      cases e <;> simp [KernelLoop.Exc.code] at hres
    | ret c =>
      refine (hk c hr ?_)
      rintro rfl
      unfold JitLoop.resolve JitLoop.code at hres
      rw [hr] at hres
      simp at hres
  · rfl

theorem jloop_keeps {K : Kern W V} {q : ℚ → V → X} (h : Keeps K q) (E dt : ℚ) : ∀ (n : Nat) (s s' : JitLoop.JS W V),
    JitLoop.loop K E dt n s = some s' → q s'.p.time s'.p.vars = q s.p.time s.p.vars
  | 0, _, _, hs => by cases hs
  | n + 1, s, s', hs => by
    unfold JitLoop.loop at hs
    split at hs
    · have := jstep_keeps h E dt s
      rcases hst : JitLoop.step K E dt s with ⟨s1, b⟩
      rw [hst] at hs this
      cases b with
      | true => obtain rfl := Option.some.inj hs; exact this
      | false => exact (jloop_keeps h E dt n s1 s' hs).trans this
    · obtain rfl := Option.some.inj hs
      rfl

theorem jpass_keeps {K : Kern W V} {q : ℚ → V → X} (h : Keeps K q) (E dt : ℚ) (n : Nat) : ∀ (ps : List (Particle V)) (w w' : W)
    (g g' : Option ℚ) (rs : List (Particle V × List (KernelLoop.Call V))), JitLoop.pass K E dt n w g ps = some (w', g', rs) →
    List.Forall₂ (fun p r => q r.1.time r.1.vars = q p.time p.vars) ps rs
  | [], w, w', g, g', rs, hs => by
    simp only [JitLoop.pass, Option.some.injEq, Prod.mk.injEq] at hs
    rw [← hs.2.2]
    exact .nil
  | p :: ps, w, w', g, g', rs, hs => by
    simp only [JitLoop.pass] at hs
    cases he : JitLoop.exec1 K E dt n w g p with
    | none => rw [he] at hs; cases hs
    | some s1 =>
      rw [he] at hs
      simp only at hs
      cases hr : JitLoop.pass K E dt n s1.w s1.nextDt ps with
      | none => rw [hr] at hs; cases hs
      | some x =>
        obtain ⟨w2, b2, rs2⟩ := x
        rw [hr] at hs
        simp only [Option.some.injEq, Prod.mk.injEq] at hs
        rw [← hs.2.2]
        refine .cons ?_ (jpass_keeps h E dt n ps _ _ _ _ _ hr)
        unfold JitLoop.exec1 at he
        simp only at he
        split at he
        · obtain rfl := Option.some.inj he
          simp only
          split <;> rfl
        · exact jloop_keeps h E dt n _ s1 he

theorem keeps_either {K : Kern Unit V} {q : ℚ → V → X} (h : Keeps K q) {E dt : ℚ} {n : Nat} {ps : List (Particle V)}
    {rs : List (Particle V × List (KernelLoop.Call V))}
    (hr : (∃ w back back', KernelLoop.pass K E dt n w back ps = some ((), back', rs)) ∨
      ∃ w g g', JitLoop.pass K E dt n w g ps = some ((), g', rs)) :
    List.Forall₂ (fun p r => q r.1.time r.1.vars = q p.time p.vars) ps rs := by
  rcases hr with ⟨w, back, back', hr⟩ | ⟨w, g, g', hr⟩
  · exact pass_keeps h E dt n ps w () back back' rs hr
  · exact jpass_keeps h E dt n ps w () g g' rs hr

end

end Parcels.Advection
