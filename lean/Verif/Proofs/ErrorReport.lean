import Verif.Spec.ErrorReport
import Verif.Proofs.RandomRun4

namespace Parcels.ErrorReport

open KernelLoop (Exc Particle)
open Recovery (TP RMap isError)
open RandomRun (Scheme kernel walk fault visit sweep journey visitFault Swept Ran upTo Ahead stops)
open WholeRun (Opts core Regular)

variable {X : Type}

/-! ### The kernels as schemes -/

def scipyScheme (g : Step X) : Scheme Exceptions (Vars X) := fun w t dt v =>
  match g t dt v with
  | .ok v' => (w, .ok v')
  | .error e => (Function.update w v.id (some e), .error e.kind)

def jitScheme (g : Step X) : Scheme Exceptions (Vars X) := fun w t dt v =>
  match g t dt v with
  | .ok v' => (w, .ok v')
  | .error e => (w, .error e.kind)

theorem scipy_kernel (g : Step X) : scipyKernel g = kernel (scipyScheme g) := by
  funext w p
  simp only [scipyKernel, kernel, scipyScheme]
  cases g p.time p.dt p.vars <;> rfl

theorem jit_kernel (g : Step X) : jitKernel g = kernel (jitScheme g) := by
  funext w p
  simp only [jitKernel, kernel, jitScheme]
  cases g p.time p.dt p.vars <;> rfl

/-- The scheme makes the steps of `g`. -/
structure Makes (f : Scheme Exceptions (Vars X)) (g : Step X) : Prop where
  ok : ∀ w t dt v v', g t dt v = .ok v' → f w t dt v = (w, .ok v')
  error : ∀ w t dt v e, g t dt v = .error e → ∃ w', f w t dt v = (w', .error e.kind)

theorem scipy_makes (g : Step X) : Makes (scipyScheme g) g :=
  ⟨fun w t dt v v' h => by simp [scipyScheme, h], fun w t dt v e h => ⟨Function.update w v.id (some e), by simp only [scipyScheme, h]⟩⟩

theorem jit_makes (g : Step X) : Makes (jitScheme g) g :=
  ⟨fun w t dt v v' h => by simp [jitScheme, h], fun w t dt v e h => ⟨w, by simp only [jitScheme, h]⟩⟩

/-- Where `n` steps lead. -/
def reach (g : Step X) (dt : ℚ) : ℕ → ℚ → Vars X → Option (Vars X)
  | 0, _, v => some v
  | n + 1, t, v =>
    match g t dt v with
    | .ok v' => reach g dt n (t + dt) v'
    | .error _ => none

theorem walk_reach {f : Scheme Exceptions (Vars X)} {g : Step X} (hf : Makes f g) (dt : ℚ) : ∀ n t w v, (walk f dt n t w v).2 = reach g dt n t v
  | 0, _, _, _ => rfl
  | n + 1, t, w, v => by
    rw [walk, reach]
    cases hg : g t dt v with
    | ok v' => rw [hf.ok w t dt v v' hg]; exact walk_reach hf dt n _ _ _
    | error e => obtain ⟨w', h⟩ := hf.error w t dt v e hg; rw [h]

theorem fault_failing {f : Scheme Exceptions (Vars X)} {g : Step X} (hf : Makes f g) (dt : ℚ) :
    ∀ n t w v, fault f dt n t w v = (failing g dt n t v).map fun x => (x.1, x.2.1, x.2.2.kind)
  | 0, _, _, _ => rfl
  | n + 1, t, w, v => by
    rw [fault, failing]
    cases hg : g t dt v with
    | ok v' => rw [hf.ok w t dt v v' hg]; exact fault_failing hf dt n _ _ _
    | error e => obtain ⟨w', h⟩ := hf.error w t dt v e hg; rw [h]; rfl

theorem reach_none (g : Step X) (dt : ℚ) : ∀ n t v, reach g dt n t v = none ↔ failing g dt n t v ≠ none
  | 0, _, _ => by simp [reach, failing]
  | n + 1, t, v => by
    rw [reach, failing]
    cases g t dt v with
    | ok v' => exact reach_none g dt n _ _
    | error e => simp

theorem failing_add (g : Step X) (dt : ℚ) (n : ℕ) : ∀ m t v v', reach g dt m t v = some v' → failing g dt (m + n) t v = failing g dt n (t + m * dt) v'
  | 0, t, v, v', h => by
    simp only [reach, Option.some.injEq] at h
    subst h
    simp
  | m + 1, t, v, v', h => by
    rw [reach] at h
    rw [show m + 1 + n = (m + n) + 1 by omega, failing]
    cases hg : g t dt v with
    | ok v1 =>
      rw [hg] at h
      dsimp only at h ⊢
      rw [failing_add g dt n m _ _ _ h]
      congr 1
      push_cast
      ring
    | error e => rw [hg] at h; cases h

theorem failing_mono (g : Step X) (dt : ℚ) (n : ℕ) : ∀ m t v x, failing g dt m t v = some x → failing g dt (m + n) t v = some x
  | 0, t, v, x, h => by cases h
  | m + 1, t, v, x, h => by
    rw [failing] at h
    rw [show m + 1 + n = (m + n) + 1 by omega, failing]
    cases hg : g t dt v with
    | ok v1 => rw [hg] at h; exact failing_mono g dt n m _ _ _ h
    | error e => rw [hg] at h; exact h

/-! ### On the grid of steps -/

theorem late_iff {S dt t : ℚ} (hdt : dt ≠ 0) {j n : ℕ} (ht : t = S + j * dt) : 0 < (t - (S + n * dt)) * sgn dt ↔ n < j := by
  rw [ht, show S + j * dt - (S + n * dt) = ((j : ℚ) - n) * dt by ring, mul_assoc, WholeRun.mul_sgn_self]
  have : 0 < |dt| := abs_pos.mpr hdt
  rw [mul_pos_iff_of_pos_right this, sub_pos]
  exact Nat.cast_lt

theorem steps_floor {S dt t : ℚ} (hdt : dt ≠ 0) {j n : ℕ} (ht : t = S + j * dt) (h : j ≤ n) : ⌊(S + n * dt - t) / dt⌋₊ = n - j := by
  rw [ht, show S + n * dt - (S + j * dt) = ((n : ℚ) - j) * dt by ring, mul_div_assoc, div_self hdt, mul_one, ← Nat.cast_sub h, Nat.floor_natCast]

theorem failure_grid (g : Step X) {S dt : ℚ} (hdt : dt ≠ 0) (q : TP (Vars X)) (j n : ℕ) (hj : q.2.time = S + j * dt) :
    failure g dt (S + n * dt) q = failing g dt (n - j) q.2.time q.2.vars := by
  unfold failure
  by_cases c : n < j
  · rw [if_pos ((late_iff hdt hj).mpr c), Nat.sub_eq_zero_of_le c.le]
    rfl
  · rw [if_neg (fun h => c ((late_iff hdt hj).mp h)), steps_floor hdt hj (not_lt.mp c)]

theorem visit_grid {f : Scheme Exceptions (Vars X)} {g : Step X} (hf : Makes f g) {S dt : ℚ} (hdt : dt ≠ 0) (w : Exceptions) (c : ℕ × ℚ × Vars X) (j n : ℕ)
    (hj : c.2.1 = S + j * dt) : (visit f dt (S + n * dt) w c).2 = (reach g dt (n - j) c.2.1 c.2.2).map fun v => (c.1, S + (max n j : ℕ) * dt, v) := by
  unfold visit
  by_cases h : n < j
  · rw [if_pos ((late_iff hdt hj).mpr h), Nat.sub_eq_zero_of_le h.le, max_eq_right h.le, ← hj]
    rfl
  · rw [if_neg (fun h' => h ((late_iff hdt hj).mp h')), steps_floor hdt hj (not_lt.mp h), max_eq_left (not_lt.mp h)]
    dsimp only
    rw [walk_reach hf]

theorem visitFault_grid {f : Scheme Exceptions (Vars X)} {g : Step X} (hf : Makes f g) {S dt : ℚ} (hdt : dt ≠ 0) (w : Exceptions) (c : ℕ × ℚ × Vars X) (j n : ℕ)
    (hj : c.2.1 = S + j * dt) : visitFault f dt (S + n * dt) w c = (failing g dt (n - j) c.2.1 c.2.2).map fun x => (x.1, x.2.1, x.2.2.kind) := by
  unfold visitFault
  by_cases h : n < j
  · rw [if_pos ((late_iff hdt hj).mpr h), Nat.sub_eq_zero_of_le h.le]
    rfl
  · rw [if_neg (fun h' => h ((late_iff hdt hj).mp h')), steps_floor hdt hj (not_lt.mp h), fault_failing hf]

/-! ### Until the stop before -/

/-- `c` has become `c'` at step `m`, and nothing has failed. -/
def Became (g : Step X) (S dt : ℚ) (m : ℕ) (c c' : ℕ × ℚ × Vars X) : Prop :=
  ∃ j : ℕ, c.2.1 = S + j * dt ∧ reach g dt (m - j) c.2.1 c.2.2 = some c'.2.2 ∧ c'.2.1 = S + (max m j : ℕ) * dt

theorem became_zero (g : Step X) {S dt : ℚ} {c : ℕ × ℚ × Vars X} (h : ∃ j : ℕ, c.2.1 = S + j * dt) : Became g S dt 0 c c := by
  obtain ⟨j, hj⟩ := h
  exact ⟨j, hj, by rw [Nat.zero_sub]; rfl, by rw [Nat.zero_max]; exact hj⟩

theorem reach_add (g : Step X) (dt : ℚ) (n : ℕ) : ∀ m t v v', reach g dt m t v = some v' → reach g dt (m + n) t v = reach g dt n (t + m * dt) v'
  | 0, t, v, v', h => by
    simp only [reach, Option.some.injEq] at h
    subst h
    simp
  | m + 1, t, v, v', h => by
    rw [reach] at h
    rw [show m + 1 + n = (m + n) + 1 by omega, reach]
    cases hg : g t dt v with
    | ok v1 =>
      rw [hg] at h
      dsimp only at h ⊢
      rw [reach_add g dt n m _ _ _ h]
      congr 1
      push_cast
      ring
    | error e => rw [hg] at h; cases h

theorem time_add {S dt t : ℚ} {j m : ℕ} (hj : t = S + j * dt) : t + (m - j : ℕ) * dt = S + (max m j : ℕ) * dt := by
  rw [hj]
  rcases Nat.le_total m j with h | h
  · rw [Nat.sub_eq_zero_of_le h, max_eq_right h]; simp
  · rw [max_eq_left h, Nat.cast_sub h]; ring

theorem steps_add {j m n : ℕ} (h : m ≤ n) : n - j = (m - j) + (n - max m j) := by
  rcases Nat.le_total m j with c | c
  · rw [max_eq_right c]; omega
  · rw [max_eq_left c]; omega

theorem became_failing {g : Step X} {S dt : ℚ} {m : ℕ} {c c' : ℕ × ℚ × Vars X} (h : Became g S dt m c c') (n : ℕ) (hn : m ≤ n) :
    ∃ j j' : ℕ, c.2.1 = S + j * dt ∧ c'.2.1 = S + j' * dt ∧ failing g dt (n - j) c.2.1 c.2.2 = failing g dt (n - j') c'.2.1 c'.2.2 := by
  obtain ⟨j, h1, h2, h3⟩ := h
  refine ⟨j, max m j, h1, h3, ?_⟩
  rw [steps_add hn, failing_add g dt _ _ _ _ _ h2, time_add h1, h3]

theorem became_next {f : Scheme Exceptions (Vars X)} {g : Step X} (hf : Makes f g) {S dt : ℚ} (hdt : dt ≠ 0) {m n : ℕ} (hn : m ≤ n) {c c' c'' : ℕ × ℚ × Vars X}
    (h : Became g S dt m c c') (w : Exceptions) (hv : (visit f dt (S + n * dt) w c').2 = some c'') : Became g S dt n c c'' := by
  obtain ⟨j, h1, h2, h3⟩ := h
  rw [visit_grid hf hdt w c' (max m j) n h3, Option.map_eq_some_iff] at hv
  obtain ⟨v, hv1, rfl⟩ := hv
  refine ⟨j, h1, ?_, ?_⟩
  · rw [steps_add hn, reach_add g dt _ _ _ _ _ h2, time_add h1, ← h3]
    exact hv1
  · show S + ((max n (max m j) : ℕ) : ℚ) * dt = _
    rw [← max_assoc, max_eq_left hn]

theorem sweep_pairs (f : Scheme Exceptions (Vars X)) (dt T : ℚ) : ∀ (cs : List (ℕ × ℚ × Vars X)) (w : Exceptions), (sweep f dt T w cs).2.length = cs.length →
    List.Forall₂ (fun c c' => ∃ w, (visit f dt T w c).2 = some c') cs (sweep f dt T w cs).2
  | [], _, _ => List.Forall₂.nil
  | c :: cs, w, h => by
    rw [sweep] at h ⊢
    dsimp only at h ⊢
    have hle := RandomRun.sweep_length f dt T (visit f dt T w c).1 cs
    cases hv : (visit f dt T w c).2 with
    | none =>
      rw [hv] at h
      simp only [Option.toList_none, List.nil_append, List.length_cons] at h
      omega
    | some c' =>
      rw [hv] at h
      simp only [Option.toList_some, List.cons_append, List.nil_append, List.length_cons, add_left_inj] at h ⊢
      exact List.Forall₂.cons ⟨w, hv⟩ (sweep_pairs f dt T cs _ h)

theorem forall₂_trans {A : Type} {P Q R : A → A → Prop} (h : ∀ a b c, P a b → Q b c → R a c) : ∀ {as bs cs : List A}, List.Forall₂ P as bs → List.Forall₂ Q bs cs → List.Forall₂ R as cs
  | _, _, _, .nil, .nil => .nil
  | _, _, _, .cons h1 t1, .cons h2 t2 => .cons (h _ _ _ h1 h2) (forall₂_trans h t1 t2)

/-- As long as no particle has failed, every particle has become what its steps lead to. -/
theorem journey_became {f : Scheme Exceptions (Vars X)} {g : Step X} (hf : Makes f g) {S dt : ℚ} (hdt : dt ≠ 0) (cs0 : List (ℕ × ℚ × Vars X)) :
    ∀ (ns : List ℕ) (m k : ℕ) (w : Exceptions) (cs : List (ℕ × ℚ × Vars X)), List.Forall₂ (Became g S dt m) cs0 cs → (∀ n ∈ ns, m ≤ n ∧ n ≤ k) → ns.Pairwise (· < ·) → m ≤ k →
      (journey f dt (ns.map fun n : ℕ => S + n * dt) w cs).2.length = cs.length →
      ∃ m', m ≤ m' ∧ m' ≤ k ∧ List.Forall₂ (Became g S dt m') cs0 (journey f dt (ns.map fun n : ℕ => S + n * dt) w cs).2 ∧ ∀ n ∈ ns, n ≤ m'
  | [], m, k, w, cs, h, _, _, hmk, _ => ⟨m, le_rfl, hmk, h, fun _ h => by cases h⟩
  | n :: ns, m, k, w, cs, h, hk, hp, hmk, hlen => by
    rw [List.map_cons, journey] at hlen ⊢
    have h1 := RandomRun.sweep_length f dt (S + n * dt) w cs
    have h2 := RandomRun.journey_length f dt (ns.map fun n : ℕ => S + n * dt) (sweep f dt (S + n * dt) w cs).1 (sweep f dt (S + n * dt) w cs).2
    have h3 := sweep_pairs f dt (S + n * dt) cs w (le_antisymm h1 (hlen ▸ h2))
    obtain ⟨hmn, hnk⟩ := hk n List.mem_cons_self
    have h4 : List.Forall₂ (Became g S dt n) cs0 (sweep f dt (S + n * dt) w cs).2 :=
      forall₂_trans (fun a b c hab ⟨w, hbc⟩ => became_next hf hdt hmn hab w hbc) h h3
    rw [List.pairwise_cons] at hp
    obtain ⟨m', e0, e1, e2, e3⟩ := journey_became hf hdt cs0 ns n k _ _ h4 (fun l hl => ⟨(hp.1 l hl).le, (hk l (List.mem_cons_of_mem _ hl)).2⟩) hp.2 hnk
      (le_antisymm h2 (by rw [hlen]; exact h1))
    refine ⟨m', hmn.trans e0, e1, e2, fun l hl => ?_⟩
    rcases List.mem_cons.mp hl with rfl | hl
    · exact e0
    · exact e3 l hl

/-- The same for the stops of a run. -/
theorem upTo_became {f : Scheme Exceptions (Vars X)} {g : Step X} (hf : Makes f g) {o : Opts} {S : ℚ} {N : ℕ} (hdt : o.dt ≠ 0) (m : ℕ) (w : Exceptions)
    (cs : List (ℕ × ℚ × Vars X)) (hcs : ∀ c ∈ cs, ∃ j : ℕ, c.2.1 = S + j * o.dt)
    (hlen : (journey f o.dt (upTo o S N m) w cs).2.length = cs.length) :
    ∃ m' ≤ m, List.Forall₂ (Became g S o.dt m') cs (journey f o.dt (upTo o S N m) w cs).2 ∧ ∀ T ∈ upTo o S N m, ∃ n : ℕ, n ≤ m' ∧ T = S + n * o.dt := by
  have h0 : List.Forall₂ (Became g S o.dt 0) cs cs := by
    rw [List.forall₂_same]
    exact fun c hc => became_zero g (hcs c hc)
  obtain ⟨m', -, e1, e2, e3⟩ := journey_became hf hdt cs ((List.range' 1 m).filter fun n => decide (RandomRun.Stops o N n)) 0 m w cs h0 (fun n hn => by
    rw [List.mem_filter, List.mem_range'_1] at hn
    omega) (List.Pairwise.filter _ List.pairwise_lt_range') (Nat.zero_le _) hlen
  refine ⟨m', e1, e2, fun T hT => ?_⟩
  obtain ⟨n, hn, rfl⟩ := List.mem_map.mp hT
  exact ⟨n, e3 n hn, rfl⟩

/-! ### At the stop that is not reached -/

/-- The first particle with an error. -/
theorem first_error {f : Scheme Exceptions (Vars X)} {g : Step X} (hf : Makes f g) {S dt : ℚ} (hdt : dt ≠ 0) {n : ℕ} {w w' : Exceptions} {qs rs : List (TP (Vars X))}
    (h : Swept f dt (S + n * dt) w qs w' rs) (hgrid : ∀ q ∈ qs, ∃ j : ℕ, q.2.time = S + j * dt) (hex : ∃ r ∈ rs, isError r.2) :
    ∃ pre q post w1 r t v e, qs = pre ++ q :: post ∧ (∀ p ∈ pre, failure g dt (S + n * dt) p = none) ∧ failure g dt (S + n * dt) q = some (t, v, e) ∧
      rs.find? (fun r => decide (isError r.2)) = some r ∧ r.2 = ⟨t, dt, e.kind.code, v⟩ ∧
      ∃ rs', Swept f dt (S + n * dt) (visit f dt (S + n * dt) w1 (core q)).1 post w' rs' := by
  induction h with
  | nil w => obtain ⟨r, hr, -⟩ := hex; cases hr
  | @cons w w' q r qs rs h1 h2 ih =>
    obtain ⟨j, hj⟩ := hgrid q List.mem_cons_self
    obtain ⟨c1, -, -⟩ := RandomRun.ran_code h1
    have hfail := failure_grid g hdt q j n hj
    have hvis := visit_grid hf hdt w (core q) j n hj
    have hvf := visitFault_grid hf hdt w (core q) j n hj
    by_cases c : isError r.2
    · have hnone := c1.mp c
      obtain ⟨t, v, e, hd, hr⟩ := h1.bad hnone
      rw [hvf, Option.map_eq_some_iff] at hd
      obtain ⟨⟨t', v', e'⟩, hd1, hd2⟩ := hd
      simp only [Prod.mk.injEq] at hd2
      obtain ⟨rfl, rfl, rfl⟩ := hd2
      exact ⟨[], q, qs, w, r, t', v', e', rfl, fun p hp => (by cases hp), by rw [hfail]; exact hd1, List.find?_cons_of_pos (by simpa using c), hr, rs, h2⟩
    · obtain ⟨pre, q', post, w1, r', t, v, e, k1, k2, k3, k4, k5, k6⟩ := ih (fun p hp => hgrid p (List.mem_cons_of_mem _ hp)) (by
        obtain ⟨x, hx, hx'⟩ := hex
        rcases List.mem_cons.mp hx with rfl | hx
        · exact absurd hx' c
        · exact ⟨x, hx, hx'⟩)
      refine ⟨q :: pre, q', post, w1, r', t, v, e, by rw [k1]; rfl, fun p hp => ?_, k3, by rw [List.find?_cons_of_neg (by simpa using c)]; exact k4, k5, k6⟩
      rcases List.mem_cons.mp hp with rfl | hp
      · rw [hfail]
        by_contra hne
        have := (reach_none g dt (n - j) p.2.time p.2.vars).mpr hne
        refine c (c1.mpr ?_)
        rw [hvis]
        show Option.map _ (reach g dt (n - j) p.2.time p.2.vars) = none
        rw [this]
        rfl
      · exact k2 p hp

/-! ### The exceptions that are kept -/

/-- The steps keep the identifier. -/
def Keeps (g : Step X) : Prop := ∀ t dt v v', g t dt v = .ok v' → v'.id = v.id

theorem reach_id {g : Step X} (hg : Keeps g) (dt : ℚ) : ∀ n t v v', reach g dt n t v = some v' → v'.id = v.id
  | 0, t, v, v', h => by simp only [reach, Option.some.injEq] at h; rw [h]
  | n + 1, t, v, v', h => by
    rw [reach] at h
    cases hv : g t dt v with
    | ok v1 => rw [hv] at h; exact (reach_id hg dt n _ _ _ h).trans (hg _ _ _ _ hv)
    | error e => rw [hv] at h; cases h

theorem failing_id {g : Step X} (hg : Keeps g) (dt : ℚ) : ∀ n t v t' v' e, failing g dt n t v = some (t', v', e) → v'.id = v.id
  | 0, t, v, t', v', e, h => by cases h
  | n + 1, t, v, t', v', e, h => by
    rw [failing] at h
    cases hv : g t dt v with
    | ok v1 => rw [hv] at h; exact (failing_id hg dt n _ _ _ _ _ h).trans (hg _ _ _ _ hv)
    | error e' =>
      rw [hv] at h
      simp only [Option.some.injEq, Prod.mk.injEq] at h
      rw [h.2.1]

theorem walk_other {g : Step X} (hg : Keeps g) (dt : ℚ) (i : ℕ) : ∀ n t w v, i ≠ v.id → (walk (scipyScheme g) dt n t w v).1 i = w i
  | 0, _, _, _, _ => rfl
  | n + 1, t, w, v, hi => by
    rw [walk, scipyScheme]
    cases hv : g t dt v with
    | ok v1 => exact walk_other hg dt i n _ _ _ (by rw [hg _ _ _ _ hv]; exact hi)
    | error e => exact Function.update_of_ne hi _ _

theorem walk_fail {g : Step X} (hg : Keeps g) (dt : ℚ) : ∀ n t w v t' v' e, failing g dt n t v = some (t', v', e) → (walk (scipyScheme g) dt n t w v).1 v.id = some e
  | 0, t, w, v, t', v', e, h => by cases h
  | n + 1, t, w, v, t', v', e, h => by
    rw [failing] at h
    rw [walk, scipyScheme]
    cases hv : g t dt v with
    | ok v1 =>
      rw [hv] at h
      have := walk_fail hg dt n (t + dt) w v1 t' v' e h
      rw [hg _ _ _ _ hv] at this
      exact this
    | error e' =>
      rw [hv] at h
      simp only [Option.some.injEq, Prod.mk.injEq] at h
      rw [← h.2.2]
      exact Function.update_self _ _ _

theorem visit_other {g : Step X} (hg : Keeps g) (dt T : ℚ) (i : ℕ) (w : Exceptions) (c : ℕ × ℚ × Vars X) (hi : i ≠ c.2.2.id) :
    (visit (scipyScheme g) dt T w c).1 i = w i := by
  unfold visit
  split
  · rfl
  · exact walk_other hg dt i _ _ _ _ hi

theorem swept_other {g : Step X} (hg : Keeps g) {dt T : ℚ} (i : ℕ) {w w' : Exceptions} {qs rs : List (TP (Vars X))} (h : Swept (scipyScheme g) dt T w qs w' rs)
    (hi : ∀ q ∈ qs, i ≠ q.2.vars.id) : w' i = w i := by
  induction h with
  | nil w => rfl
  | @cons w w' q r qs rs h1 h2 ih =>
    rw [ih (fun p hp => hi p (List.mem_cons_of_mem _ hp))]
    exact visit_other hg dt T i w (core q) (hi q List.mem_cons_self)

theorem visit_fail {g : Step X} (hg : Keeps g) {S dt : ℚ} (hdt : dt ≠ 0) {n j : ℕ} (w : Exceptions) (q : TP (Vars X)) (hj : q.2.time = S + j * dt) {t : ℚ} {v : Vars X} {e : Raised}
    (h : failure g dt (S + n * dt) q = some (t, v, e)) : (visit (scipyScheme g) dt (S + n * dt) w (core q)).1 q.2.vars.id = some e := by
  rw [failure_grid g hdt q j n hj] at h
  unfold visit
  by_cases c : n < j
  · rw [Nat.sub_eq_zero_of_le c.le] at h
    cases h
  · rw [if_neg (fun h' => c ((late_iff hdt (show (core q).2.1 = _ from hj)).mp h')), steps_floor hdt (show (core q).2.1 = _ from hj) (not_lt.mp c)]
    exact walk_fail hg dt _ _ _ _ _ _ _ h

theorem walk_jit (g : Step X) (dt : ℚ) : ∀ n t w v, (walk (jitScheme g) dt n t w v).1 = w
  | 0, _, _, _ => rfl
  | n + 1, t, w, v => by
    rw [walk, jitScheme]
    cases g t dt v with
    | ok v1 => exact walk_jit g dt n _ _ _
    | error e => rfl

theorem visit_jit (g : Step X) (dt T : ℚ) (w : Exceptions) (c : ℕ × ℚ × Vars X) : (visit (jitScheme g) dt T w c).1 = w := by
  unfold visit
  split
  · rfl
  · exact walk_jit g dt _ _ _ _

theorem swept_jit {g : Step X} {dt T : ℚ} {w w' : Exceptions} {qs rs : List (TP (Vars X))} (h : Swept (jitScheme g) dt T w qs w' rs) : w' = w := by
  induction h with
  | nil w => rfl
  | @cons w w' q r qs rs h1 h2 ih => rw [ih, visit_jit]

theorem sweep_jit (g : Step X) (dt T : ℚ) : ∀ cs w, (sweep (jitScheme g) dt T w cs).1 = w
  | [], _ => rfl
  | c :: cs, w => by
    rw [sweep]
    dsimp only
    rw [sweep_jit g dt T cs, visit_jit]

theorem journey_jit (g : Step X) (dt : ℚ) : ∀ ts w cs, (journey (jitScheme g) dt ts w cs).1 = w
  | [], _, _ => rfl
  | t :: ts, w, cs => by
    rw [journey, journey_jit g dt ts, sweep_jit]

/-! ### The whole run -/

theorem split₂ {A B : Type} {R : A → B → Prop} : ∀ {as : List A} {pre post : List B} {b : B}, List.Forall₂ R as (pre ++ b :: post) →
    ∃ pre' a post', as = pre' ++ a :: post' ∧ List.Forall₂ R pre' pre ∧ R a b ∧ List.Forall₂ R post' post
  | _, [], _, _, .cons h t => ⟨[], _, _, rfl, .nil, h, t⟩
  | _, _ :: _, _, _, .cons h t => by
    obtain ⟨pre', a, post', e1, e2, e3, e4⟩ := split₂ t
    exact ⟨_ :: pre', a, post', by rw [e1]; rfl, .cons h e2, e3, e4⟩

/-- Everything about the run that raised, except what the message says about the exception. -/
theorem raised_facts {f : Scheme Exceptions (Vars X)} {g : Step X} (hf : Makes f g) (hg : Keeps g) {exec : RandomRun.Exec Exceptions (Vars X)}
    (hm : RandomRun.IsMode (kernel f) (fun _ => none) exec) {o : Opts} {S : ℚ} {N : ℕ} {ps : List (TP (Vars X))} (h : Regular o S N ps) (hl : RandomRun.Loaded o)
    (hids : (ps.map fun q => q.2.vars.id).Nodup) (w w' : Exceptions)
    (fuel : ℕ) (file : Output.PFile) (s : WholeRun.St (Vars X)) (hr : RandomRun.execute o exec fuel w file ps = some (.raised s, w')) :
    ∃ T q t v e, StopsAt g o.dt (stops o S N) ps T q t v e ∧ q ∈ ps ∧ v.id = q.2.vars.id ∧
      (∃ r, s.ps.find? (fun r => decide (isError r.2)) = some r ∧ r.2 = ⟨t, o.dt, e.kind.code, v⟩) ∧
      (∃ ts n j w1 q' post rs', T = S + (n : ℕ) * o.dt ∧ q'.2.time = S + (j : ℕ) * o.dt ∧ q'.2.vars.id = v.id ∧ failure g o.dt T q' = some (t, v, e) ∧
        (∀ p ∈ post, v.id ≠ p.2.vars.id) ∧ Swept f o.dt T (visit f o.dt T w1 (core q')).1 post w' rs' ∧
        ∃ qs rs, Swept f o.dt T (journey f o.dt ts w (ps.map core)).1 qs w' rs) := by
  have hne := WholeRun.ne_zero_of h.step
  have hu : RandomRun.Raises (fun _ => none : RMap Exceptions (Vars X)) := fun e => by cases e <;> exact ⟨_, rfl, fun _ _ => rfl⟩
  have hbad : (journey f o.dt (stops o S N) w (ps.map core)).2.length < ps.length := by
    by_contra hc
    have hle := RandomRun.journey_length f o.dt (stops o S N) w (ps.map core)
    rw [List.length_map] at hle
    obtain ⟨s', w'', e, -⟩ := RandomRun.execute_good h hl (RandomRun.mode_effect hm h.step) w (Or.inr (by omega)) fuel file _ hr
    cases e
  obtain ⟨s', w'', e0, m, n, us, w1, qs, hmn, hnN, hup, hj, hlen, hah, hsw, hlt⟩ := RandomRun.execute_bad h hl (RandomRun.mode_effect hm h.step) w hu hbad fuel file _ hr
  obtain ⟨rfl, rfl⟩ : s = s' ∧ w' = w'' := by cases e0; exact ⟨rfl, rfl⟩
  have hgrid : ∀ c ∈ ps.map core, ∃ j : ℕ, c.2.1 = S + j * o.dt := by
    intro c hc
    obtain ⟨q, hq, rfl⟩ := List.mem_map.mp hc
    exact h.starts q hq
  obtain ⟨m', hm', hb, hts⟩ := upTo_became (N := N) hf hne m w (ps.map core) hgrid (by rw [← hj]; simpa using hlen)
  rw [← hj] at hb
  dsimp only at hb
  set ev : TP (Vars X) → TP (Vars X) := fun q => (q.1, { q.2 with state := Code.evaluate }) with hev
  have hb' : List.Forall₂ (fun p q => Became g S o.dt m' (core p) (core q)) ps (qs.map ev) := by
    rw [List.forall₂_map_left_iff, List.forall₂_map_right_iff] at hb
    rw [List.forall₂_map_right_iff]
    exact hb
  have hfacts := RandomRun.swept_facts hsw
  have hcore : (qs.map ev).map core = qs.map core := by rw [List.map_map]; rfl
  have hex : ∃ r ∈ s.ps, isError r.2 := by
    obtain ⟨-, -, -, -, -, k, -⟩ := hfacts
    rw [k, hcore, List.length_map]
    exact hlt
  have hgrid' : ∀ q ∈ qs.map ev, ∃ j : ℕ, q.2.time = S + j * o.dt := by
    intro q hq
    obtain ⟨p, hp, rfl⟩ := List.mem_map.mp hq
    obtain ⟨-, j, -, e⟩ := hah p hp
    exact ⟨j, e⟩
  obtain ⟨pre, q', post, w2, r, t, v, e, k1, k2, k3, k4, k5, rs', k6⟩ := first_error hf hne hsw hgrid' hex
  have htrans : ∀ p q : TP (Vars X), Became g S o.dt m' (core p) (core q) → failure g o.dt (S + n * o.dt) p = failure g o.dt (S + n * o.dt) q := by
    intro p q hpq
    obtain ⟨j, j', x1, x2, x3⟩ := became_failing hpq n (by omega)
    rw [failure_grid g hne p j n x1, failure_grid g hne q j' n x2]
    exact x3
  have hid : ∀ p q : TP (Vars X), Became g S o.dt m' (core p) (core q) → q.2.vars.id = p.2.vars.id := by
    rintro p q ⟨j, x1, x2, x3⟩
    exact reach_id hg _ _ _ _ _ x2
  have hids' : ((qs.map ev).map fun q => q.2.vars.id).Nodup := by
    have : ∀ {as bs : List (TP (Vars X))}, List.Forall₂ (fun p q => Became g S o.dt m' (core p) (core q)) as bs →
        bs.map (fun q => q.2.vars.id) = as.map fun q => q.2.vars.id := by
      intro as bs hab
      induction hab with
      | nil => rfl
      | cons x _ ih => rw [List.map_cons, List.map_cons, ih, hid _ _ x]
    rw [this hb']
    exact hids
  rw [k1] at hb'
  obtain ⟨pre', q, post', p1, p2, p3, p4⟩ := split₂ hb'
  have hq' : q' ∈ qs.map ev := by rw [k1]; simp
  obtain ⟨j, hj'⟩ := hgrid' q' hq'
  have hvid : v.id = q'.2.vars.id := by
    rw [failure_grid g hne q' j n hj'] at k3
    exact failing_id hg _ _ _ _ _ _ _ k3
  refine ⟨S + n * o.dt, q, t, v, e, ⟨⟨upTo o S N m, us, hup, ?_⟩, ⟨pre', post', p1, ?_⟩, (htrans q q' p3).trans k3⟩, by rw [p1]; simp,
    hvid.trans (hid _ _ p3), ⟨r, k4, k5⟩, upTo o S N m, n, j, w2, q', post, rs', rfl, hj', hvid.symm, k3, ?_, k6, qs.map ev, s.ps, ?_⟩
  · intro T hT p hp
    obtain ⟨l, hl1, rfl⟩ := hts T hT
    obtain ⟨b, -, jp, x1, x2, -⟩ : ∃ b ∈ pre ++ q' :: post, Became g S o.dt m' (core p) (core b) := by
      have : ∀ {as bs : List (TP (Vars X))}, List.Forall₂ (fun p q => Became g S o.dt m' (core p) (core q)) as bs → ∀ a ∈ as, ∃ b ∈ bs, Became g S o.dt m' (core a) (core b) := by
        intro as bs hab
        induction hab with
        | nil => intro a ha; cases ha
        | cons x _ ih =>
          intro a ha
          rcases List.mem_cons.mp ha with rfl | ha
          · exact ⟨_, List.mem_cons_self, x⟩
          · obtain ⟨b, hb1, hb2⟩ := ih a ha
            exact ⟨b, List.mem_cons_of_mem _ hb1, hb2⟩
      exact this hb' p hp
    rw [failure_grid g hne p jp l x1]
    by_contra hc
    obtain ⟨x, hx⟩ := Option.ne_none_iff_exists'.mp hc
    have := failing_mono g o.dt ((m' - jp) - (l - jp)) _ _ _ _ hx
    rw [Nat.add_sub_cancel' (by omega)] at this
    have hn := (reach_none g o.dt (m' - jp) p.2.time p.2.vars).mpr (by rw [this]; simp)
    rw [show reach g o.dt (m' - jp) p.2.time p.2.vars = some (core b).2.2 from x2] at hn
    cases hn
  · intro p hp
    have : ∀ {as bs : List (TP (Vars X))}, List.Forall₂ (fun p q => Became g S o.dt m' (core p) (core q)) as bs → (∀ b ∈ bs, failure g o.dt (S + n * o.dt) b = none) →
        ∀ a ∈ as, failure g o.dt (S + n * o.dt) a = none := by
      intro as bs hab
      induction hab with
      | nil => intro _ a ha; cases ha
      | cons x _ ih =>
        intro hbs a ha
        rcases List.mem_cons.mp ha with rfl | ha
        · rw [htrans _ _ x]; exact hbs _ List.mem_cons_self
        · exact ih (fun b hb => hbs b (List.mem_cons_of_mem _ hb)) a ha
    exact this p2 k2 p hp
  · intro p hp
    rw [hvid]
    rw [k1, List.map_append, List.map_cons] at hids'
    have := (List.nodup_append.mp hids').2.1
    rw [List.nodup_cons] at this
    exact fun hc => this.1 (List.mem_map.mpr ⟨p, hp, hc.symm⟩)
  · rw [← hj]
    exact hsw

/-- If a particle fails before the end, the journey ends with fewer particles. -/
theorem journey_short {f : Scheme Exceptions (Vars X)} {g : Step X} (hf : Makes f g) {o : Opts} {S : ℚ} {N : ℕ} {ps : List (TP (Vars X))} (h : Regular o S N ps)
    (w : Exceptions) (hbad : ∃ q ∈ ps, failure g o.dt (S + N * o.dt) q ≠ none) : (journey f o.dt (stops o S N) w (ps.map core)).2.length < ps.length := by
  have hne := WholeRun.ne_zero_of h.step
  by_contra hc
  have hle := RandomRun.journey_length f o.dt (stops o S N) w (ps.map core)
  rw [List.length_map] at hle
  have hgrid : ∀ c ∈ ps.map core, ∃ j : ℕ, c.2.1 = S + j * o.dt := by
    intro c hc
    obtain ⟨q, hq, rfl⟩ := List.mem_map.mp hc
    exact h.starts q hq
  obtain ⟨m', hm', hb, hts⟩ := upTo_became (N := N) hf hne N w (ps.map core) hgrid (by rw [List.length_map]; exact le_antisymm hle (not_lt.mp hc))
  have hN0 : 0 < N := by
    rcases Nat.eq_zero_or_pos N with rfl | hN
    · have := h.length
      norm_num at this
    · exact hN
  obtain ⟨ns, -, -, hns⟩ := RandomRun.stops_last o S N hN0
  obtain ⟨n, hn, hn'⟩ := hts (S + N * o.dt) (by show _ ∈ stops o S N; rw [hns, List.map_append]; simp)
  have hN : N = n := WholeRun.grid_inj hne hn'
  have hm : m' = N := by omega
  obtain ⟨q, hq, hq'⟩ := hbad
  have hmem : ∀ {as bs : List (ℕ × ℚ × Vars X)}, List.Forall₂ (Became g S o.dt m') as bs → ∀ a ∈ as, ∃ b, Became g S o.dt m' a b := by
    intro as bs hab
    induction hab with
    | nil => intro a ha; cases ha
    | cons x _ ih =>
      intro a ha
      rcases List.mem_cons.mp ha with rfl | ha
      · exact ⟨_, x⟩
      · exact ih a ha
  obtain ⟨b, j, x1, x2, -⟩ := hmem hb (core q) (List.mem_map.mpr ⟨q, hq, rfl⟩)
  rw [failure_grid g hne q j N x1, ← hm] at hq'
  have := (reach_none g o.dt (m' - j) q.2.time q.2.vars).mpr hq'
  rw [show reach g o.dt (m' - j) q.2.time q.2.vars = some b.2.2 from x2] at this
  cases this

end Parcels.ErrorReport
