import Verif.Proofs.GridRun2
import Verif.Proofs.WholeRun4

namespace Parcels.GridRun

open Search Interp TimeInterp
open KernelLoop (Exc)
open WholeRun (Scheme solution trajectory record core Regular startTime)
open Recovery (TP)

variable {V : Type}

/-! ### Programs -/

theorem follow_scipy {fs : Nat → Fld} (hf : ∀ i, Sound (fs i)) {val : Nat → (t z y x : ℚ) → Option ℚ} (hv : Interpolates fs val) :
    ∀ p : Prog V, (∀ v, follow val p = some v → scipy fs p = .ok v) ∧ (follow val p = none → ∃ e, scipy fs p = .error e) := by
  intro p
  induction p with
  | ret v => exact ⟨fun w h => by rw [← Option.some.inj h]; rfl, fun h => by cases h⟩
  | fail e => exact ⟨fun w h => (by cases h), fun _ => ⟨e, rfl⟩⟩
  | get f t z y x k ih =>
    rw [follow, scipy]
    cases hw : val f t z y x with
    | none =>
      refine ⟨fun w h => (by cases h), fun _ => ?_⟩
      cases he : eval (fs f) t z y x with
      | error e => exact ⟨e, rfl⟩
      | ok w =>
        rw [eval_iff (hf f), ← hv, hw] at he
        cases he
    | some w =>
      rw [(eval_iff (hf f) t z y x w).mpr ((hv _ _ _ _ _ _).mp hw)]
      exact ih w

theorem hint_ok {fs : Nat → Fld} {hs : Nat → Hint} (h : Hints fs hs) (i : Nat) : HintOk (fs i) (hs (fs i).igrid) := h i

theorem hints_update {fs : Nat → Fld} (hg : Grids fs) {hs : Nat → Hint} (h : Hints fs hs) (i : Nat) {h' : Hint} (h2 : HintOk (fs i) h') :
    Hints fs (Function.update hs (fs i).igrid h') := by
  intro j
  by_cases e : (fs j).igrid = (fs i).igrid
  · obtain ⟨e1, e2⟩ := hg j i e
    rw [e, Function.update_self, e1, e2]
    exact h2
  · rw [Function.update_of_ne e]
    exact h j

theorem follow_jit {fs : Nat → Fld} (hf : ∀ i, Sound (fs i)) (hg : Grids fs) {val : Nat → (t z y x : ℚ) → Option ℚ} (hv : Interpolates fs val) :
    ∀ (p : Prog V) (hs : Nat → Hint), Hints fs hs →
      (∀ v, follow val p = some v → ∃ hs', jit fs p hs = .ok (v, hs') ∧ Hints fs hs') ∧ (follow val p = none → ∃ e, jit fs p hs = .error e) := by
  intro p
  induction p with
  | ret v => exact fun hs hh => ⟨fun w h => ⟨hs, by rw [← Option.some.inj h]; rfl, hh⟩, fun h => by cases h⟩
  | fail e => exact fun hs hh => ⟨fun w h => (by cases h), fun _ => ⟨e, rfl⟩⟩
  | get f t z y x k ih =>
    intro hs hh
    rw [follow, jit]
    cases hw : val f t z y x with
    | none =>
      refine ⟨fun w h => (by cases h), fun _ => ?_⟩
      cases he : cEval (fs f) t z y x (hs (fs f).igrid) with
      | error e => exact ⟨e, rfl⟩
      | ok r =>
        obtain ⟨w, h'⟩ := r
        have e := cEval_shape he
        rw [e, cEval_iff (hf f) (hint_ok hh f), ← hv, hw] at he
        cases he
    | some w =>
      rw [(cEval_iff (hf f) (hint_ok hh f) t z y x w).mpr ((hv _ _ _ _ _ _).mp hw)]
      exact ih w _ (hints_update hg hh f (remember_ok (hf f) t z y x (hint_ok hh f)))

/-! ### Solutions -/

theorem solution_scipy {fs : Nat → Fld} (hf : ∀ i, Sound (fs i)) {val : Nat → (t z y x : ℚ) → Option ℚ} (hv : Interpolates fs val) (b : Body V) (dt : ℚ) :
    ∀ (n : Nat) (t : ℚ) (v : V), solution (scipyScheme fs b) dt n t v = solution (refScheme val b) dt n t v := by
  intro n
  induction n with
  | zero => intro t v; rfl
  | succ n ih =>
    intro t v
    rw [solution, solution]
    obtain ⟨h1, h2⟩ := follow_scipy hf hv (b t dt v)
    unfold refScheme scipyScheme
    cases hw : follow val (b t dt v) with
    | none =>
      obtain ⟨e, he⟩ := h2 hw
      rw [he]
    | some v' =>
      rw [h1 v' hw]
      exact ih _ _

theorem solution_jit {fs : Nat → Fld} (hf : ∀ i, Sound (fs i)) (hg : Grids fs) {val : Nat → (t z y x : ℚ) → Option ℚ} (hv : Interpolates fs val)
    (b : Body V) (dt : ℚ) : ∀ (n : Nat) (t : ℚ) (v : V) (hs : Nat → Hint), Hints fs hs →
      (solution (jitScheme fs b) dt n t (v, hs)).map Prod.fst = solution (refScheme val b) dt n t v := by
  intro n
  induction n with
  | zero => intro t v hs _; rfl
  | succ n ih =>
    intro t v hs hh
    rw [solution, solution]
    obtain ⟨h1, h2⟩ := follow_jit hf hg hv (b t dt v) hs hh
    unfold refScheme jitScheme
    dsimp only
    cases hw : follow val (b t dt v) with
    | none =>
      obtain ⟨e, he⟩ := h2 hw
      rw [he]
      rfl
    | some v' =>
      obtain ⟨hs', he, hh'⟩ := h1 v' hw
      rw [he]
      exact ih _ _ _ hh'

theorem trajectory_scipy {fs : Nat → Fld} (hf : ∀ i, Sound (fs i)) {val : Nat → (t z y x : ℚ) → Option ℚ} (hv : Interpolates fs val) (b : Body V) :
    trajectory (scipyScheme fs b) = trajectory (refScheme val b) := by
  funext dt t q
  unfold trajectory
  rw [solution_scipy hf hv]

theorem trajectory_jit {fs : Nat → Fld} (hf : ∀ i, Sound (fs i)) (hg : Grids fs) {val : Nat → (t z y x : ℚ) → Option ℚ} (hv : Interpolates fs val)
    (b : Body V) (dt t : ℚ) (q : TP (V × (Nat → Hint))) (hq : Hints fs q.2.vars.2) :
    (trajectory (jitScheme fs b) dt t q).map bare = trajectory (refScheme val b) dt t (strip q) := by
  unfold trajectory
  by_cases c : 0 < (q.2.time - t) * sgn dt
  · rw [if_pos c, if_pos (show 0 < ((strip q).2.time - t) * sgn dt from c)]
    rfl
  · rw [if_neg c, if_neg (show ¬ 0 < ((strip q).2.time - t) * sgn dt from c)]
    have := solution_jit hf hg hv b dt ⌊(t - q.2.time) / dt⌋₊ q.2.time q.2.vars.1 q.2.vars.2 hq
    show Option.map bare (Option.map _ (solution (jitScheme fs b) dt ⌊(t - q.2.time) / dt⌋₊ q.2.time (q.2.vars.1, q.2.vars.2))) =
      Option.map _ (solution (refScheme val b) dt ⌊(t - q.2.time) / dt⌋₊ q.2.time q.2.vars.1)
    rw [← this, Option.map_map, Option.map_map]
    rfl

theorem record_jit {fs : Nat → Fld} (hf : ∀ i, Sound (fs i)) (hg : Grids fs) {val : Nat → (t z y x : ℚ) → Option ℚ} (hv : Interpolates fs val)
    (b : Body V) (dt t : ℚ) (q : TP (V × (Nat → Hint))) (hq : Hints fs q.2.vars.2) :
    (record (jitScheme fs b) dt t q).map bare = record (refScheme val b) dt t (strip q) := by
  unfold record
  by_cases c : 0 < (q.2.time - t) * sgn dt
  · rw [if_pos c, if_pos (show 0 < ((strip q).2.time - t) * sgn dt from c)]
    rfl
  · rw [if_neg c, if_neg (show ¬ 0 < ((strip q).2.time - t) * sgn dt from c)]
    exact trajectory_jit hf hg hv b dt t q hq

theorem filterMap_bare {α β γ δ : Type} (f : α → Option β) (g : γ → Option δ) (m : β → δ) (s : α → γ) :
    ∀ l : List α, (∀ a ∈ l, (f a).map m = g (s a)) → (l.filterMap f).map m = (l.map s).filterMap g := by
  intro l
  induction l with
  | nil => intro _; rfl
  | cons a l ih =>
    intro h
    have h1 := h a List.mem_cons_self
    have h2 := ih fun x hx => h x (List.mem_cons_of_mem _ hx)
    rw [List.map_cons, List.filterMap_cons, List.filterMap_cons, ← h1]
    cases f a with
    | none => exact h2
    | some c =>
      rw [Option.map_some]
      dsimp only
      rw [List.map_cons, h2]

theorem regular_strip {o : WholeRun.Opts} {S : ℚ} {N : ℕ} {ps : List (TP (V × (Nat → Hint)))} (h : Regular o S N ps) : Regular o S N (ps.map strip) := by
  refine ⟨(by obtain ⟨q, hq, e⟩ := h.start; exact ⟨strip q, List.mem_map_of_mem hq, e⟩), h.step, h.length, h.end_, h.output, h.movie, h.callback, h.ahead, h.input, ?_⟩
  intro q hq
  obtain ⟨r, hr, rfl⟩ := List.mem_map.mp hq
  exact h.starts r hr

/-! ### Uniform flow -/

theorem interpolates_exists {fs : Nat → Fld} (hf : ∀ i, Sound (fs i)) : ∃ val, Interpolates fs val := by
  refine ⟨fun i t z y x => (eval (fs i) t z y x).toOption, fun i t z y x w => ?_⟩
  rw [← eval_iff (hf i)]
  show (eval (fs i) t z y x).toOption = some w ↔ _
  cases eval (fs i) t z y x with
  | error e => exact ⟨fun h => (by cases h), fun h => by cases h⟩
  | ok v => exact ⟨fun h => (by rw [← Option.some.inj h]), fun h => by injection h with h; rw [← h]; rfl⟩

theorem fieldValue_constant {f : Fld} {c : ℚ} (hc : Constant f c) (hlen : 1 ≤ f.time.length) {t z y x w : ℚ} (h : FieldValue f t z y x w) : w = c := by
  obtain ⟨v, hv, ht⟩ := h
  have hvc : ∀ i, i < f.time.length → v i = c := by
    intro i hi
    obtain ⟨n, m, r, s, -, -, h2, h3⟩ := hv i hi
    rcases Nat.lt_or_ge f.grid.depth.length 2 with k | k
    · rw [h2 (by omega)]
      unfold bilinearAt lerp
      simp only [hc i]
      ring
    · obtain ⟨k', q, -, e⟩ := h3 k
      rw [e]
      unfold trilinearAt bilinearAt lerp
      simp only [hc i]
      ring
  rcases ht with ⟨i, hi, rfl⟩ | ⟨i, r, hl, rfl⟩ | ⟨-, -, rfl⟩ | ⟨-, -, rfl⟩
  · exact hvc i (List.getElem?_eq_some_iff.mp hi).1
  · obtain ⟨n, e, hn⟩ := locates_nat hl
    have e' : i = n := by exact_mod_cast e
    rw [hvc i (by omega), hvc (i + 1) (by omega)]
    unfold lerp
    ring
  · exact hvc 0 (by omega)
  · exact hvc _ (by omega)

theorem covers_value {f : Fld} (hf : Sound f) {t z y x : ℚ} (h : Covers f t z y x) : ∃ w, FieldValue f t z y x w := by
  obtain ⟨h1, h2, h3, h4⟩ := h
  obtain ⟨n, r, hx⟩ := located hf.lonInc hf.lonLen h1
  obtain ⟨m, s, hy⟩ := located hf.latInc hf.latLen h2
  obtain ⟨val, hval⟩ : ∃ val : Arr → ℚ, ∀ d, SpaceValue f.grid d z y x (val d) := by
    rcases Nat.lt_or_ge f.grid.depth.length 2 with c | c
    · exact ⟨fun d => bilinearAt d 0 m n s r, fun d => ⟨n, m, r, s, hx, hy, fun _ => rfl, fun h => by omega⟩⟩
    · obtain ⟨k, q, hz⟩ := located (hf.depth.resolve_left (by omega)) c (h3 c)
      exact ⟨fun d => trilinearAt d k m n q s r, fun d => ⟨n, m, r, s, hx, hy, fun h => by omega, fun _ => ⟨k, q, hz, rfl⟩⟩⟩
  rcases time_total hf.timeInc hf.timeLen f.extrap t (fun i => val (f.data i)) with ⟨w, hw⟩ | ⟨c, hc⟩
  · exact ⟨w, _, fun i _ => hval _, hw⟩
  · exfalso
    rcases h4 with h4 | ⟨a, b, ha, hb, h5, h6⟩
    · rw [h4] at c; cases c
    · obtain ⟨i, hi, rfl⟩ := List.getElem_of_mem ha
      obtain ⟨j, hj, rfl⟩ := List.getElem_of_mem hb
      have e1 := inc_le hf.timeInc (Nat.zero_le i) hi
      have e2 := inc_le hf.timeInc (show j ≤ f.time.length - 1 by omega) (by omega)
      rw [List.getD_eq_getElem _ 0 hi] at e1
      rw [List.getD_eq_getElem _ 0 hj] at e2
      rw [headD_getD, getLastD_getD] at hc
      rcases hc with hc | hc <;> linarith

theorem locates_inRange {l : List ℚ} {x r : ℚ} {n : ℕ} (h : Locates l x n r) : InRange l x := by
  obtain ⟨m, a, b, -, ha, hb, h0, h1, e⟩ := h
  have ma := List.mem_of_getElem? ha
  have mb := List.mem_of_getElem? hb
  rcases le_total a b with c | c
  · exact ⟨a, b, ma, mb, by nlinarith, by nlinarith⟩
  · exact ⟨b, a, mb, ma, by nlinarith, by nlinarith⟩

theorem value_covers {f : Fld} (hf : Sound f) {t z y x w : ℚ} (h : FieldValue f t z y x w) : Covers f t z y x := by
  obtain ⟨v, hv, ht⟩ := h
  obtain ⟨n, m, r, s, h1, h2, -, h3⟩ := hv 0 hf.timeLen
  refine ⟨locates_inRange h1, locates_inRange h2, fun c => ?_, ?_⟩
  · obtain ⟨k, q, h4, -⟩ := h3 c
    exact locates_inRange h4
  · rcases ht with ⟨i, hi, -⟩ | ⟨i, r, hl, -⟩ | ⟨e, -, -⟩ | ⟨e, -, -⟩
    · exact Or.inr ⟨t, t, List.mem_of_getElem? hi, List.mem_of_getElem? hi, le_rfl, le_rfl⟩
    · exact Or.inr (locates_inRange hl)
    · exact Or.inl e
    · exact Or.inl e

theorem filterMap_length {α β : Type} {f : α → Option β} : ∀ {l : List α}, (∀ a ∈ l, (f a).isSome) → (l.filterMap f).length = l.length := by
  intro l
  induction l with
  | nil => intro _; rfl
  | cons a l ih =>
    intro h
    obtain ⟨b, hb⟩ := Option.isSome_iff_exists.mp (h a List.mem_cons_self)
    rw [List.filterMap_cons_some hb, List.length_cons, List.length_cons, ih fun x hx => h x (List.mem_cons_of_mem _ hx)]

theorem inRange_between {l : List ℚ} {a b : ℚ} (ha : InRange l a) (hb : InRange l b) {w : ℚ} (h0 : 0 ≤ w) (h1 : w ≤ 1) : InRange l (a + w * (b - a)) := by
  obtain ⟨p, q, p1, q1, p2, q2⟩ := ha
  obtain ⟨p', q', p1', q1', p2', q2'⟩ := hb
  rcases le_total a b with c | c
  · exact ⟨p, q', p1, q1', by nlinarith, by nlinarith⟩
  · exact ⟨p', q, p1', q1, by nlinarith, by nlinarith⟩

theorem covers_between {f : Fld} {t t' z y y' x x' : ℚ} (h : Covers f t z y x) (h' : Covers f t' z y' x') {w : ℚ} (h0 : 0 ≤ w) (h1 : w ≤ 1) :
    Covers f (t + w * (t' - t)) z (y + w * (y' - y)) (x + w * (x' - x)) :=
  ⟨inRange_between h.1 h'.1 h0 h1, inRange_between h.2.1 h'.2.1 h0 h1, h.2.2.1, by
    rcases h.2.2.2 with c | c
    · exact Or.inl c
    · rcases h'.2.2.2 with c' | c'
      · exact Or.inl c'
      · exact Or.inr (inRange_between c c' h0 h1)⟩

theorem covers_val {fs : Nat → Fld} (hf : ∀ i, Sound (fs i)) {val : Nat → (t z y x : ℚ) → Option ℚ} (hv : Interpolates fs val) {i : Nat} {c : ℚ}
    (hc : Constant (fs i) c) {t z y x : ℚ} (h : Covers (fs i) t z y x) : val i t z y x = some c := by
  obtain ⟨w, hw⟩ := covers_value (hf i) h
  rw [fieldValue_constant hc (hf i).timeLen hw] at hw
  exact (hv _ _ _ _ _ _).mpr hw

/-- One step of the Runge-Kutta kernel in a uniform flow, if all of the step is covered. -/
theorem rk4_step_uniform {fs : Nat → Fld} (hf : ∀ i, Sound (fs i)) {val : Nat → (t z y x : ℚ) → Option ℚ} (hv : Interpolates fs val) {u v : ℚ}
    (hu : Constant (fs 0) u) (hv' : Constant (fs 1) v) (t dt x y z : ℚ)
    (hc : ∀ w : ℚ, 0 ≤ w → w ≤ 1 → ∀ i, i = 0 ∨ i = 1 → Covers (fs i) (t + w * dt) z (y + w * (v * dt)) (x + w * (u * dt))) :
    refScheme val rk4 t dt (x, y, z) = .ok (x + u * dt, y + v * dt, z) := by
  have k1 : ∀ i, i = 0 ∨ i = 1 → Covers (fs i) t z y x := by
    intro i hi; have := hc 0 le_rfl (by norm_num) i hi; simpa using this
  have k2 : ∀ i, i = 0 ∨ i = 1 → Covers (fs i) (t + 1 / 2 * dt) z (y + v * (1 / 2) * dt) (x + u * (1 / 2) * dt) := by
    intro i hi; have := hc (1 / 2) (by norm_num) (by norm_num) i hi
    rw [show y + v * (1 / 2) * dt = y + 1 / 2 * (v * dt) by ring, show x + u * (1 / 2) * dt = x + 1 / 2 * (u * dt) by ring]
    exact this
  have k3 : ∀ i, i = 0 ∨ i = 1 → Covers (fs i) (t + dt) z (y + v * dt) (x + u * dt) := by
    intro i hi; have := hc 1 (by norm_num) le_rfl i hi; simpa using this
  have a : ∀ {t z y x}, (∀ i, i = 0 ∨ i = 1 → Covers (fs i) t z y x) → val 0 t z y x = some u ∧ val 1 t z y x = some v := fun h =>
    ⟨covers_val hf hv hu (h 0 (Or.inl rfl)), covers_val hf hv hv' (h 1 (Or.inr rfl))⟩
  unfold refScheme rk4 uv
  simp only [follow, (a k1).1, (a k1).2, (a k2).1, (a k2).2, (a k3).1, (a k3).2]
  congr 2
  · ring
  · congr 1
    ring

theorem solution_uniform {fs : Nat → Fld} (hf : ∀ i, Sound (fs i)) {val : Nat → (t z y x : ℚ) → Option ℚ} (hv : Interpolates fs val) {u v : ℚ}
    (hu : Constant (fs 0) u) (hv' : Constant (fs 1) v) (dt : ℚ) : ∀ (n : Nat) (t x y z : ℚ),
    (∀ i, i = 0 ∨ i = 1 → Covers (fs i) t z y x ∧ Covers (fs i) (t + n * dt) z (y + v * (n * dt)) (x + u * (n * dt))) →
    solution (refScheme val rk4) dt n t (x, y, z) = some (x + u * (n * dt), y + v * (n * dt), z) := by
  intro n
  induction n with
  | zero => intro t x y z _; simp [solution]
  | succ n ih =>
    intro t x y z h
    have hn : (0 : ℚ) < ((n + 1 : ℕ) : ℚ) := by exact_mod_cast Nat.succ_pos n
    have hc : ∀ w : ℚ, 0 ≤ w → w ≤ 1 → ∀ i, i = 0 ∨ i = 1 → Covers (fs i) (t + w * dt) z (y + w * (v * dt)) (x + w * (u * dt)) := by
      intro w w0 w1 i hi
      have hw : w / ((n + 1 : ℕ) : ℚ) ≤ 1 := by
        rw [div_le_one hn]
        have : (1 : ℚ) ≤ ((n + 1 : ℕ) : ℚ) := by exact_mod_cast Nat.succ_le_succ (Nat.zero_le n)
        linarith
      have := covers_between (h i hi).1 (h i hi).2 (div_nonneg w0 hn.le) hw
      have e1 : w / ((n + 1 : ℕ) : ℚ) * (t + ((n + 1 : ℕ) : ℚ) * dt - t) = w * dt := by field_simp; ring
      have e2 : w / ((n + 1 : ℕ) : ℚ) * (y + v * (((n + 1 : ℕ) : ℚ) * dt) - y) = w * (v * dt) := by field_simp; ring
      have e3 : w / ((n + 1 : ℕ) : ℚ) * (x + u * (((n + 1 : ℕ) : ℚ) * dt) - x) = w * (u * dt) := by field_simp; ring
      rw [e1, e2, e3] at this
      exact this
    rw [solution, rk4_step_uniform hf hv hu hv' t dt x y z hc]
    dsimp only
    rw [ih]
    · congr 2
      · push_cast; ring
      · congr 1
        push_cast; ring
    · intro i hi
      refine ⟨?_, ?_⟩
      · have := hc 1 (by norm_num) le_rfl i hi
        simpa using this
      · have := (h i hi).2
        rw [show t + dt + (n : ℚ) * dt = t + ((n + 1 : ℕ) : ℚ) * dt by push_cast; ring,
          show y + v * dt + v * ((n : ℚ) * dt) = y + v * (((n + 1 : ℕ) : ℚ) * dt) by push_cast; ring,
          show x + u * dt + u * ((n : ℚ) * dt) = x + u * (((n + 1 : ℕ) : ℚ) * dt) by push_cast; ring]
        exact this

end Parcels.GridRun
