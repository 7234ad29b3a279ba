import Verif.Proofs.WholeRun
import Verif.Proofs.Schedule

namespace Parcels.WholeRun

open KernelLoop (Particle Kern Exc LS)
open Recovery (TP RMap)
open Schedule (Args Ext After AfterExt NotBefore)

variable {V : Type}

/-! ### Trajectories -/

/-- `trajectory` of identifier, start and variables. -/
def traj (f : Scheme V) (dt t : ℚ) (c : Nat × ℚ × V) : Option (Nat × ℚ × V) :=
  if 0 < (c.2.1 - t) * sgn dt then some c
  else (solution f dt ⌊(t - c.2.1) / dt⌋₊ c.2.1 c.2.2).map fun v => (c.1, t, v)

theorem trajectory_eq (f : Scheme V) (dt t : ℚ) (q : TP V) : trajectory f dt t q = traj f dt t (core q) := rfl

theorem filterMap_core (f : Scheme V) (dt t : ℚ) (ps : List (TP V)) : ps.filterMap (trajectory f dt t) = (ps.map core).filterMap (traj f dt t) := by
  rw [List.filterMap_map]
  rfl

theorem traj_idle (f : Scheme V) {dt T : ℚ} (hdt : dt ≠ 0) (c : Nat × ℚ × V) (h : 0 ≤ (c.2.1 - T) * sgn dt) : traj f dt T c = some c :=
  trajectory_idle f hdt (c.1, ⟨c.2.1, dt, .evaluate, c.2.2⟩) h

theorem traj_steps (f : Scheme V) {dt T : ℚ} (hdt : dt ≠ 0) (c : Nat × ℚ × V) (n : ℕ) (h : T = c.2.1 + n * dt) :
    traj f dt T c = (solution f dt n c.2.1 c.2.2).map fun v => (c.1, T, v) :=
  trajectory_steps f hdt (c.1, ⟨c.2.1, dt, .evaluate, c.2.2⟩) n h

theorem solution_add (f : Scheme V) (dt : ℚ) : ∀ (m n : ℕ) (t : ℚ) (v : V),
    solution f dt (m + n) t v = (solution f dt m t v).bind fun v' => solution f dt n (t + m * dt) v' := by
  intro m
  induction m with
  | zero => intro n t v; simp [solution]
  | succ m ih =>
    intro n t v
    rw [Nat.succ_add, solution, solution]
    cases f t dt v with
    | error e => rfl
    | ok v' =>
      dsimp only
      rw [ih]
      congr 1
      funext x
      congr 1
      push_cast
      ring

theorem diff_sgn (S dt : ℚ) (j m : ℕ) : ((S + j * dt) - (S + m * dt)) * sgn dt = ((j : ℚ) - m) * |dt| := by
  rw [← mul_sgn_self]; ring

theorem grid_le {S dt : ℚ} (hdt : dt ≠ 0) {j m : ℕ} : 0 ≤ ((S + j * dt) - (S + m * dt)) * sgn dt ↔ m ≤ j := by
  rw [diff_sgn]
  have h := abs_pos.mpr hdt
  constructor
  · intro c
    by_contra hc
    have : (j : ℚ) < m := by exact_mod_cast not_le.mp hc
    nlinarith
  · intro c
    have : (m : ℚ) ≤ j := by exact_mod_cast c
    nlinarith

theorem grid_lt {S dt : ℚ} (hdt : dt ≠ 0) {j m : ℕ} : 0 < ((S + j * dt) - (S + m * dt)) * sgn dt ↔ m < j := by
  rw [diff_sgn]
  have h := abs_pos.mpr hdt
  constructor
  · intro c
    by_contra hc
    have : (j : ℚ) ≤ m := by exact_mod_cast not_lt.mp hc
    nlinarith
  · intro c
    have : (m : ℚ) < j := by exact_mod_cast c
    nlinarith

theorem grid_inj {S dt : ℚ} (hdt : dt ≠ 0) {j m : ℕ} (h : S + j * dt = S + m * dt) : j = m := by
  have : ((j : ℚ) - m) * dt = 0 := by linarith
  rcases mul_eq_zero.mp this with h | h
  · have : (j : ℚ) = m := by linarith
    exact_mod_cast this
  · exact absurd h hdt

/-- Going on from `t` is the same as going all the way. -/
theorem traj_comp (f : Scheme V) {S dt : ℚ} (hdt : dt ≠ 0) (c : Nat × ℚ × V) (j m n : ℕ) (hc : c.2.1 = S + j * dt) (hmn : m ≤ n) :
    (traj f dt (S + m * dt) c).bind (traj f dt (S + n * dt)) = traj f dt (S + n * dt) c := by
  rcases Nat.lt_or_ge m j with h | h
  · rw [traj_idle f hdt c (by rw [hc]; exact (grid_le hdt).mpr h.le)]
    rfl
  · have hm : S + m * dt = c.2.1 + ((m - j : ℕ) : ℚ) * dt := by rw [hc, Nat.cast_sub h]; ring
    have hn : S + n * dt = c.2.1 + (((m - j) + (n - m) : ℕ) : ℚ) * dt := by
      rw [hc, Nat.cast_add, Nat.cast_sub h, Nat.cast_sub hmn]; ring
    rw [traj_steps f hdt c _ hm, traj_steps f hdt c _ hn, solution_add]
    cases solution f dt (m - j) c.2.1 c.2.2 with
    | none => rfl
    | some v =>
      simp only [Option.map_some, Option.bind_some]
      rw [traj_steps f hdt _ (n - m) (by rw [Nat.cast_sub hmn]; ring)]
      rw [hm]

theorem traj_isSome (f : Scheme V) {S dt : ℚ} (hdt : dt ≠ 0) (c : Nat × ℚ × V) (j m n : ℕ) (hc : c.2.1 = S + j * dt) (hmn : m ≤ n)
    (h : (traj f dt (S + n * dt) c).isSome) : (traj f dt (S + m * dt) c).isSome := by
  rw [← traj_comp f hdt c j m n hc hmn] at h
  cases hx : traj f dt (S + m * dt) c with
  | none => rw [hx] at h; cases h
  | some _ => rfl

/-- The time at which a particle is on its trajectory. -/
theorem traj_time (f : Scheme V) {S dt : ℚ} (hdt : dt ≠ 0) (c d : Nat × ℚ × V) (j m : ℕ) (hc : c.2.1 = S + j * dt)
    (h : traj f dt (S + m * dt) c = some d) : (m < j ∧ d = c) ∨ (j ≤ m ∧ d.2.1 = S + m * dt) := by
  rcases Nat.lt_or_ge m j with h' | h'
  · rw [traj_idle f hdt c (by rw [hc]; exact (grid_le hdt).mpr h'.le)] at h
    exact Or.inl ⟨h', (Option.some.inj h).symm⟩
  · rw [traj_steps f hdt c (m - j) (by rw [hc, Nat.cast_sub h']; ring)] at h
    rw [Option.map_eq_some_iff] at h
    obtain ⟨v, -, rfl⟩ := h
    exact Or.inr ⟨h', rfl⟩

/-- Particles that start on the grid. -/
def Starts (S dt : ℚ) (ps : List (TP V)) : Prop := ∀ q ∈ ps, ∃ j : ℕ, q.2.time = S + j * dt

/-- The particles are where they should be after `m` steps. -/
structure At (f : Scheme V) (S dt : ℚ) (ps0 : List (TP V)) (m : ℕ) (ps : List (TP V)) : Prop where
  core : ps.map core = ps0.filterMap (trajectory f dt (S + m * dt))
  step : ∀ q ∈ ps, q.2.dt = dt

theorem At.mem {f : Scheme V} {S dt : ℚ} (hdt : dt ≠ 0) {ps0 ps : List (TP V)} (h0 : Starts S dt ps0) {m : ℕ} (h : At f S dt ps0 m ps) (q : TP V)
    (hq : q ∈ ps) : ∃ j : ℕ, m ≤ j ∧ q.2.time = S + j * dt := by
  have : WholeRun.core q ∈ ps.map WholeRun.core := List.mem_map_of_mem hq
  rw [h.core, List.mem_filterMap] at this
  obtain ⟨q0, hq0, e⟩ := this
  obtain ⟨j, hj⟩ := h0 q0 hq0
  rcases traj_time f hdt (WholeRun.core q0) _ j m hj e with ⟨h1, h2⟩ | ⟨h1, h2⟩
  · exact ⟨j, h1.le, by rw [← hj]; exact congrArg (fun x => x.2.1) h2⟩
  · exact ⟨m, le_refl _, h2⟩

theorem At.fits {f : Scheme V} {S dt : ℚ} (hdt : dt ≠ 0) {ps0 ps : List (TP V)} (h0 : Starts S dt ps0) {m : ℕ} (h : At f S dt ps0 m ps) (n : ℕ) :
    ∀ q ∈ ps, q.2.dt = dt ∧ Fits dt (S + n * dt) q := by
  intro q hq
  refine ⟨h.step q hq, ?_⟩
  obtain ⟨j, -, hj⟩ := h.mem hdt h0 q hq
  rcases Nat.lt_or_ge j n with c | c
  · exact Or.inr ⟨n - j - 1, by rw [hj, Nat.cast_sub (by omega : 1 ≤ n - j), Nat.cast_sub c.le]; push_cast; ring⟩
  · exact Or.inl (by rw [hj]; exact (grid_le hdt).mpr c)

/-- The trajectories from the current particles are those from the first ones. -/
theorem At.next {f : Scheme V} {S dt : ℚ} (hdt : dt ≠ 0) {ps0 ps : List (TP V)} (h0 : Starts S dt ps0) {m n : ℕ} (hmn : m ≤ n)
    (h : At f S dt ps0 m ps) : ps.filterMap (trajectory f dt (S + n * dt)) = ps0.filterMap (trajectory f dt (S + n * dt)) := by
  rw [filterMap_core, h.core, List.filterMap_filterMap]
  apply List.filterMap_congr
  intro q hq
  obtain ⟨j, hj⟩ := h0 q hq
  exact traj_comp f hdt (WholeRun.core q) j m n hj hmn

theorem At.some {f : Scheme V} {S dt : ℚ} (hdt : dt ≠ 0) {ps0 ps : List (TP V)} (h0 : Starts S dt ps0) {m n : ℕ} (hmn : m ≤ n)
    (h : At f S dt ps0 m ps) (hs : ∀ q ∈ ps0, (trajectory f dt (S + n * dt) q).isSome) : ∀ q ∈ ps, (trajectory f dt (S + n * dt) q).isSome := by
  intro q hq
  have : WholeRun.core q ∈ ps.map WholeRun.core := List.mem_map_of_mem hq
  rw [h.core, List.mem_filterMap] at this
  obtain ⟨q0, hq0, e⟩ := this
  obtain ⟨j, hj⟩ := h0 q0 hq0
  have h1 := traj_comp f hdt (WholeRun.core q0) j m n hj hmn
  rw [trajectory_eq] at e
  rw [e] at h1
  have h2 := hs q0 hq0
  rw [trajectory_eq, ← h1] at h2
  exact h2

theorem At.none {f : Scheme V} {S dt : ℚ} (hdt : dt ≠ 0) {ps0 ps : List (TP V)} (h0 : Starts S dt ps0) {m n : ℕ} (hmn : m ≤ n)
    (h : At f S dt ps0 m ps) (hm : ∀ q ∈ ps0, (trajectory f dt (S + m * dt) q).isSome)
    (hs : ∃ q ∈ ps0, trajectory f dt (S + n * dt) q = none) : ∃ q ∈ ps, trajectory f dt (S + n * dt) q = none := by
  obtain ⟨q0, hq0, e⟩ := hs
  obtain ⟨j, hj⟩ := h0 q0 hq0
  obtain ⟨d, hd⟩ := Option.isSome_iff_exists.mp (hm q0 hq0)
  have hmem : d ∈ ps0.filterMap (trajectory f dt (S + m * dt)) := List.mem_filterMap.mpr ⟨q0, hq0, hd⟩
  rw [← h.core, List.mem_map] at hmem
  obtain ⟨q, hq, rfl⟩ := hmem
  refine ⟨q, hq, ?_⟩
  have h1 := traj_comp f hdt (WholeRun.core q0) j m n hj hmn
  rw [trajectory_eq] at hd
  rw [hd] at h1
  rw [trajectory_eq] at e
  rw [trajectory_eq, ← e, ← h1]
  rfl

/-! ### Writing -/

/-- What is stored of one particle. -/
def stored (p : Output.P V) : Option (Nat × ℚ × V) := p.time.map fun t => (p.id.toNat, t, p.vals)

theorem stored_view (q : TP V) : stored (view q) = some (core q) := by
  simp [stored, view, core]

theorem records_eq (s : St V) : records s = s.outs.flatMap fun o => o.data.filterMap stored := rfl

theorem toWrite_view {S dt : ℚ} (hdt : dt ≠ 0) (q : TP V) (j m : ℕ) (hj : q.2.time = S + j * dt) (hd : q.2.dt = dt) :
    Output.toWrite (view q) (S + m * dt) = decide (q.2.time = S + m * dt) := by
  have hp := abs_pos.mpr hdt
  simp only [Output.toWrite, view, hd]
  rw [Bool.eq_iff_iff, Bool.and_eq_true, decide_eq_true_eq, decide_eq_true_eq, decide_eq_true_eq, abs_div, abs_of_pos (by norm_num : (0 : ℚ) < 2)]
  constructor
  · rintro ⟨h1, h2⟩
    rw [hj] at h1 h2 ⊢
    by_contra hc
    have hjm : j ≠ m := fun e => hc (by rw [e])
    have h3 : |((j : ℚ) - m) * dt| ≤ |dt| / 2 := abs_le.mpr ⟨by linarith, by linarith⟩
    rw [abs_mul] at h3
    have h4 : (1 : ℚ) ≤ |(j : ℚ) - m| := by
      have : (1 : ℤ) ≤ |(j : ℤ) - m| := Int.one_le_abs (by omega)
      have h5 : ((1 : ℤ) : ℚ) ≤ ((|(j : ℤ) - m| : ℤ) : ℚ) := by exact_mod_cast this
      simpa using h5
    nlinarith
  · intro h
    rw [h]
    constructor <;> linarith

theorem record_filter (f : Scheme V) {S dt : ℚ} (hdt : dt ≠ 0) {ps0 : List (TP V)} (h0 : Starts S dt ps0) (m : ℕ) :
    (ps0.filterMap (trajectory f dt (S + m * dt))).filter (fun c => decide (c.2.1 = S + m * dt)) = ps0.filterMap (record f dt (S + m * dt)) := by
  rw [List.filter_filterMap]
  apply List.filterMap_congr
  intro q hq
  obtain ⟨j, hj⟩ := h0 q hq
  unfold record
  cases ht : trajectory f dt (S + m * dt) q with
  | none => simp
  | some d =>
    rcases traj_time f hdt (core q) d j m hj ht with ⟨h1, h2⟩ | ⟨h1, h2⟩
    · rw [if_pos (by rw [hj]; exact (grid_lt hdt).mpr h1), h2]
      have : ¬ (core q).2.1 = S + m * dt := by
        intro e
        have e' : S + (j : ℚ) * dt = S + m * dt := by rw [← hj]; exact e
        exact absurd (grid_inj hdt e') (by omega)
      simp [Option.filter, this]
    · rw [if_neg (by rw [hj, grid_lt hdt]; omega)]
      simp [Option.filter, h2]

/-- Writing at a time of the grid. -/
theorem write_at {f : Scheme V} {S dt : ℚ} (hdt : dt ≠ 0) {ps0 : List (TP V)} (h0 : Starts S dt ps0) (hasFile : Bool) (s : St V) (m : ℕ)
    (h : At f S dt ps0 m s.ps) : ∃ s', write hasFile s (S + m * dt) = some s' ∧ s'.ps = s.ps ∧ s'.sched = s.sched ∧
      (hasFile = true → s.file.writeOndelete = false → s'.file.writeOndelete = false ∧ s'.file.lasttime = some (S + m * dt) ∧
        records s' = records s ++ if s.file.lasttime = some (S + m * dt) then [] else ps0.filterMap (record f dt (S + m * dt))) := by
  unfold write
  cases hasFile with
  | false => exact ⟨s, rfl, rfl, rfl, fun h => Bool.noConfusion h⟩
  | true =>
    rw [cond_true]
    unfold Output.toDict
    by_cases c1 : s.file.lasttime ≠ some (S + m * dt) ∧ (s.file.writeOndelete = false ∨ Output.Req.regular ≠ .regular)
    · rw [if_pos c1]
      have hch : Output.choose (s.ps.map view) (S + m * dt) .regular =
          ((s.ps.filter fun q => decide (q.2.time = S + m * dt)).map view, s.ps.any fun q => decide (q.2.time = S + m * dt)) := by
        unfold Output.choose
        dsimp only
        rw [List.filter_map, List.any_map]
        have e : ∀ q ∈ s.ps, Output.toWrite (view q) (S + m * dt) = decide (q.2.time = S + m * dt) := by
          intro q hq
          obtain ⟨j, -, hj⟩ := h.mem hdt h0 q hq
          exact toWrite_view hdt q j m hj (h.step q hq)
        congr 1
        · congr 1
          exact List.filter_congr e
        · rw [Bool.eq_iff_iff, List.any_eq_true, List.any_eq_true]
          constructor <;> rintro ⟨q, hq, hq'⟩ <;> refine ⟨q, hq, ?_⟩
          · rw [← e q hq]; exact hq'
          · rw [Function.comp, e q hq]; exact hq'
      have hdata : (bif (Output.choose (s.ps.map view) (S + m * dt) .regular).2 then (Output.choose (s.ps.map view) (S + m * dt) .regular).1 else []) =
          (s.ps.filter fun q => decide (q.2.time = S + m * dt)).map view := by
        rw [hch]
        dsimp only
        cases hb : s.ps.any fun q => decide (q.2.time = S + m * dt) with
        | true => rfl
        | false =>
          rw [cond_false]
          symm
          rw [List.map_eq_nil_iff, List.filter_eq_nil_iff]
          exact List.any_eq_false.mp hb
      have hrec : ((s.ps.filter fun q => decide (q.2.time = S + m * dt)).map view).filterMap stored = ps0.filterMap (record f dt (S + m * dt)) := by
        rw [← record_filter f hdt h0 m, ← h.core, List.filterMap_map, List.filter_map]
        have : (fun q : TP V => stored (view q)) = fun q => some (WholeRun.core q) := funext stored_view
        rw [Function.comp_def, this, List.filterMap_eq_map']
        rfl
      by_cases c2 : (s.ps.map view).isEmpty = true
      · rw [if_pos c2]
        refine ⟨_, rfl, rfl, rfl, fun _ hw => ⟨hw, rfl, ?_⟩⟩
        rw [if_neg c1.1, ← hrec]
        have : s.ps = [] := by simpa using c2
        rw [this]
        simp [records]
      · rw [if_neg c2]
        have hwarn : Output.warnRaises (s.ps.map view) (Output.choose (s.ps.map view) (S + m * dt) .regular).1 (S + m * dt) = false := by
          unfold Output.warnRaises
          rw [Bool.and_eq_false_iff]
          left
          rw [hch, List.any_eq_false]
          intro p hp
          obtain ⟨q, hq, rfl⟩ := List.mem_map.mp hp
          rw [List.mem_filter, decide_eq_true_eq] at hq
          simp [Output.badTime, view, hq.2]
        simp only []
        rw [hwarn, if_neg (by simp)]
        refine ⟨_, rfl, rfl, rfl, fun _ hw => ⟨hw, rfl, ?_⟩⟩
        rw [if_neg c1.1, ← hrec, records_eq, records_eq]
        simp only [List.flatMap_append, List.flatMap_cons, List.flatMap_nil, List.append_nil]
        rw [hdata]
    · rw [if_neg c1]
      refine ⟨_, rfl, rfl, rfl, fun _ hw => ⟨hw, ?_, ?_⟩⟩
      · by_contra hc
        exact c1 ⟨hc, Or.inl hw⟩
      · have : s.file.lasttime = some (S + m * dt) := by
          by_contra hc
          exact c1 ⟨hc, Or.inl hw⟩
        rw [if_pos this]
        simp [records]

end Parcels.WholeRun
