import Verif.Proofs.RandomRun3

namespace Parcels.RandomRun

open KernelLoop (Particle Kern Exc LS)
open Recovery (TP RMap)
open WholeRun (St Run Opts Until Regular records core grid_le grid_lt grid_inj ne_zero_of outputTimes)

variable {W V : Type}

/-! ### Splitting a run -/

theorem regular_second {o : Opts} {S : ℚ} {N M : ℕ} {ps ps1 : List (TP V)} (h : Regular o S N ps) (u : Until) (hah : Ahead S o.dt N ps1)
    (hsome : ∃ q ∈ ps1, q.2.time = S + N * o.dt) (hlen : 1 / 100000 ≤ M * |o.dt|)
    (hu : match u with | .runtime r => r = M * |o.dt| | .endtime e => e = S + N * o.dt + M * o.dt) :
    Regular (o.lasting u) (S + N * o.dt) M ps1 := by
  refine ⟨hsome, h.step, hlen, hu, h.output, h.movie, h.callback, h.ahead, ?_, ?_⟩
  · intro i t q hq
    obtain ⟨z, hz⟩ := h.input i t q hq
    refine ⟨z - N, ?_⟩
    change q = S + N * o.dt + ((z - N : ℤ) : ℚ) * o.dt
    rw [hz]
    push_cast
    ring
  · intro q hq
    obtain ⟨-, j, h1, h2⟩ := hah q hq
    refine ⟨j - N, ?_⟩
    change q.2.time = S + N * o.dt + ((j - N : ℕ) : ℚ) * o.dt
    rw [h2, Nat.cast_sub h1]
    ring

theorem multiple_steps {dt : ℚ} (hdt : dt ≠ 0) {k N : ℕ} (h : ∃ K : ℕ, N * |dt| = K * (k * |dt|)) : k ∣ N := by
  obtain ⟨K, hK⟩ := h
  rw [← mul_assoc, mul_left_inj' (abs_pos.mpr hdt).ne'] at hK
  exact ⟨K, by rw [Nat.mul_comm]; exact_mod_cast hK⟩

theorem stops_append {o : Opts} {S : ℚ} {N M : ℕ} {ps : List (TP V)} (h : Regular o S N ps) (hM : 0 < M)
    (hne0 : intervals o ≠ []) (hmul : ∀ i ∈ intervals o, ∃ K : ℕ, N * |o.dt| = K * i) :
    stops o S (N + M) = stops o S N ++ stops o (S + N * o.dt) M := by
  have hne := ne_zero_of h.step
  unfold stops
  have hr : List.range' 1 (N + M) = List.range' 1 N ++ (List.range' 1 M).map (N + ·) := by
    rw [← List.range'_append_1, List.map_add_range', Nat.add_comm N 1]
  rw [hr, List.filter_append, List.map_append]
  congr 1
  · congr 1
    apply List.filter_congr
    intro n hn
    rw [List.mem_range'_1] at hn
    rw [decide_eq_decide]
    constructor
    · rintro (e | e)
      · omega
      · exact Or.inr e
    · rintro (e | e)
      · subst e
        right
        obtain ⟨i, hi⟩ := List.exists_mem_of_ne_nil _ hne0
        obtain ⟨k, hk, rfl⟩ := interval_steps h i hi
        exact ⟨_, hi, (multiple_iff hne hk n).mpr (multiple_steps hne (hmul _ hi))⟩
      · exact Or.inr e
  · rw [List.filter_map, List.map_map]
    have hf : (List.range' 1 M).filter ((fun n => decide (Stops o (N + M) n)) ∘ (N + ·)) = (List.range' 1 M).filter fun n => decide (Stops o M n) := by
      apply List.filter_congr
      intro l _
      simp only [Function.comp]
      rw [decide_eq_decide]
      have : ∀ i ∈ intervals o, (⌊((N + l : ℕ) : ℚ) * |o.dt| / i⌋₊ * i = ((N + l : ℕ) : ℚ) * |o.dt| ↔ ⌊(l : ℚ) * |o.dt| / i⌋₊ * i = l * |o.dt|) := by
        intro i hi
        obtain ⟨k, hk, rfl⟩ := interval_steps h i hi
        rw [multiple_iff hne hk, multiple_iff hne hk]
        exact Nat.dvd_add_right (multiple_steps hne (hmul _ hi))
      constructor
      · rintro (e | ⟨i, hi, e⟩)
        · exact Or.inl (by omega)
        · exact Or.inr ⟨i, hi, (this i hi).mp e⟩
      · rintro (e | ⟨i, hi, e⟩)
        · exact Or.inl (by omega)
        · exact Or.inr ⟨i, hi, (this i hi).mpr e⟩
    rw [hf]
    apply List.map_congr_left
    intro l _
    simp only [Function.comp]
    push_cast
    ring

theorem mem_stops {o : Opts} {S : ℚ} {N : ℕ} {t : ℚ} (h : t ∈ stops o S N) : ∃ n : ℕ, 0 < n ∧ n ≤ N ∧ t = S + n * o.dt := by
  unfold stops at h
  obtain ⟨n, hn, rfl⟩ := List.mem_map.mp h
  rw [List.mem_filter, List.mem_range'_1] at hn
  exact ⟨n, by omega, by omega, rfl⟩

/-- The output times of the parts are those of the whole. -/
theorem due_first {S dt : ℚ} (hdt : dt ≠ 0) {k N M n : ℕ} (hk : 0 < k) (hN : k ∣ N) (hM : 0 < M) (h0 : 0 < n) (hn : n ≤ N) :
    S + n * dt ∈ outputTimes S dt (k * |dt|) (N + M) ↔ S + n * dt ∈ outputTimes S dt (k * |dt|) N := by
  rw [mem_outputTimes hdt hk (by omega) h0, mem_outputTimes hdt hk hn h0]
  constructor
  · rintro (e | e)
    · exact Or.inl e
    · omega
  · rintro (e | e)
    · exact Or.inl e
    · exact Or.inl (e ▸ hN)

theorem due_second {S dt : ℚ} (hdt : dt ≠ 0) {k N M l : ℕ} (hk : 0 < k) (hN : k ∣ N) (h0 : 0 < l) (hl : l ≤ M) :
    S + N * dt + l * dt ∈ outputTimes S dt (k * |dt|) (N + M) ↔ S + N * dt + l * dt ∈ outputTimes (S + N * dt) dt (k * |dt|) M := by
  have e : S + N * dt + l * dt = S + ((N + l : ℕ) : ℚ) * dt := by push_cast; ring
  rw [mem_outputTimes hdt hk hl h0, e, mem_outputTimes hdt hk (by omega) (by omega)]
  rw [Nat.dvd_add_right hN]
  constructor
  · rintro (e | e)
    · exact Or.inl e
    · exact Or.inr (by omega)
  · rintro (e | e)
    · exact Or.inl e
    · exact Or.inr (by omega)

/-! ### One particle -/

theorem walk_add (f : Scheme W V) (dt : ℚ) : ∀ (m n : ℕ) (t : ℚ) (w : W) (v : V), walk f dt (m + n) t w v =
    match walk f dt m t w v with
    | (w', some v') => walk f dt n (t + m * dt) w' v'
    | (w', none) => (w', none)
  | 0, n, t, w, v => by simp [walk]
  | m + 1, n, t, w, v => by
    rw [show m + 1 + n = (m + n) + 1 by omega, walk, walk]
    rcases f w t dt v with ⟨w', e | v'⟩
    · rfl
    · dsimp only
      rw [walk_add f dt m n]
      have : t + dt + m * dt = t + ((m + 1 : ℕ) : ℚ) * dt := by push_cast; ring
      rw [this]

theorem journey_nil (f : Scheme W V) (dt : ℚ) : ∀ (ts : List ℚ) (w : W), journey f dt ts w [] = (w, [])
  | [], _ => rfl
  | t :: ts, w => by
    rw [journey, sweep]
    exact journey_nil f dt ts w

theorem journey_one (f : Scheme W V) {S dt : ℚ} (hdt : dt ≠ 0) (i : ℕ) (N : ℕ) : ∀ (ns : List ℕ) (m : ℕ) (w : W) (v : V), (∀ n ∈ ns, m ≤ n ∧ n ≤ N) → m ≤ N →
    ns.Pairwise (· ≤ ·) → journey f dt ((ns ++ [N]).map fun n : ℕ => S + n * dt) w [(i, S + m * dt, v)] =
      ((walk f dt (N - m) (S + m * dt) w v).1, ((walk f dt (N - m) (S + m * dt) w v).2.map fun v => (i, S + N * dt, v)).toList) := by
  intro ns
  induction ns with
  | nil =>
    intro m w v _ hm _
    simp only [List.nil_append, List.map_cons, List.map_nil, journey, sweep, List.append_nil]
    rw [visit_steps f hdt w (i, S + m * dt, v) (N - m) (by rw [Nat.cast_sub hm]; ring)]
  | cons n ns ih =>
    intro m w v hb hm hp
    rw [List.pairwise_cons] at hp
    obtain ⟨h1, h2⟩ := hb n List.mem_cons_self
    simp only [List.cons_append, List.map_cons, journey, sweep, List.append_nil]
    rw [visit_steps f hdt w (i, S + m * dt, v) (n - m) (by rw [Nat.cast_sub h1]; ring)]
    have hw := walk_add f dt (n - m) (N - n) (S + m * dt) w v
    rw [show n - m + (N - n) = N - m by omega] at hw
    rw [hw]
    dsimp only
    rcases walk f dt (n - m) (S + m * dt) w v with ⟨w', _ | v'⟩
    · dsimp only [Option.map_none, Option.toList_none]
      exact journey_nil f dt _ w'
    · dsimp only [Option.map_some, Option.toList_some]
      have e : S + m * dt + ((n - m : ℕ) : ℚ) * dt = S + n * dt := by rw [Nat.cast_sub h1]; ring
      rw [e]
      exact ih n w' v' (fun l hl => ⟨hp.1 l hl, (hb l (List.mem_cons_of_mem _ hl)).2⟩) h2 hp.2

theorem stops_last (o : Opts) (S : ℚ) (N : ℕ) (hN : 0 < N) : ∃ ns : List ℕ, (∀ n ∈ ns, n ≤ N) ∧ ns.Pairwise (· ≤ ·) ∧
    stops o S N = (ns ++ [N]).map fun n : ℕ => S + n * o.dt := by
  obtain ⟨M, rfl⟩ := Nat.exists_eq_add_of_lt hN
  refine ⟨(List.range' 1 M).filter fun n => decide (Stops o (0 + M + 1) n), ?_, ?_, ?_⟩
  · intro n hn
    rw [List.mem_filter, List.mem_range'_1] at hn
    omega
  · apply List.Pairwise.filter
    exact (List.pairwise_lt_range' (s := 1) (n := M)).imp fun h => h.le
  · unfold stops
    rw [List.range'_1_concat, List.filter_append, List.filter_cons_of_pos (by simp [Stops]; omega)]
    simp only [Nat.zero_add, List.filter_nil]
    rw [Nat.add_comm 1 M]

theorem journey_single (f : Scheme W V) {o : Opts} {S : ℚ} {N : ℕ} {q : TP V} (h : Regular o S N [q]) (w : W) :
    journey f o.dt (stops o S N) w ([q].map core) =
      ((walk f o.dt N S w q.2.vars).1, ((walk f o.dt N S w q.2.vars).2.map fun v => (q.1, S + N * o.dt, v)).toList) := by
  have hne := ne_zero_of h.step
  have hN : 0 < N := by
    rcases Nat.eq_zero_or_pos N with rfl | hN
    · have := h.length; norm_num at this
    · exact hN
  obtain ⟨r, hr, ht⟩ := h.start
  rw [List.mem_singleton] at hr
  subst hr
  obtain ⟨ns, n1, n2, n3⟩ := stops_last o S N hN
  have := journey_one f (S := S) hne r.1 N ns 0 w r.2.vars (fun n hn => ⟨Nat.zero_le _, n1 n hn⟩) (Nat.zero_le _) n2
  rw [WholeRun.zero_steps, Nat.sub_zero] at this
  rw [n3, ← this]
  simp only [List.map_cons, List.map_nil, core, ht]

end Parcels.RandomRun
