import Verif.Proofs.DeferRun4

namespace Parcels.DeferRun

open Search Interp TimeChunk
open GridRun (Fld Prog Body Hint SpaceValue TimeValue FieldValue Sound follow refScheme Interpolates scipyScheme jitScheme)
open WholeRun
open Recovery (TP RMap)
open Schedule (Ext After AfterExt NotBefore NB)

variable {V : Type}

/-! ### Values from memory -/

/-- Locating a time in the series or in the loaded pair. -/
theorem pair_get (a b t : ℚ) (k : ℕ) : [a, b][k]? = some t ↔ (k = 0 ∧ a = t) ∨ (k = 1 ∧ b = t) := by
  rcases k with _ | _ | k <;> simp

theorem time_window {full : List ℚ} (hinc : Increasing full) {i : ℕ} (hi : i + 1 < full.length) {u : ℚ} (hc : TimeChunk.Covers full i u) (e : Bool)
    (v : ℕ → ℚ) (v' : ℕ → ℚ) (h0 : v' 0 = v i) (h1 : v' 1 = v (i + 1)) (w : ℚ) :
    TimeValue [full.getD i 0, full.getD (i + 1) 0] e u v' w ↔ TimeValue full e u v w := by
  have hab : full.getD i 0 < full.getD (i + 1) 0 := inc_lt hinc (Nat.lt_succ_self i) hi
  have gi : full[i]? = some (full.getD i 0) := getD_some (by omega)
  have gi1 : full[i + 1]? = some (full.getD (i + 1) 0) := getD_some hi
  have hget : ∀ {j : ℕ} {a : ℚ}, full[j]? = some a → j < full.length ∧ a = full.getD j 0 := by
    intro j a h
    obtain ⟨hj, e⟩ := List.getElem?_eq_some_iff.mp h
    exact ⟨hj, by rw [List.getD_eq_getElem _ 0 hj, e]⟩
  have hmem : ∀ a ∈ full, full.getD 0 0 ≤ a ∧ a ≤ full.getD (full.length - 1) 0 := by
    intro a ha
    obtain ⟨j, hj, rfl⟩ := List.getElem_of_mem ha
    have k1 := inc_le hinc (Nat.zero_le j) hj
    have k2 := inc_le hinc (show j ≤ full.length - 1 by omega) (by omega)
    rw [List.getD_eq_getElem _ 0 hj] at k1 k2
    exact ⟨k1, k2⟩
  have m0 : full.getD 0 0 ∈ full := getD_mem (by omega)
  have ml : full.getD (full.length - 1) 0 ∈ full := getD_mem (by omega)
  have b0 := (hmem _ (getD_mem (show i < full.length by omega))).1
  have bl := (hmem _ (getD_mem hi)).2
  constructor
  · rintro (⟨k, hk, rfl⟩ | ⟨k, r, ⟨n, a, b, e1, ha, hb, r0, r1, hu⟩, rfl⟩ | ⟨he, ha, rfl⟩ | ⟨he, ha, rfl⟩)
    · rcases (pair_get _ _ _ _).mp hk with ⟨rfl, e⟩ | ⟨rfl, e⟩
      · exact Or.inl ⟨i, by rw [gi, e], h0⟩
      · exact Or.inl ⟨i + 1, by rw [gi1, e], h1⟩
    · have hkn : k = n := by exact_mod_cast e1
      subst hkn
      rcases (pair_get _ _ _ _).mp hb with ⟨c, -⟩ | ⟨c, rfl⟩
      · omega
      · have : k = 0 := by omega
        subst this
        rcases (pair_get _ _ _ _).mp ha with ⟨-, rfl⟩ | ⟨c, -⟩
        · exact Or.inr (Or.inl ⟨i, r, ⟨i, _, _, rfl, gi, gi1, r0, r1, hu⟩, by rw [h0, h1]⟩)
        · omega
    · have ha0 := ha _ (List.mem_cons_self)
      have ha1 := ha _ (List.mem_cons_of_mem _ List.mem_cons_self)
      rcases hc with ⟨c1, c2⟩ | ⟨rfl, c⟩ | ⟨c1, c2⟩
      · exact Or.inl ⟨i, by rw [gi, le_antisymm c1 ha0], h0⟩
      · exact Or.inr (Or.inr (Or.inl ⟨he, fun a h => le_trans c.le (hmem a h).1, h0⟩))
      · rw [show full.length - 1 = i + 1 by omega] at c2; linarith
    · have ha0 := ha _ (List.mem_cons_self)
      have ha1 := ha _ (List.mem_cons_of_mem _ List.mem_cons_self)
      simp only [List.length_cons, List.length_nil, Nat.reduceAdd, Nat.add_one_sub_one]
      rcases hc with ⟨c1, c2⟩ | ⟨rfl, c⟩ | ⟨c1, c2⟩
      · exact Or.inl ⟨i + 1, by rw [gi1, le_antisymm ha1 c2], h1⟩
      · linarith
      · refine Or.inr (Or.inr (Or.inr ⟨he, fun a h => le_trans (hmem a h).2 c2.le, ?_⟩))
        rw [show full.length - 1 = i + 1 by omega]; exact h1
  · rintro (⟨k, hk, rfl⟩ | ⟨k, r, ⟨n, a, b, e1, ha, hb, r0, r1, hu⟩, rfl⟩ | ⟨he, ha, rfl⟩ | ⟨he, ha, rfl⟩)
    · obtain ⟨hkl, hku⟩ := hget hk
      rcases hc with ⟨c1, c2⟩ | ⟨rfl, c⟩ | ⟨c1, c2⟩
      · have hki : i ≤ k := by
          by_contra hh
          have := inc_lt hinc (show k < i by omega) (by omega)
          linarith
        have hki1 : k ≤ i + 1 := by
          by_contra hh
          have := inc_lt hinc (show i + 1 < k by omega) hkl
          linarith
        rcases Nat.lt_or_ge i k with c | c
        · have : k = i + 1 := by omega
          subst this
          exact Or.inl ⟨1, by rw [pair_get]; exact Or.inr ⟨rfl, hku.symm⟩, h1.symm⟩
        · have : k = i := by omega
          subst this
          exact Or.inl ⟨0, by rw [pair_get]; exact Or.inl ⟨rfl, hku.symm⟩, h0.symm⟩
      · have := inc_le hinc (Nat.zero_le k) hkl
        linarith
      · have := inc_le hinc (show k ≤ full.length - 1 by omega) (by omega)
        linarith
    · have hkn : k = n := by exact_mod_cast e1
      subst hkn
      obtain ⟨hal, rfl⟩ := hget ha
      obtain ⟨hbl, rfl⟩ := hget hb
      have hkk : full.getD k 0 < full.getD (k + 1) 0 := inc_lt hinc (Nat.lt_succ_self k) hbl
      have hu1 : full.getD k 0 ≤ u := by nlinarith
      have hu2 : u ≤ full.getD (k + 1) 0 := by nlinarith
      rcases hc with ⟨c1, c2⟩ | ⟨rfl, c⟩ | ⟨c1, c2⟩
      · rcases Nat.lt_trichotomy k i with c | rfl | c
        · -- the end of an earlier cell
          have hle := inc_le hinc (show k + 1 ≤ i by omega) (by omega)
          have hueq : u = full.getD (k + 1) 0 := le_antisymm hu2 (by linarith)
          have hki : k + 1 = i := by
            by_contra hh
            have := inc_lt hinc (show k + 1 < i by omega) (by omega)
            linarith
          have hr : r = 1 := by
            have : (1 - r) * (full.getD (k + 1) 0 - full.getD k 0) = 0 := by rw [hueq] at hu; linarith
            rcases mul_eq_zero.mp this with h | h
            · linarith
            · linarith
          refine Or.inl ⟨0, by rw [pair_get]; exact Or.inl ⟨rfl, by rw [hueq, hki]⟩, ?_⟩
          rw [hr, h0, ← hki]
          unfold lerp
          ring
        · refine Or.inr (Or.inl ⟨0, r, ⟨0, _, _, rfl, rfl, rfl, r0, r1, hu⟩, by rw [h0, h1]⟩)
        · have hle := inc_le hinc (show i + 1 ≤ k by omega) (by omega)
          have hueq : u = full.getD k 0 := le_antisymm (by linarith) hu1
          have hki : k = i + 1 := by
            by_contra hh
            have := inc_lt hinc (show i + 1 < k by omega) (by omega)
            linarith
          have hr : r = 0 := by
            have : r * (full.getD (k + 1) 0 - full.getD k 0) = 0 := by rw [hueq] at hu; linarith
            rcases mul_eq_zero.mp this with h | h
            · exact h
            · linarith
          refine Or.inl ⟨1, by rw [pair_get]; exact Or.inr ⟨rfl, by rw [hueq, hki]⟩, ?_⟩
          rw [hr, h1, ← hki]
          unfold lerp
          ring
      · have := inc_le hinc (Nat.zero_le k) hal
        linarith
      · have := inc_le hinc (show k + 1 ≤ full.length - 1 by omega) (by omega)
        linarith
    · have ha0 := ha _ m0
      rcases hc with ⟨c1, c2⟩ | ⟨rfl, c⟩ | ⟨c1, c2⟩
      · have : i = 0 := by
          by_contra hh
          have := inc_lt hinc (show 0 < i by omega) (by omega)
          linarith
        subst this
        refine Or.inr (Or.inr (Or.inl ⟨he, ?_, h0.symm⟩))
        intro a ha'
        rcases List.mem_cons.mp ha' with rfl | ha'
        · exact ha0
        · rw [List.mem_singleton.mp ha']; linarith
      · refine Or.inr (Or.inr (Or.inl ⟨he, ?_, h0.symm⟩))
        intro a ha'
        rcases List.mem_cons.mp ha' with rfl | ha'
        · exact c.le
        · rw [List.mem_singleton.mp ha']; linarith
      · have := ha _ ml
        linarith
    · have hal := ha _ ml
      have goal : full.length - 1 = i + 1 → full.getD (i + 1) 0 ≤ u → TimeValue [full.getD i 0, full.getD (i + 1) 0] e u v' (v (full.length - 1)) := by
        intro hl hle
        refine Or.inr (Or.inr (Or.inr ⟨he, ?_, ?_⟩))
        · intro a ha'
          rcases List.mem_cons.mp ha' with rfl | ha'
          · linarith
          · rw [List.mem_singleton.mp ha']; exact hle
        · rw [hl]; exact h1.symm
      rcases hc with ⟨c1, c2⟩ | ⟨rfl, c⟩ | ⟨c1, c2⟩
      · have : i + 1 = full.length - 1 := by
          by_contra hh
          have := inc_lt hinc (show i + 1 < full.length - 1 by omega) (by omega)
          linarith
        exact goal this.symm (by rw [this]; exact hal)
      · have := ha _ m0
        linarith
      · have : full.length - 1 = i + 1 := by omega
        exact goal this (by rw [← this]; exact c2.le)

theorem space_exists {g : RGrid} {d : Arr} {z y x w : ℚ} (h : SpaceValue g d z y x w) (d' : Arr) : ∃ w', SpaceValue g d' z y x w' := by
  obtain ⟨n, m, r, s, h1, h2, h3, h4⟩ := h
  rcases Nat.lt_or_ge g.depth.length 2 with c | c
  · exact ⟨_, n, m, r, s, h1, h2, fun _ => rfl, fun h => by omega⟩
  · obtain ⟨k, q, h5, -⟩ := h4 c
    exact ⟨_, n, m, r, s, h1, h2, fun h => by omega, fun _ => ⟨k, q, h5, rfl⟩⟩

theorem value_window {f : Fld} {g : DG} {i : ℕ} (hh : Holds g i) (hf : f.time = g.full) (hinc : Increasing g.full) {u : ℚ} (hc : TimeChunk.Covers g.full i u) (z y x w : ℚ) :
    FieldValue { f with time := g.loaded, data := fun k => f.data (if k = 0 then g.mem.1 else g.mem.2) } u z y x w ↔ FieldValue f u z y x w := by
  have hi := hh.lt
  constructor
  · rintro ⟨v, hv, ht⟩
    dsimp only at hv ht
    rw [hh.times] at hv ht
    have v0 : SpaceValue f.grid (f.data i) z y x (v 0) := by
      have := hv 0 (by simp)
      rw [if_pos rfl, hh.memory] at this
      exact this
    have v1 : SpaceValue f.grid (f.data (i + 1)) z y x (v 1) := by
      have := hv 1 (by simp)
      rw [if_neg (by omega), hh.memory] at this
      exact this
    classical
    let v' : ℕ → ℚ := fun k => if k = i then v 0 else if k = i + 1 then v 1 else (space_exists v0 (f.data k)).choose
    refine ⟨v', ?_, ?_⟩
    · intro k _
      show SpaceValue f.grid (f.data k) z y x (if k = i then v 0 else if k = i + 1 then v 1 else (space_exists v0 (f.data k)).choose)
      split_ifs with c c'
      · rw [c]; exact v0
      · rw [c']; exact v1
      · exact (space_exists v0 (f.data k)).choose_spec
    · rw [hf]
      refine (time_window hinc hi hc f.extrap v' v ?_ ?_ w).mp ht
      · show v 0 = if i = i then v 0 else _
        rw [if_pos rfl]
      · show v 1 = if i + 1 = i then v 0 else if i + 1 = i + 1 then v 1 else _
        rw [if_neg (by omega), if_pos rfl]
  · rintro ⟨v, hv, ht⟩
    rw [hf] at hv ht
    refine ⟨fun k => if k = 0 then v i else v (i + 1), ?_, ?_⟩
    · intro k hk
      dsimp only
      rw [hh.memory]
      split_ifs
      · exact hv i (by omega)
      · exact hv (i + 1) hi
    · dsimp only
      rw [hh.times]
      exact (time_window hinc hi hc f.extrap v _ rfl rfl w).mpr ht

/-! ### Programs -/

theorem follow_within {P : ℚ → Prop} {val val' : Nat → (t z y x : ℚ) → Option ℚ} (h : ∀ i t z y x, P t → val i t z y x = val' i t z y x) :
    ∀ p : Prog V, Within P p → follow val p = follow val' p := by
  intro p
  induction p with
  | ret v => intro _; rfl
  | fail e => intro _; rfl
  | get f t z y x k ih =>
    rintro ⟨h1, h2⟩
    rw [follow, follow, h f t z y x h1]
    cases val' f t z y x with
    | none => rfl
    | some w => exact ih w (h2 w)

theorem within_mono {P Q : ℚ → Prop} (h : ∀ t, P t → Q t) : ∀ p : Prog V, Within P p → Within Q p := by
  intro p
  induction p with
  | ret v => intro _; trivial
  | fail e => intro _; trivial
  | get f t z y x k ih => exact fun ⟨h1, h2⟩ => ⟨h t h1, fun w => ih w (h2 w)⟩

theorem solution_within {b : Body V} (hb : DuringStep b) {val val' : Nat → (t z y x : ℚ) → Option ℚ} (dt : ℚ) :
    ∀ (n : ℕ) (t : ℚ) (v : V), (∀ c : ℚ, 0 ≤ c → c ≤ n → ∀ i z y x, val i (t + c * dt) z y x = val' i (t + c * dt) z y x) →
      solution (refScheme val b) dt n t v = solution (refScheme val' b) dt n t v := by
  intro n
  induction n with
  | zero => intro t v _; rfl
  | succ n ih =>
    intro t v h
    have e : refScheme val b t dt v = refScheme val' b t dt v := by
      unfold refScheme
      rw [follow_within (P := fun u => ∃ c : ℚ, 0 ≤ c ∧ c ≤ 1 ∧ u = t + c * dt) (val' := val') _ _ (hb t dt v)]
      rintro i u z y x ⟨c, c0, c1, rfl⟩
      exact h c c0 (by push_cast; have : (0 : ℚ) ≤ n := Nat.cast_nonneg n; linarith) i z y x
    rw [solution, solution, e]
    cases refScheme val' b t dt v with
    | error e => rfl
    | ok v' =>
      dsimp only
      apply ih
      intro c c0 c1 i z y x
      have := h (c + 1) (by linarith) (by push_cast; linarith) i z y x
      rw [show t + dt + c * dt = t + (c + 1) * dt by ring]
      exact this

/-- The trajectory over a stretch of time on which the values agree. -/
theorem trajectory_within {b : Body V} (hb : DuringStep b) {val val' : Nat → (t z y x : ℚ) → Option ℚ} {S dt : ℚ} (hdt : dt ≠ 0) {m n : ℕ}
    (h : ∀ u, NotBefore dt (S + m * dt) u → NotBefore dt u (S + n * dt) → ∀ i z y x, val i u z y x = val' i u z y x)
    (q : TP V) (hq : ∃ j : ℕ, m ≤ j ∧ q.2.time = S + j * dt) :
    trajectory (refScheme val b) dt (S + n * dt) q = trajectory (refScheme val' b) dt (S + n * dt) q := by
  obtain ⟨j, hj, hjt⟩ := hq
  unfold trajectory
  by_cases c : 0 < (q.2.time - (S + n * dt)) * sgn dt
  · rw [if_pos c, if_pos c]
  · rw [if_neg c, if_neg c]
    rw [hjt, grid_lt hdt, not_lt] at c
    have hfl : (S + n * dt - q.2.time) / dt = ((n - j : ℕ) : ℚ) := by
      rw [hjt, Nat.cast_sub c]; field_simp; ring
    rw [hfl, Nat.floor_natCast]
    congr 1
    apply solution_within hb
    intro k k0 k1 i z y x
    have hp := abs_pos.mpr hdt
    rw [Nat.cast_sub c] at k1
    have hjm : (m : ℚ) ≤ j := by exact_mod_cast hj
    apply h
    · unfold NotBefore
      rw [hjt, show (S + (j : ℚ) * dt + k * dt - (S + m * dt)) * sgn dt = (j - m + k) * (dt * sgn dt) by ring, mul_sgn_self]
      exact mul_nonneg (by linarith) hp.le
    · unfold NotBefore
      rw [hjt, show (S + (n : ℚ) * dt - (S + (j : ℚ) * dt + k * dt)) * sgn dt = (n - j - k) * (dt * sgn dt) by ring, mul_sgn_self]
      exact mul_nonneg (by linarith) hp.le

end Parcels.DeferRun
