import Verif.Proofs.KernelLoop2

namespace Parcels.KernelLoop

variable {W V : Type}

theorem sgn_mul_abs (x : ℚ) : sgn x * |x| = x := by
  rcases sgn_cases x with ⟨h, e⟩ | ⟨h, e⟩ | ⟨h, e⟩
  · rw [e, abs_of_pos h, one_mul]
  · rw [e, abs_of_neg h]; ring
  · rw [h]; simp

/-- Invariant for end times on the lattice `T + ℕ·dt`. -/
structure LatInv (T dt : ℚ) (m : Nat) (s : LS W V) : Prop where
  pdt : s.p.dt = dt
  lat : ∃ k : Nat, k ≤ m ∧ s.p.time = T + k * dt
  pos : Pending s.p → s.dtPos = min |dt| |T + m * dt - s.p.time|
  calls : ∀ c ∈ s.trace, c.before.dt = dt

theorem lat_full {T dt : ℚ} {m k : Nat} {t : ℚ} (hk : k ≤ m) (ht : t = T + k * dt)
    (hlt : 0 < |T + m * dt - t|) : k + 1 ≤ m ∧ min |dt| |T + m * dt - t| = |dt| := by
  have e : T + m * dt - t = ((m - k : Nat) : ℚ) * dt := by
    rw [ht, Nat.cast_sub hk]; ring
  rw [e, abs_mul] at hlt ⊢
  have hne : m - k ≠ 0 := by
    intro h; rw [h] at hlt; simp at hlt
  refine ⟨by omega, ?_⟩
  apply min_eq_left
  have h1 : (1 : ℚ) ≤ |((m - k : Nat) : ℚ)| := by
    rw [abs_of_nonneg (Nat.cast_nonneg _)]
    exact_mod_cast Nat.one_le_iff_ne_zero.mpr hne
  nlinarith [abs_nonneg dt]

theorem exec1_lattice (K : Kern W V) (hK : LeavesDtAlone K) (T dt : ℚ)
    (hdt : isclose dt 0 = false) (m : Nat) (fuel : Nat) (w : W) (back : Option (Particle V))
    (p : Particle V) (hpdt : p.dt = dt) (k : Nat) (hkm : k ≤ m) (hpt : p.time = T + k * dt)
    (s : LS W V) (h : exec1 K (T + m * dt) dt fuel w back p = some s) :
    s.p.dt = dt ∧ (∃ k' : Nat, k' ≤ m ∧ s.p.time = T + k' * dt) ∧
      ∀ c ∈ s.trace, c.before.dt = dt := by
  have hne := isclose_false_ne hdt
  have hK' := resolve_alone hK
  have hahead : NotBefore dt p.time (T + m * dt) := by
    unfold NotBefore
    have e : T + m * dt - p.time = ((m - k : Nat) : ℚ) * dt := by
      rw [hpt, Nat.cast_sub hkm]; ring
    rw [e]
    have h1 : (0 : ℚ) ≤ dt * sgn dt := by
      have := sgn_mul_abs dt
      have h2 := sgn_mul_self_of_ne hne
      have : dt * sgn dt = |dt| := by
        nth_rewrite 1 [← sgn_mul_abs dt]
        have : sgn dt * |dt| * sgn dt = (sgn dt * sgn dt) * |dt| := by ring
        rw [this, h2, one_mul]
      rw [this]; exact abs_nonneg _
    have h3 : (0 : ℚ) ≤ ((m - k : Nat) : ℚ) := Nat.cast_nonneg _
    rw [mul_assoc]
    exact mul_nonneg h3 h1
  unfold exec1 at h
  simp only [] at h
  split at h
  · cases h
    refine ⟨?_, ⟨k, hkm, ?_⟩, by simp⟩
    · simp only []; split <;> exact hpdt
    · simp only []; split <;> exact hpt
  · rename_i hns
    have key := loop_inv K (T + m * dt) dt (fun s => ClockInv (T + m * dt) dt p s ∧ LatInv T dt m s)
      (fun s => s.p.dt = dt ∧ (∃ k' : Nat, k' ≤ m ∧ s.p.time = T + k' * dt) ∧
        ∀ c ∈ s.trace, c.before.dt = dt) ?_ ?_ ?_ fuel _ s h
      ⟨clock_init _ dt p w back hns hdt hahead, ?_⟩
    · exact key
    · intro s ⟨hC, hI⟩ hc hb
      have hl := clock_cond hdt hc
      have hpos := hC.live hl
      have hb' := hC.bound
      obtain ⟨k1, hk1, ht1⟩ := hI.lat
      have hfull := lat_full hk1 ht1 (by linarith)
      have hdp : s.dtPos = |dt| := by rw [hI.pos hl, hfull.2]
      by_cases hr : codeAt K dt s = .success ∨ codeAt K dt s = .delete
      · rw [step_commit K _ dt s hr rfl rfl rfl rfl rfl] at hb
        simp only [] at hb
        rw [hdt] at hb; cases hb
      · obtain ⟨_, _, _, _, h5, h6⟩ := step_fail K (T + m * dt) dt s hr
        have hd : (outAt K dt s).p.dt = sgn dt * s.dtPos := (hK s.w (preAt dt s)).2.1
        rw [hdp, sgn_mul_abs] at hd
        refine ⟨by rw [h6]; exact hd, ⟨k1, hk1, by rw [h6]; exact ht1⟩, ?_⟩
        rw [h5]
        intro c hc
        simp only [List.mem_append, List.mem_singleton] at hc
        rcases hc with hc | hc
        · exact hI.calls c hc
        · subst hc; simp only [preAt]; rw [hdp, sgn_mul_abs]
    · intro s ⟨hC, hI⟩ hc hb
      have hl := clock_cond hdt hc
      have hpos := hC.live hl
      have hb' := hC.bound
      obtain ⟨k1, hk1, ht1⟩ := hI.lat
      have hfull := lat_full hk1 ht1 (by linarith)
      have hdp : s.dtPos = |dt| := by rw [hI.pos hl, hfull.2]
      by_cases hr : codeAt K dt s = .success ∨ codeAt K dt s = .delete
      · refine ⟨clock_commit K hK' _ dt hne p s hC hl hr, ?_⟩
        have hd : (outAt K dt s).p.dt = dt := by
          have : (outAt K dt s).p.dt = sgn dt * s.dtPos := (hK s.w (preAt dt s)).2.1
          rw [this, hdp, sgn_mul_abs]
        have ht : (outAt K dt s).p.time = s.p.time := (hK s.w (preAt dt s)).1
        have hn : (outAt K dt s).nextDt = none := (hK s.w (preAt dt s)).2.2
        rw [step_commit K _ dt s hr rfl rfl (dt' := dt) (by rw [hn, hC.nd]; exact hd.symm) rfl rfl]
        refine ⟨rfl, ⟨k1 + 1, hfull.1, ?_⟩, ?_, ?_⟩
        · simp only []; rw [ht, hd, ht1]; push_cast; ring
        · simp only [Pending]
          intro hp
          by_cases hcnd : sgn (T + m * dt - ((outAt K dt s).p.time + (outAt K dt s).p.dt)) = sgn dt
          · rw [if_neg (not_not.mpr hcnd)]
          · rw [if_neg (fun hx => hcnd hx.2.2)] at hp
            rcases hr with hr | hr <;> rw [hr] at hp <;> simp at hp
        · intro c hc
          simp only [List.mem_append, List.mem_singleton] at hc
          rcases hc with hc | hc
          · exact hI.calls c hc
          · subst hc; simp only [preAt]; rw [hdp, sgn_mul_abs]
      · rw [(step_fail K _ dt s hr).1] at hb; cases hb
    · intro s ⟨_, hI⟩ _; exact ⟨hI.pdt, hI.lat, hI.calls⟩
    · exact ⟨hpdt, ⟨k, hkm, hpt⟩, fun _ => by simp only [hpdt], by simp⟩

theorem segments_lattice (K : Kern W V) (hK : LeavesDtAlone K) (T dt : ℚ)
    (hdt : isclose dt 0 = false) (fuel : Nat) :
    ∀ (ms : List Nat) (w : W) (p : Particle V) (k : Nat), p.dt = dt → p.time = T + k * dt →
      (k :: ms).Pairwise (· ≤ ·) → ∀ q trs,
      segments K dt fuel w (ms.map fun m : Nat => T + m * dt) p = some (q, trs) →
      ∀ tr ∈ trs, ∀ c ∈ tr, c.before.dt = dt := by
  intro ms
  induction ms with
  | nil =>
    intro w p k _ _ _ q trs h
    simp [segments] at h
    rw [h.2]; simp
  | cons m ms ih =>
    intro w p k hpdt hpt hsort q trs h
    simp only [List.map_cons, segments] at h
    split at h
    · cases h
    · rename_i s hs
      have hkm : k ≤ m := (List.pairwise_cons.mp hsort).1 m List.mem_cons_self
      have hsort' := (List.pairwise_cons.mp hsort).2
      obtain ⟨e1, ⟨k', hk', e2⟩, e3⟩ :=
        exec1_lattice K hK T dt hdt m fuel w none { p with state := .evaluate } hpdt k hkm hpt s hs
      split at h
      · cases h
      · rename_i q2 trs2 h2
        cases h
        have hs'' : (k' :: ms).Pairwise (· ≤ ·) := by
          rw [List.pairwise_cons] at hsort' ⊢
          exact ⟨fun a ha => le_trans hk' (hsort'.1 a ha), hsort'.2⟩
        intro tr htr
        rcases List.mem_cons.mp htr with h | h
        · rw [h]; exact e3
        · exact ih s.w s.p k' e1 e2 hs'' _ _ h2 tr h

end Parcels.KernelLoop
