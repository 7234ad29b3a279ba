import Verif.Proofs.Schedule2

/-!
C09-C12: properties of the event loop of `ParticleSet.execute`.
-/

namespace Parcels.Schedule

/-! ## C09 -/

/-- C09. The interruption times are strictly monotone in the direction of dt, start after S, and the
last one is E (if the run is not empty); each of them is not after E. -/
theorem C09_stops_are_monotone_and_end_at_E {a : Args} (h : Ordinary a) {n : Nat} {r : Run}
    (hr : run a n = some r) :
    ∃ s, r = .done s ∧ (a.S :: s.stops).Pairwise (After a.dt) ∧
      (a.S :: s.stops).getLast (by simp) = a.E ∧ ∀ t ∈ s.stops, NotBefore a.dt t a.E := by
  obtain ⟨s, h1, hF, hE⟩ := run_facts h hr
  refine ⟨s, h1, hF.stop.mono, hF.stop.last.trans hE, ?_⟩
  intro t ht
  have hl := hF.stop.last
  have hmono := hF.stop.mono
  have hmem : t ∈ a.S :: s.stops := List.mem_cons_of_mem _ ht
  obtain ⟨pre, hpre⟩ : ∃ pre, a.S :: s.stops = pre ++ [s.time] :=
    ⟨(a.S :: s.stops).dropLast, by rw [← hl, List.dropLast_append_getLast]⟩
  rw [hpre] at hmem hmono
  rcases List.mem_append.mp hmem with h1 | h1
  · have := (List.pairwise_append.mp hmono).2.2 _ h1 s.time (by simp)
    rw [hE] at this; exact le_of_lt this
  · simp only [List.mem_singleton] at h1
    rw [h1, hE]; simp [NotBefore]

/-- C09. Every scheduled output, movie or callback time `S ± k*interval` (`k ≥ 1`) up to E is served
by an interruption that is at most 1e-12 s earlier, and never later, than the scheduled time. The
events are served in order, one interruption per scheduled time, and the first scheduled time without
an event lies beyond E. -/
theorem C09_periodic_events_at_scheduled_times {a : Args} (h : Ordinary a) {n : Nat} {s : St}
    (hr : run a n = some (.done s)) (x : Stream) (hx : x ≠ .release) (i : ℚ)
    (hi : interval a x = some i) :
    (∀ k (hk : k < (timesOf x s).length),
      (timesOf x s)[k] ∈ s.stops ∧
      NotBefore a.dt (timesOf x s)[k] (a.S + ((k : ℚ) + 1) * i * sgn a.dt) ∧
      |(timesOf x s)[k] - (a.S + ((k : ℚ) + 1) * i * sgn a.dt)| < 1 / 1000000000000) ∧
    After a.dt a.E (a.S + (((timesOf x s).length : ℚ) + 1) * i * sgn a.dt) := by
  obtain ⟨s', h1, hF, hE⟩ := run_facts h hr
  cases h1
  have hS := hF.stream x i _ hi (initNext_fin a h.dt x hx i hi)
  have e : ∀ k : ℚ, a.S + i * sgn a.dt + k * (i * sgn a.dt) = a.S + (k + 1) * i * sgn a.dt := by
    intro k; ring
  refine ⟨?_, ?_⟩
  · intro k hk
    have := hS.times k hk
    rw [e] at this
    exact ⟨hS.stops _ (List.getElem_mem hk), this⟩
  · have := hF.inv.next x
    rw [hS.next, hE, e] at this; exact this

/-- C09. No field-input time is stepped over: the interruption that follows the interruption at time
`t` is not after the next input time that the fieldset returned at `t`. -/
theorem C09_no_input_time_skipped {a : Args} (h : Ordinary a) {n : Nat} {s : St}
    (hr : run a n = some (.done s)) (k : Nat) (hk : k < s.stops.length) (q : ℚ)
    (hq : a.input k ((a.S :: s.stops)[k]'(by simp; omega)) = .fin q) :
    NotBefore a.dt s.stops[k] q := by
  obtain ⟨s', h1, hF, hE⟩ := run_facts h hr
  cases h1
  have := hF.input.nb k hk
  rw [hq] at this; exact this

/-- C09. When all times are multiples of a unit of at least 1e-12 s, the events are exactly at the
scheduled times. -/
theorem C09_exact_on_unit {a : Args} (h : Ordinary a) {u : ℚ} (hu : OnUnit a u) {n : Nat} {s : St}
    (hr : run a n = some (.done s)) (x : Stream) (hx : x ≠ .release) (i : ℚ)
    (hi : interval a x = some i) :
    timesOf x s = (List.range ⌊|a.E - a.S| / i⌋₊).map fun k : Nat => a.S + ((k : ℚ) + 1) * i * sgn a.dt := by
  obtain ⟨s', h1, hF, hE⟩ := run_facts h hr
  cases h1
  obtain ⟨g1, g2, g3⟩ := times_exact h hu hF hE hi (initNext_fin a h.dt x hx i hi)
  have hip := interval_pos h x i hi
  have hss := sgn_mul_self_of_ne h.dt
  have habs : |a.E - a.S| = (a.E - a.S) * sgn a.dt := by
    have := h.ahead; unfold NotBefore at this
    rcases pos_or_neg h.dt with ⟨_, e⟩ | ⟨_, e⟩ <;> rw [e] at this ⊢
    · rw [mul_one] at this ⊢; exact abs_of_nonneg this
    · rw [abs_of_nonpos (by linarith)]; ring
  have hN : ⌊|a.E - a.S| / i⌋₊ = (timesOf x s).length := by
    rw [habs]
    rw [Nat.floor_eq_iff (div_nonneg (by have := h.ahead; exact this) (le_of_lt hip))]
    constructor
    · rw [le_div_iff₀ hip]
      rcases Nat.eq_zero_or_pos (timesOf x s).length with h0 | h0
      · rw [h0]; push_cast; rw [zero_mul]; exact h.ahead
      · have := g3 ((timesOf x s).length - 1) (by omega)
        unfold NotBefore at this
        have ec : (((timesOf x s).length - 1 : ℕ) : ℚ) = ((timesOf x s).length : ℚ) - 1 := by
          rw [Nat.cast_sub h0]; push_cast; ring
        rw [ec] at this
        have e : (a.E - (a.S + i * sgn a.dt + (((timesOf x s).length : ℚ) - 1) * (i * sgn a.dt))) * sgn a.dt
            = (a.E - a.S) * sgn a.dt - (timesOf x s).length * i * (sgn a.dt * sgn a.dt) := by ring
        rw [e, hss] at this; linarith
    · rw [div_lt_iff₀ hip]
      unfold After at g2
      have e : (a.S + i * sgn a.dt + ((timesOf x s).length : ℚ) * (i * sgn a.dt) - a.E) * sgn a.dt
          = ((timesOf x s).length + 1) * i * (sgn a.dt * sgn a.dt) - (a.E - a.S) * sgn a.dt := by ring
      rw [e, hss] at g2; linarith
  rw [hN]
  conv_lhs => rw [g1]
  apply List.map_congr_left
  intro k _
  ring

/-! ## C10 -/

/-- C10. With an output file, output is written first at S, then once for every `k ≥ 1` with
`S ± k*outputdt` up to E, at most 1e-12 s before that time, in order, and once more at E. -/
theorem C10_output_times {a : Args} (h : Ordinary a) {n : Nat} {s : St}
    (hr : run a n = some (.done s)) (hf : a.hasFile = true) (o : ℚ) (ho : a.outputdt = some o) :
    ∃ ts : List ℚ, writes a s = [a.S] ++ ts ++ [a.E] ∧
      (∀ k (hk : k < ts.length),
        NotBefore a.dt ts[k] (a.S + ((k : ℚ) + 1) * o * sgn a.dt) ∧
        |ts[k] - (a.S + ((k : ℚ) + 1) * o * sgn a.dt)| < 1 / 1000000000000) ∧
      After a.dt a.E (a.S + ((ts.length : ℚ) + 1) * o * sgn a.dt) := by
  obtain ⟨s', h1, hF, hE⟩ := run_facts h hr
  cases h1
  have hi : interval a .output = some o := by simp [interval, hf, ho]
  obtain ⟨g1, g2⟩ := C09_periodic_events_at_scheduled_times h hr .output (by simp) o hi
  refine ⟨timesOf .output s, ?_, fun k hk => (g1 k hk).2, g2⟩
  unfold writes timesOf
  rw [if_pos hf, hE]

/-- C10. When all times are multiples of a unit of at least 1e-12 s, the output times are exactly
S, S ± outputdt, S ± 2 outputdt, ... up to E, and then E. -/
theorem C10_output_times_exact {a : Args} (h : Ordinary a) {u : ℚ} (hu : OnUnit a u) {n : Nat} {s : St}
    (hr : run a n = some (.done s)) (hf : a.hasFile = true) (o : ℚ) (ho : a.outputdt = some o) :
    writes a s = (List.range (⌊|a.E - a.S| / o⌋₊ + 1)).map (fun k : Nat => a.S + (k : ℚ) * o * sgn a.dt)
      ++ [a.E] := by
  obtain ⟨s', h1, hF, hE⟩ := run_facts h hr
  cases h1
  have hi : interval a .output = some o := by simp [interval, hf, ho]
  have g := C09_exact_on_unit h hu hr .output (by simp) o hi
  have e : writes a s = [a.S] ++ timesOf .output s ++ [a.E] := by
    unfold writes timesOf; rw [if_pos hf, hE]
  rw [e, g, List.range_succ_eq_map]
  simp only [List.map_cons, List.map_map, List.singleton_append, List.cons_append]
  congr 1
  · push_cast; ring
  · congr 1
    apply List.map_congr_left
    intro k _
    simp only [Function.comp, Nat.succ_eq_add_one]; push_cast; ring

/-! ## C11 -/

/-- C11. With `repeatdt = r` and all times multiples of a unit of at least 1e-12 s: new particles are
released exactly at the times `rs ± k*r`, `k ≥ 1`, that are after S and not after E, in order, each
once. (`rs` is the start time of the first call of execute, S the start of this call.) -/
theorem C11_release_times {a : Args} (h : Ordinary a) {u : ℚ} (hu : OnUnit a u) {n : Nat} {s : St}
    (hr : run a n = some (.done s)) (r : ℚ) (hrep : a.repeatdt = some r)
    (hrs : NotBefore a.dt a.rs a.S) :
    (releases s).Pairwise (After a.dt) ∧
    ∀ t, t ∈ releases s ↔
      ∃ k : Nat, 1 ≤ k ∧ t = a.rs + (k : ℚ) * r * sgn a.dt ∧ After a.dt a.S t ∧ NotBefore a.dt t a.E := by
  obtain ⟨s', h1, hF, hE⟩ := run_facts h hr
  cases h1
  have hrp := h.release r hrep
  have hi : interval a .release = some r := by
    simp only [interval, hrep]; rw [if_neg]; intro e; cases e; exact lt_irrefl _ hrp
  have hss := sgn_mul_self_of_ne h.dt
  obtain ⟨g1, g2, g3⟩ := times_exact h hu hF hE hi (initNext_release a r hi)
  have hrel : releases s = timesOf .release s := rfl
  set N := (timesOf .release s).length with hNdef
  -- natural number form of the first index
  have habs : |a.S - a.rs| = (a.S - a.rs) * sgn a.dt := by
    have := hrs; unfold NotBefore at this
    rcases pos_or_neg h.dt with ⟨_, e⟩ | ⟨_, e⟩ <;> rw [e] at this ⊢
    · rw [mul_one] at this ⊢; exact abs_of_nonneg this
    · rw [abs_of_nonpos (by linarith)]; ring
  have hnn : 0 ≤ |a.S - a.rs| / r := div_nonneg (abs_nonneg _) (le_of_lt hrp)
  set k0 := ⌊|a.S - a.rs| / r⌋₊ with hk0
  have hk0' : (⌊|a.S - a.rs| / r⌋ : ℚ) = (k0 : ℚ) := by
    rw [hk0, ← Int.natCast_floor_eq_floor hnn]; simp
  rw [hk0'] at g1 g2 g3
  have hlo : (k0 : ℚ) * r ≤ |a.S - a.rs| := by
    have := Nat.floor_le hnn; rwa [le_div_iff₀ hrp] at this
  have hhi : |a.S - a.rs| < ((k0 : ℚ) + 1) * r := by
    have := Nat.lt_floor_add_one (|a.S - a.rs| / r); rwa [div_lt_iff₀ hrp] at this
  rw [habs] at hlo hhi
  constructor
  · rw [hrel, g1, List.pairwise_map]
    refine List.Pairwise.imp ?_ List.pairwise_lt_range
    intro i j hij
    unfold After
    have e : (a.rs + ((k0 : ℚ) + 1) * r * sgn a.dt + (j : ℚ) * (r * sgn a.dt) -
        (a.rs + ((k0 : ℚ) + 1) * r * sgn a.dt + (i : ℚ) * (r * sgn a.dt))) * sgn a.dt =
        ((j : ℚ) - i) * r * (sgn a.dt * sgn a.dt) := by ring
    rw [e, hss, mul_one]
    have : (i : ℚ) < j := by exact_mod_cast hij
    exact mul_pos (by linarith) hrp
  · intro t
    rw [hrel, g1, List.mem_map]
    constructor
    · rintro ⟨i, hiN, rfl⟩
      rw [List.mem_range] at hiN
      refine ⟨k0 + 1 + i, by omega, by push_cast; ring, ?_, g3 i hiN⟩
      unfold After
      have e : (a.rs + ((k0 : ℚ) + 1) * r * sgn a.dt + (i : ℚ) * (r * sgn a.dt) - a.S) * sgn a.dt =
        ((k0 : ℚ) + 1) * r * (sgn a.dt * sgn a.dt) + i * r * (sgn a.dt * sgn a.dt)
          - (a.S - a.rs) * sgn a.dt := by ring
      rw [e, hss]
      have : 0 ≤ (i : ℚ) * r := mul_nonneg (by positivity) (le_of_lt hrp)
      linarith
    · rintro ⟨k, hk, rfl, haft, hle⟩
      -- k ≥ k0 + 1
      have hge : k0 + 1 ≤ k := by
        unfold After at haft
        have e : (a.rs + (k : ℚ) * r * sgn a.dt - a.S) * sgn a.dt =
          k * r * (sgn a.dt * sgn a.dt) - (a.S - a.rs) * sgn a.dt := by ring
        rw [e, hss, mul_one] at haft
        have : (k0 : ℚ) * r < k * r := by linarith
        have := lt_of_mul_lt_mul_right this (le_of_lt hrp)
        have : k0 < k := by exact_mod_cast this
        omega
      refine ⟨k - (k0 + 1), ?_, ?_⟩
      · rw [List.mem_range]
        by_contra hcon
        unfold After at g2; unfold NotBefore at hle
        have e1 : (a.rs + ((k0 : ℚ) + 1) * r * sgn a.dt + (N : ℚ) * (r * sgn a.dt) - a.E) * sgn a.dt =
          ((k0 : ℚ) + 1 + N) * r * (sgn a.dt * sgn a.dt) - (a.E - a.rs) * sgn a.dt := by ring
        have e2 : (a.E - (a.rs + (k : ℚ) * r * sgn a.dt)) * sgn a.dt =
          (a.E - a.rs) * sgn a.dt - k * r * (sgn a.dt * sgn a.dt) := by ring
        rw [e1, hss, mul_one] at g2
        rw [e2, hss, mul_one] at hle
        have hlt : (k : ℚ) * r < ((k0 : ℚ) + 1 + N) * r := by linarith
        have := lt_of_mul_lt_mul_right hlt (le_of_lt hrp)
        have : k < k0 + 1 + N := by exact_mod_cast this
        omega
      · rw [Nat.cast_sub hge]; push_cast; ring

/-- C11. Splitting a run S → E into S → M and M → E, with the same release schedule, gives the same
releases (whatever the other event streams of the three runs are). -/
theorem C11_split_run {a b c : Args} (ha : Ordinary a) (hb : Ordinary b) (hc : Ordinary c) {u v w : ℚ}
    (hua : OnUnit a u) (hub : OnUnit b v) (huc : OnUnit c w) {n m l : Nat} {s s1 s2 : St}
    (hr : run a n = some (.done s)) (hr1 : run b m = some (.done s1)) (hr2 : run c l = some (.done s2))
    (r : ℚ) (hra : a.repeatdt = some r) (hrb : b.repeatdt = some r) (hrc : c.repeatdt = some r)
    (hdtb : b.dt = a.dt) (hdtc : c.dt = a.dt) (hrsb : b.rs = a.rs) (hrsc : c.rs = a.rs)
    (hSb : b.S = a.S) (hM : c.S = b.E) (hE : c.E = a.E) (hrs : NotBefore a.dt a.rs a.S) :
    releases s = releases s1 ++ releases s2 := by
  have haS := ha.ahead; have hbS := hb.ahead; have hcS := hc.ahead
  rw [hdtb, hSb] at hbS; rw [hdtc, hM, hE] at hcS
  obtain ⟨p, q⟩ := C11_release_times ha hua hr r hra hrs
  obtain ⟨p1, q1⟩ := C11_release_times hb hub hr1 r hrb (by rw [hdtb, hrsb, hSb]; exact hrs)
  obtain ⟨p2, q2⟩ := C11_release_times hc huc hr2 r hrc (by
    rw [hdtc, hrsc, hM]; rw [notBefore_iff_le] at *; linarith)
  rw [hdtb] at p1; rw [hdtc] at p2
  have hord : (releases s1 ++ releases s2).Pairwise (After a.dt) := by
    rw [List.pairwise_append]
    refine ⟨p1, p2, ?_⟩
    intro x hx y hy
    obtain ⟨_, _, _, _, h1⟩ := (q1 x).mp hx
    obtain ⟨_, _, _, h2, _⟩ := (q2 y).mp hy
    rw [hdtb] at h1; rw [hdtc, hM] at h2
    rw [notBefore_iff_le] at h1; rw [after_iff_lt] at *; linarith
  have hmem : ∀ t, t ∈ releases s ↔ t ∈ releases s1 ++ releases s2 := by
    intro t
    rw [List.mem_append, q, q1, q2, hdtb, hdtc, hrsb, hrsc, hSb, hM, hE]
    simp only [after_iff_lt, notBefore_iff_le] at *
    constructor
    · rintro ⟨k, h1, h2, h3, h4⟩
      rcases le_or_gt (t * sgn a.dt) (b.E * sgn a.dt) with h5 | h5
      · exact Or.inl ⟨k, h1, h2, h3, h5⟩
      · exact Or.inr ⟨k, h1, h2, h5, h4⟩
    · rintro (⟨k, h1, h2, h3, h4⟩ | ⟨k, h1, h2, h3, h4⟩)
      · exact ⟨k, h1, h2, h3, by linarith⟩
      · exact ⟨k, h1, h2, by linarith, h4⟩
  have nd : ∀ l : List ℚ, l.Pairwise (After a.dt) → l.Nodup := by
    intro l hl
    refine List.Pairwise.imp (R := After a.dt) ?_ hl
    rintro x y hxy rfl
    exact after_irrefl a.dt x hxy
  have hperm := (List.perm_ext_iff_of_nodup (nd _ p) (nd _ hord)).mpr hmem
  refine List.Perm.eq_of_pairwise ?_ p hord hperm
  intro x y _ _ h1 h2
  rw [after_iff_lt] at h1 h2
  linarith

/-- A call with runtime 0 at time S of a set with repeatdt r whose reference start time is S; fields
fully in memory (no input times), no output file. -/
def zeroRun (S r : ℚ) : Args :=
  { S := S, E := S, dt := 0, hasFile := false, outputdt := none, moviedt := none, callbackdt := none,
    repeatdt := some r, rs := S, hasFieldset := true, input := fun _ _ => .ninf }

/-- C11 fails for `runtime=0` (dt=0): when the start time is the reference start time, particles are
released although no time passes. -/
theorem C11_runtime_zero_releases (S r : ℚ) (hr : 0 < r) :
    ∃ s, run (zeroRun S r) 1 = some (.done s) ∧ releases s = [S] := by
  have hs : sgn 0 = 0 := sgn_zero
  have hrq : S - r < S := by linarith
  have hnext : (init (zeroRun S r)).next .release = .fin S := by
    simp [init, initNext, interval, zeroRun, hr.ne', hs]
  have hst : nextStop (zeroRun S r) (init (zeroRun S r)) = .fin S := by
    simp [nextStop, init, initNext, interval, zeroRun, hr.ne', firstEvent, minOpt, Ext.max2, hs, hrq]
  refine ⟨fire (zeroRun S r) (init (zeroRun S r)) S, ?_, ?_⟩
  · rw [run, loop, if_pos (by simp [continues, zeroRun]), hst]
    simp [zeroRun]
  · have := timesOf_fire (zeroRun S r) (init (zeroRun S r)) S .release
    rw [hnext, if_pos ((near_iff _ _).mpr ⟨S, rfl, by simp [tol_pos]⟩)] at this
    exact this

/-! ## C12 -/

/-- C12. For ordinary arguments (positive intervals) the loop ends, having reached E, provided the
input times returned by the fieldset are snapshot times from a finite list or lie at least some fixed
distance ahead. -/
theorem C12_terminates_partial {a : Args} (h : Ordinary a) (ts : List ℚ) (δ : ℚ) (hδ : 0 < δ)
    (hin : ∀ i t q, a.input i t = .fin q → q ∈ ts ∨ δ ≤ (q - t) * sgn a.dt) :
    ∃ n s, run a n = some (.done s) ∧ s.time = a.E := by
  obtain ⟨r, hr⟩ := loop_terminates h ts δ hδ hin _ (init a) (facts_init h) le_rfl
  obtain ⟨s, h1, _, hE⟩ := run_facts h hr
  exact ⟨_, s, by rw [h1] at hr; exact hr, hE⟩

/-- C12 fails: the accepted arguments `outputdt = 0`, `moviedt = 0` or `callbackdt = 0` make the loop
run forever at the start time. -/
theorem C12_zero_interval_never_ends {a : Args} (hdt : a.dt ≠ 0) (hSE : After a.dt a.S a.E)
    (hfs : a.hasFieldset = true) (hin : ∀ i t, AfterExt a.dt t (a.input i t))
    (ho : ∀ o, a.outputdt = some o → 0 ≤ o) (hm : ∀ o, a.moviedt = some o → 0 ≤ o)
    (hc : ∀ o, a.callbackdt = some o → 0 ≤ o) (hr : ∀ o, a.repeatdt = some o → 0 ≤ o)
    (hzero : (a.hasFile = true ∧ a.outputdt = some 0) ∨ a.moviedt = some 0 ∨ a.callbackdt = some 0) :
    ∀ n, run a n = none := by
  have hmin : ∀ u v : Option ℚ, (∀ r, u = some r → 0 ≤ r) → (∀ r, v = some r → 0 ≤ r) →
      ∀ r, minOpt u v = some r → 0 ≤ r := by
    intro u v hu hv r hr
    cases u <;> cases v <;> simp only [minOpt] at hr
    · cases hr
    · exact hv r hr
    · exact hu r hr
    · cases hr; exact le_min (hu _ rfl) (hv _ rfl)
  have hout : ∀ r, (if a.hasFile then a.outputdt else none) = some r → 0 ≤ r := by
    intro r hr; split at hr
    · exact ho r hr
    · cases hr
  have hnn : ∀ y r, interval a y = some r → 0 ≤ r := by
    intro y q hq
    cases y with
    | release =>
      simp only [interval] at hq
      split at hq
      · cases hq
      · exact hr q hq
    | output => exact hout q hq
    | movie => exact hm q hq
    | callback =>
      simp only [interval] at hq
      split at hq
      · rename_i c hc'; cases hq; exact hc _ hc'
      · exact hmin _ _ (hmin _ _ hm hout) hr q hq
  obtain ⟨x, hxr, hx⟩ : ∃ x, x ≠ Stream.release ∧ interval a x = some 0 := by
    rcases hzero with ⟨h1, h2⟩ | h1 | h1
    · exact ⟨.output, by simp, by simp [interval, h1, h2]⟩
    · exact ⟨.movie, by simp, h1⟩
    · exact ⟨.callback, by simp, by simp [interval, h1]⟩
  intro n
  apply stuck_forever hdt hSE hfs hin x hx hnn
  have hnb : ∀ i : Option ℚ, (∀ r, i = some r → 0 ≤ r) → NB a.dt a.S (firstEvent a.dt a.S i) := by
    intro i hi
    rcases pos_or_neg hdt with ⟨hp, e⟩ | ⟨hp, e⟩
    · cases i with
      | none => simp only [firstEvent, hp, if_true, NB]
      | some r =>
        simp only [firstEvent, hp, if_true, NB, NotBefore, e]
        linarith [hi r rfl]
    · have hn : ¬ 0 < a.dt := not_lt.mpr (le_of_lt hp)
      cases i with
      | none => simp only [firstEvent, hn, if_false, NB]; exact hp
      | some r =>
        simp only [firstEvent, hn, if_false, NB, NotBefore, e]
        linarith [hi r rfl]
  have hfin : ∀ (i : Option ℚ) q, firstEvent a.dt a.S i = .fin q → ∃ r, i = some r := by
    intro i q hq
    cases i with
    | none => simp only [firstEvent] at hq; split at hq <;> cases hq
    | some r => exact ⟨r, rfl⟩
  refine ⟨rfl, ?_, ?_, ?_, ?_⟩
  · intro y
    have hy := fun q => hnn y q
    cases y with
    | release =>
      simp only [init, initNext]
      rcases hq : interval a .release with _ | q
      · simp only []
        rcases pos_or_neg hdt with ⟨hp, e⟩ | ⟨hp, e⟩
        · rw [if_pos hp]; exact hp
        · rw [if_neg (not_lt.mpr (le_of_lt hp))]; exact hp
      · have h0 : q ≠ 0 := by
          rintro rfl
          simp only [interval] at hq
          split at hq
          · cases hq
          · rename_i hne; exact hne hq
        have := release_after a.dt a.S a.rs q hdt (lt_of_le_of_ne (hy q hq) h0.symm)
        exact le_of_lt this
    | output => exact hnb _ hy
    | movie => exact hnb _ hy
    | callback => exact hnb _ hy
  · have := initNext_fin a hdt x hxr 0 hx
    simp only [init, this]
    congr 1; ring
  · simp only [init, hfs, if_true]
    exact (hin _ _).nb
  · intro y q hq
    cases y with
    | release =>
      simp only [init, initNext] at hq
      rcases hr : interval a .release with _ | r
      · rw [hr] at hq; simp only [] at hq; split at hq <;> cases hq
      · exact ⟨r, rfl⟩
    | output => exact hfin _ _ hq
    | movie => exact hfin _ _ hq
    | callback => exact hfin _ _ hq

/-- C12 fails: without a fieldset a backward run does not work at all: the first stop is infinite. -/
theorem C12_no_fieldset_backward_crashes {a : Args} (hdt : a.dt < 0) (hSE : a.E < a.S)
    (hfs : a.hasFieldset = false) (n : Nat) : ∃ s, run a (n + 1) = some (.crash s) := by
  have hc : continues a (init a) := Or.inr (Or.inl ⟨hSE, hdt⟩)
  have hin : (init a).nextIn = .pinf := by simp [init, hfs]
  have hst : nextStop a (init a) = .pinf := by
    have hm : ∀ e, Ext.max2 e .pinf = .pinf := by intro e; cases e <;> rfl
    have hm2 : ∀ e, Ext.max2 .pinf e = .pinf := by intro e; cases e <;> rfl
    unfold nextStop
    rw [if_neg (not_lt.mpr (le_of_lt hdt)), hin]
    simp only [hm, hm2]
  refine ⟨init a, ?_⟩
  rw [run, loop, if_pos hc, hst]

/-! ## Non-vacuity -/

/-- A run from 0 to 10 s with output every 3 s, release every 4 s, movie every 5 s, and a snapshot at
every multiple of 6 s. -/
def demo : Args :=
  { S := 0, E := 10, dt := 1, hasFile := true, outputdt := some 3, moviedt := some 5,
    callbackdt := none, repeatdt := some 4, rs := 0, hasFieldset := true,
    input := fun _ t => .fin ((⌊t / 6⌋ + 1) * 6) }

/-- The same backward from 10 to 0. -/
def demoBack : Args :=
  { S := 10, E := 0, dt := -1, hasFile := true, outputdt := some 3, moviedt := some 5,
    callbackdt := none, repeatdt := some 4, rs := 10, hasFieldset := true,
    input := fun _ _ => .ninf }

example : Ordinary demo where
  dt := by norm_num [demo]
  ahead := by norm_num [NotBefore, demo, sgn]
  fieldset := rfl
  input := by
    intro i t
    show 0 < _
    have h1 : sgn demo.dt = 1 := sgn_pos (by norm_num [demo])
    rw [h1]
    have := Int.lt_floor_add_one (t / 6)
    linarith
  output := by intro o ho; cases ho; norm_num
  movie := by intro o ho; cases ho; norm_num
  callback := by intro o ho; cases ho
  release := by intro o ho; cases ho; norm_num

example : OnUnit demo 1 where
  unit := by norm_num [tol]
  S := ⟨0, by norm_num [demo]⟩
  E := ⟨10, by norm_num [demo]⟩
  rs := ⟨0, by norm_num [demo]⟩
  output := by intro o ho; cases ho; exact ⟨3, by norm_num⟩
  movie := by intro o ho; cases ho; exact ⟨5, by norm_num⟩
  callback := by intro o ho; cases ho
  release := by intro o ho; cases ho; exact ⟨4, by norm_num⟩
  input := by
    intro i t q hq
    cases hq
    exact ⟨(⌊t / 6⌋ + 1) * 6, by push_cast; ring⟩

/-- What the run of `demo` does. -/
example : (match run demo 30 with
    | some (.done s) => some (s.stops, writes demo s, releases s)
    | _ => none) =
    some ([3, 4, 5, 6, 8, 9, 10], [0, 3, 6, 9, 10], [4, 8]) := by decide +kernel

example : (match run demoBack 30 with
    | some (.done s) => some (s.stops, writes demoBack s, releases s)
    | _ => none) =
    some ([7, 6, 5, 4, 2, 1, 0], [10, 7, 4, 1, 0], [6, 2]) := by decide +kernel

/-- The hypothesis on input times of `C12_terminates_partial` is met, for instance, by `demo` with a
single snapshot at 6 s. -/
example : ∀ i t q, ({ demo with input := fun _ t => if t < 6 then .fin 6 else .pinf } : Args).input i t = .fin q →
    q ∈ [(6 : ℚ)] ∨ 1 ≤ (q - t) * sgn demo.dt := by
  intro i t q hq
  simp only at hq
  split at hq
  · cases hq; left; simp
  · cases hq

/-- The hypotheses of `C12_zero_interval_never_ends` are met with `outputdt = 0`. -/
example : ∀ n, run { demo with outputdt := some 0, input := fun _ _ => .pinf } n = none := by
  apply C12_zero_interval_never_ends
  · norm_num [demo]
  · norm_num [After, demo, sgn]
  · rfl
  · intro i t; show (0 : ℚ) < 1; norm_num
  · intro o ho; cases ho; norm_num
  · intro o ho; cases ho; norm_num
  · intro o ho; cases ho
  · intro o ho; cases ho; norm_num
  · exact Or.inl ⟨rfl, rfl⟩

end Parcels.Schedule
