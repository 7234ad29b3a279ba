import Verif.Proofs.Schedule

namespace Parcels.Schedule

/-- Every stop is at or before the input time that was current when it was chosen. -/
structure InputInv (a : Args) (s : St) : Prop where
  calls : s.time ≠ a.E → s.calls = s.stops.length + 1 ∧ s.nextIn = a.input s.stops.length s.time
  nb : ∀ i (hi : i < s.stops.length),
    NB a.dt s.stops[i] (a.input i ((a.S :: s.stops)[i]'(by simp; omega)))

theorem input_fire {a : Args} (h : Ordinary a) {s : St} (hS : StopInv a s) (hI : InputInv a s)
    {t : ℚ} (haft : After a.dt s.time t) (hle : NotBefore a.dt t a.E)
    (hst : nextStop a s = .fin t) : InputInv a (fire a s t) := by
  have hne : s.time ≠ a.E := by
    intro e; rw [e] at haft
    unfold After at haft; unfold NotBefore at hle
    have : (t - a.E) * sgn a.dt = - ((a.E - t) * sgn a.dt) := by ring
    linarith
  obtain ⟨hc, hin⟩ := hI.calls hne
  have hnb : NB a.dt t s.nextIn :=
    ((nextStop_nb h.dt s t).mp (by rw [hst]; simp [NB, NotBefore])).2.1
  constructor
  · intro hne'
    simp only [fire] at hne' ⊢
    rw [if_pos hne', if_pos hne', hc]
    simp
  · intro i hi
    simp only [fire] at hi ⊢
    have hi' : i < s.stops.length + 1 := by simpa using hi
    rcases Nat.lt_or_ge i s.stops.length with h1 | h1
    · have := hI.nb i h1
      rw [List.getElem_append_left h1]
      have e : (a.S :: (s.stops ++ [t]))[i]'(by simp; omega) = (a.S :: s.stops)[i]'(by simp; omega) := by
        cases i with
        | zero => rfl
        | succ j =>
          simp only [List.getElem_cons_succ]
          rw [List.getElem_append_left (by omega)]
      rw [e]; exact this
    · have : i = s.stops.length := by omega
      subst this
      rw [List.getElem_append_right (le_refl _)]
      simp only [Nat.sub_self, List.getElem_cons_zero]
      have e : (a.S :: (s.stops ++ [t]))[s.stops.length]'(by simp; omega) = s.time := by
        rw [← hS.last, List.getLast_eq_getElem]
        simp only [List.length_cons, Nat.add_sub_cancel]
        exact List.getElem_append_left (as := a.S :: s.stops) (bs := [t]) (by simp)
      rw [e, ← hin]; exact hnb

theorem initNext_fin (a : Args) (h : a.dt ≠ 0) (x : Stream) (hx : x ≠ .release) (r : ℚ)
    (hr : interval a x = some r) : initNext a x = .fin (a.S + r * sgn a.dt) := by
  have : initNext a x = firstEvent a.dt a.S (interval a x) := by cases x <;> first | rfl | exact absurd rfl hx
  rw [this, hr]
  rcases pos_or_neg h with ⟨hp, e⟩ | ⟨hp, e⟩
  · simp only [firstEvent, hp, if_true, e, mul_one]
  · simp only [firstEvent, not_lt.mpr (le_of_lt hp), if_false, e]
    congr 1; ring

theorem initNext_release (a : Args) (r : ℚ) (hr : interval a .release = some r) :
    initNext a .release = .fin (a.rs + (⌊|a.S - a.rs| / r⌋ + 1) * r * sgn a.dt) := by
  simp only [initNext, hr]

structure Facts (a : Args) (s : St) : Prop where
  inv : Inv a s
  stop : StopInv a s
  input : InputInv a s
  stream : ∀ x r q0, interval a x = some r → initNext a x = .fin q0 → StreamInv a x q0 r s
  unit : ∀ u, OnUnit a u → UnitInv a u s

theorem facts_init {a : Args} (h : Ordinary a) : Facts a (init a) := by
  refine ⟨inv_init h, ⟨by simp [init], by simp [init]⟩, ⟨?_, by simp [init]⟩, ?_, fun u hu => unit_init h hu⟩
  · intro _; simp [init, h.fieldset]
  · intro x r q0 hr hq
    refine ⟨?_, ?_, ?_⟩ <;> simp [init, timesOf, hq]

theorem run_facts {a : Args} (h : Ordinary a) {n : Nat} {r : Run} (hr : run a n = some r) :
    ∃ s, r = .done s ∧ Facts a s ∧ s.time = a.E := by
  obtain ⟨s, h1, h2, h3, h4⟩ := loop_inv h (Facts a) (by
    intro s t hI hF hc hst haft hle hnb hmem
    exact ⟨inv_fire h hI hle hnb, stop_fire hF.stop haft, input_fire h hF.stop hF.input haft hle hst,
      fun x r q0 hr hq => stream_fire hr (hF.stream x r q0 hr hq) (hnb x),
      fun u hu => (unit_fire hu (hF.unit u hu) hmem).2⟩) n (init a) r hr (inv_init h) (facts_init h)
  exact ⟨s, h1, h3, h4⟩

/-- On a unit, the events of a stream are exactly its scheduled times. -/
theorem times_exact {a : Args} (h : Ordinary a) {u : ℚ} (hu : OnUnit a u) {s : St} (hF : Facts a s)
    (hE : s.time = a.E) {x : Stream} {r q0 : ℚ} (hr : interval a x = some r)
    (hq : initNext a x = .fin q0) :
    timesOf x s = (List.range (timesOf x s).length).map (fun i : Nat => q0 + (i : ℚ) * (r * sgn a.dt)) ∧
    After a.dt a.E (q0 + (timesOf x s).length * (r * sgn a.dt)) ∧
    (∀ i < (timesOf x s).length, NotBefore a.dt (q0 + (i : ℚ) * (r * sgn a.dt)) a.E) := by
  have hS := hF.stream x r q0 hr hq
  have hq0 : Mult u q0 := by have := (unit_init h hu).next x; simp only [init, hq] at this; exact this
  have hex : ∀ i (hi : i < (timesOf x s).length), (timesOf x s)[i] = q0 + (i : ℚ) * (r * sgn a.dt) := by
    intro i hi
    refine Mult.eq_of_lt hu.unit ((hF.unit u hu).stops _ (hS.stops _ (List.getElem_mem hi))) ?_
      (hS.times i hi).2
    refine hq0.add ?_
    have := Mult.mul_int (Mult.mul_sgn (interval_mult hu x r hr) a.dt) i
    push_cast at this; exact this
  refine ⟨?_, ?_, ?_⟩
  · apply List.ext_getElem
    · simp
    · intro i h1 h2
      rw [hex i h1]; simp
  · have := hF.inv.next x
    rw [hS.next, hE] at this; exact this
  · intro i hi
    rw [← hex i hi]
    have hm := hS.stops _ (List.getElem_mem hi)
    -- every stop is at or before the last one
    have hl := hF.stop.last
    have hmono := hF.stop.mono
    have hmem : (timesOf x s)[i] ∈ a.S :: s.stops := List.mem_cons_of_mem _ hm
    obtain ⟨pre, hpre⟩ : ∃ pre, a.S :: s.stops = pre ++ [s.time] :=
      ⟨(a.S :: s.stops).dropLast, by rw [← hl, List.dropLast_append_getLast]⟩
    rw [hpre] at hmem hmono
    rcases List.mem_append.mp hmem with h1 | h1
    · have := (List.pairwise_append.mp hmono).2.2 _ h1 s.time (by simp)
      rw [hE] at this; exact le_of_lt this
    · simp only [List.mem_singleton] at h1
      rw [h1, hE]; simp [NotBefore]

theorem after_iff_lt {dt x y : ℚ} : After dt x y ↔ x * sgn dt < y * sgn dt := by
  unfold After; rw [sub_mul]; exact sub_pos
theorem notBefore_iff_le {dt x y : ℚ} : NotBefore dt x y ↔ x * sgn dt ≤ y * sgn dt := by
  unfold NotBefore; rw [sub_mul]; exact sub_nonneg

theorem after_irrefl (dt x : ℚ) : ¬ After dt x x := by unfold After; simp

/-! ### Termination -/

/-- Number of remaining events of a stream. -/
def remS (a : Args) (s : St) (x : Stream) : Nat :=
  match s.next x, interval a x with
  | .fin q, some r => ⌊(a.E - q) * sgn a.dt / r + 1⌋₊
  | _, _ => 0

def remIn (a : Args) (ts : List ℚ) (δ : ℚ) (t : ℚ) : Nat :=
  (ts.filter fun q => decide (0 < (q - t) * sgn a.dt)).length + ⌊(a.E - t) * sgn a.dt / δ⌋₊

def measure (a : Args) (ts : List ℚ) (δ : ℚ) (s : St) : Nat :=
  remS a s .release + remS a s .output + remS a s .movie + remS a s .callback + remIn a ts δ s.time

theorem floor_sub_lt {y z : ℚ} (hy : 1 ≤ y) (hz : 1 ≤ z) : ⌊y - z⌋₊ < ⌊y⌋₊ := by
  have h1 : ⌊y - z⌋₊ ≤ ⌊y - 1⌋₊ := Nat.floor_mono (by linarith)
  have h2 : ⌊y - 1⌋₊ = ⌊y⌋₊ - 1 := by
    have := Nat.floor_sub_natCast y 1
    push_cast at this; exact this
  have h3 : 1 ≤ ⌊y⌋₊ := Nat.le_floor (by push_cast; exact hy)
  omega

theorem remS_fire {a : Args} (h : Ordinary a) {s : St} {t : ℚ} (x : Stream) :
    remS a (fire a s t) x ≤ remS a s x ∧
    (s.next x = .fin t → NotBefore a.dt t a.E → (∃ r, interval a x = some r) →
      remS a (fire a s t) x < remS a s x) := by
  have hss := sgn_mul_self_of_ne h.dt
  by_cases hn : near t (s.next x) = true
  · obtain ⟨q, hq, _⟩ := (near_iff _ _).mp hn
    have hnext : (fire a s t).next x = bump a.dt (interval a x) (s.next x) := by
      simp only [fire, hn, if_true]
    rcases hr : interval a x with _ | r
    · refine ⟨?_, ?_⟩
      · unfold remS; rw [hr]
        rcases (fire a s t).next x with _ | _ | _ <;> simp
      · rintro _ _ ⟨r, hr'⟩; exact absurd hr' (by simp)
    · have hrp := interval_pos h x r hr
      rw [hq, hr] at hnext
      simp only [bump] at hnext
      have e1 : remS a (fire a s t) x = ⌊(a.E - q) * sgn a.dt / r + 1 - 1⌋₊ := by
        unfold remS; rw [hnext, hr]
        simp only []
        congr 1
        have : (a.E - (q + r * sgn a.dt)) * sgn a.dt = (a.E - q) * sgn a.dt - r * (sgn a.dt * sgn a.dt) := by
          ring
        rw [this, hss]; field_simp; ring
      have e2 : remS a s x = ⌊(a.E - q) * sgn a.dt / r + 1⌋₊ := by
        unfold remS; rw [hq, hr]
      rw [e1, e2]
      refine ⟨Nat.floor_mono (by linarith), ?_⟩
      intro hqt hle _
      rw [hq] at hqt; cases hqt
      apply floor_sub_lt _ le_rfl
      unfold NotBefore at hle
      have := div_nonneg hle (le_of_lt hrp)
      linarith
  · have hnext : (fire a s t).next x = s.next x := by simp only [fire, hn]; rfl
    refine ⟨by unfold remS; rw [hnext], ?_⟩
    intro hq _ _
    exfalso; apply hn
    rw [near_iff]; exact ⟨t, hq, by simp [tol_pos]⟩

theorem remIn_mono {a : Args} {ts : List ℚ} {δ : ℚ} (hδ : 0 < δ) {t t' : ℚ} (h : After a.dt t t') :
    remIn a ts δ t' ≤ remIn a ts δ t := by
  unfold After at h
  unfold remIn
  apply Nat.add_le_add
  · apply List.Sublist.length_le
    apply List.monotone_filter_right
    intro q hq
    simp only [decide_eq_true_eq] at hq ⊢
    have : (q - t) * sgn a.dt = (q - t') * sgn a.dt + (t' - t) * sgn a.dt := by ring
    linarith
  · apply Nat.floor_mono
    apply (div_le_div_iff_of_pos_right hδ).mpr
    have : (a.E - t) * sgn a.dt = (a.E - t') * sgn a.dt + (t' - t) * sgn a.dt := by ring
    linarith

theorem remIn_lt {a : Args} {ts : List ℚ} {δ : ℚ} (hδ : 0 < δ) {t t' : ℚ} (h : After a.dt t t')
    (hle : NotBefore a.dt t' a.E) (hin : t' ∈ ts ∨ δ ≤ (t' - t) * sgn a.dt) :
    remIn a ts δ t' < remIn a ts δ t := by
  have h' := h
  unfold After at h; unfold NotBefore at hle
  have esplit : (a.E - t) * sgn a.dt = (a.E - t') * sgn a.dt + (t' - t) * sgn a.dt := by ring
  have hsub : (ts.filter fun q => decide (0 < (q - t') * sgn a.dt)).Sublist
      (ts.filter fun q => decide (0 < (q - t) * sgn a.dt)) := by
    apply List.monotone_filter_right
    intro q hq
    simp only [decide_eq_true_eq] at hq ⊢
    have : (q - t) * sgn a.dt = (q - t') * sgn a.dt + (t' - t) * sgn a.dt := by ring
    linarith
  have hfl : ⌊(a.E - t') * sgn a.dt / δ⌋₊ ≤ ⌊(a.E - t) * sgn a.dt / δ⌋₊ := by
    apply Nat.floor_mono
    apply (div_le_div_iff_of_pos_right hδ).mpr
    linarith
  unfold remIn
  rcases hin with hm | hd
  · apply Nat.add_lt_add_of_lt_of_le _ hfl
    rcases Nat.lt_or_eq_of_le hsub.length_le with h1 | h1
    · exact h1
    · exfalso
      have := hsub.eq_of_length h1
      have hmem : t' ∈ ts.filter fun q => decide (0 < (q - t) * sgn a.dt) := by
        rw [List.mem_filter]; exact ⟨hm, by simpa using h⟩
      rw [← this, List.mem_filter] at hmem
      simp at hmem
  · apply Nat.add_lt_add_of_le_of_lt hsub.length_le
    have e : (a.E - t') * sgn a.dt / δ = (a.E - t) * sgn a.dt / δ - (t' - t) * sgn a.dt / δ := by
      rw [← sub_div]; congr 1; linarith
    rw [e]
    apply floor_sub_lt
    · rw [le_div_iff₀ hδ]; linarith
    · rw [le_div_iff₀ hδ]; linarith

theorem loop_terminates {a : Args} (h : Ordinary a) (ts : List ℚ) (δ : ℚ) (hδ : 0 < δ)
    (hin : ∀ i t q, a.input i t = .fin q → q ∈ ts ∨ δ ≤ (q - t) * sgn a.dt) :
    ∀ n s, Facts a s → measure a ts δ s ≤ n → ∃ r, loop a (n + 2) s = some r := by
  intro n
  induction n with
  | zero =>
    intro s hF hm
    by_cases hc : continues a s
    · obtain ⟨t, hst, haft, hle, hnb, hmem⟩ := stop_spec h hF.inv hc
      have htE : t = a.E := by
        rcases hmem with ⟨x, hx⟩ | hx | hx
        · exfalso
          have h1 := (remS_fire h (s := s) (t := t) x).2 hx hle (hF.inv.fin x t hx)
          have : remS a s x ≤ measure a ts δ s := by unfold measure; cases x <;> omega
          omega
        · exfalso
          have hne : s.time ≠ a.E := by
            intro e; rw [continues_iff h.dt, e] at hc; exact after_irrefl _ _ hc
          rw [(hF.input.calls hne).2] at hx
          have := remIn_lt (ts := ts) hδ haft hle (hin _ _ _ hx)
          have : remIn a ts δ s.time ≤ measure a ts δ s := by unfold measure; omega
          omega
        · exact hx
      refine ⟨.done (fire a s t), ?_⟩
      rw [loop, if_pos hc, hst]
      simp only [h.fieldset]
      rw [if_neg (by simp), if_neg h.dt, loop, if_neg]
      rw [continues_iff h.dt]
      simp only [fire]
      rw [htE]; exact after_irrefl _ _
    · exact ⟨.done s, by rw [loop, if_neg hc]⟩
  | succ n ih =>
    intro s hF hm
    by_cases hc : continues a s
    · obtain ⟨t, hst, haft, hle, hnb, hmem⟩ := stop_spec h hF.inv hc
      have hF' : Facts a (fire a s t) :=
        ⟨inv_fire h hF.inv hle hnb, stop_fire hF.stop haft,
          input_fire h hF.stop hF.input haft hle hst,
          fun x r q0 hr hq => stream_fire hr (hF.stream x r q0 hr hq) (hnb x),
          fun u hu => (unit_fire hu (hF.unit u hu) hmem).2⟩
      have hstep : loop a (n + 1 + 2) s = loop a (n + 2) (fire a s t) := by
        conv_lhs => rw [show n + 1 + 2 = (n + 2) + 1 by ring, loop]
        rw [if_pos hc, hst]
        simp only [h.fieldset]
        rw [if_neg (by simp), if_neg h.dt]
      rw [hstep]
      rcases hmem with hx | hx | hx
      · obtain ⟨x, hx⟩ := hx
        apply ih _ hF'
        have h1 := (remS_fire h (s := s) (t := t) x).2 hx hle (hF.inv.fin x t hx)
        have g := fun y => (remS_fire h (s := s) (t := t) y).1
        have gi := remIn_mono (ts := ts) hδ haft
        have g1 := g .release; have g2 := g .output; have g3 := g .movie; have g4 := g .callback
        have : measure a ts δ (fire a s t) < measure a ts δ s := by
          unfold measure
          have e : (fire a s t).time = t := rfl
          rw [e]
          cases x <;> omega
        omega
      · apply ih _ hF'
        have hne : s.time ≠ a.E := by
          intro e; rw [continues_iff h.dt, e] at hc; exact after_irrefl _ _ hc
        rw [(hF.input.calls hne).2] at hx
        have gi := remIn_lt (ts := ts) hδ haft hle (hin _ _ _ hx)
        have g := fun y => (remS_fire h (s := s) (t := t) y).1
        have g1 := g .release; have g2 := g .output; have g3 := g .movie; have g4 := g .callback
        have : measure a ts δ (fire a s t) < measure a ts δ s := by
          unfold measure
          have e : (fire a s t).time = t := rfl
          rw [e]; omega
        omega
      · refine ⟨.done (fire a s t), ?_⟩
        rw [loop, if_neg]
        rw [continues_iff h.dt]
        simp only [fire]
        rw [hx]; exact after_irrefl _ _
    · exact ⟨.done s, by rw [loop, if_neg hc]⟩

/-! ### Zero intervals -/

structure Stuck (a : Args) (x : Stream) (s : St) : Prop where
  time : s.time = a.S
  next : ∀ y, NB a.dt a.S (s.next y)
  here : s.next x = .fin a.S
  input : NB a.dt a.S s.nextIn
  fin : ∀ y q, s.next y = .fin q → ∃ r, interval a y = some r

theorem stuck_forever {a : Args} (hdt : a.dt ≠ 0) (hSE : After a.dt a.S a.E)
    (hfs : a.hasFieldset = true) (hin : ∀ i t, AfterExt a.dt t (a.input i t)) (x : Stream)
    (hx : interval a x = some 0) (hnn : ∀ y r, interval a y = some r → 0 ≤ r) :
    ∀ n s, Stuck a x s → loop a n s = none := by
  intro n
  induction n with
  | zero => intro s _; rfl
  | succ n ih =>
    intro s hs
    have hc : continues a s := by rw [continues_iff hdt, hs.time]; exact hSE
    have hnow : NB a.dt a.S (nextStop a s) :=
      (nextStop_nb hdt s a.S).mpr ⟨hs.next, hs.input, le_of_lt hSE⟩
    have hst : nextStop a s = .fin a.S := by
      rcases hst : nextStop a s with _ | t | _
      · exfalso
        rw [hst] at hnow
        have : NB a.dt (a.S + sgn a.dt) (nextStop a s) := by rw [hst]; exact hnow
        have h2 := ((nextStop_nb hdt s _).mp this).1 x
        rw [hs.here] at h2
        simp only [NB, NotBefore] at h2
        rw [show (a.S - (a.S + sgn a.dt)) * sgn a.dt = - (sgn a.dt * sgn a.dt) by ring,
          sgn_mul_self_of_ne hdt] at h2
        norm_num at h2
      · rw [hst] at hnow
        have h2 := ((nextStop_nb hdt s t).mp (by rw [hst]; simp [NB, NotBefore])).1 x
        rw [hs.here] at h2
        simp only [NB, NotBefore] at h2 hnow
        have h3 : (t - a.S) * sgn a.dt = 0 := by
          have : (a.S - t) * sgn a.dt = - ((t - a.S) * sgn a.dt) := by ring
          linarith
        have h4 : (t - a.S) * sgn a.dt * sgn a.dt = 0 := by rw [h3]; ring
        rw [mul_assoc, sgn_mul_self_of_ne hdt, mul_one] at h4
        congr 1; linarith
      · exfalso
        rw [hst] at hnow
        have : NB a.dt (a.S + sgn a.dt) (nextStop a s) := by rw [hst]; exact hnow
        have h2 := ((nextStop_nb hdt s _).mp this).1 x
        rw [hs.here] at h2
        simp only [NB, NotBefore] at h2
        rw [show (a.S - (a.S + sgn a.dt)) * sgn a.dt = - (sgn a.dt * sgn a.dt) by ring,
          sgn_mul_self_of_ne hdt] at h2
        norm_num at h2
    have hne : a.S ≠ a.E := by intro e; rw [← e] at hSE; exact after_irrefl _ _ hSE
    rw [loop, if_pos hc, hst]
    simp only [hfs]
    rw [if_neg (by simp), if_neg hdt]
    apply ih
    refine ⟨rfl, ?_, ?_, ?_, ?_⟩
    · intro y
      simp only [fire]
      split
      · rcases hy : s.next y with _ | q | _
        · have := hs.next y; rw [hy] at this; simpa [bump] using this
        · obtain ⟨r, hr⟩ := hs.fin y q hy
          have := hs.next y
          rw [hy] at this
          simp only [bump, hr, NB, NotBefore] at this ⊢
          have e : (q + r * sgn a.dt - a.S) * sgn a.dt = (q - a.S) * sgn a.dt + r * (sgn a.dt * sgn a.dt) := by
            ring
          rw [e, sgn_mul_self_of_ne hdt]
          have := hnn y r hr
          linarith
        · have := hs.next y; rw [hy] at this; simpa [bump] using this
      · exact hs.next y
    · simp only [fire, hs.here]
      have : near a.S (.fin a.S) = true := by rw [near_iff]; exact ⟨_, rfl, by simp [tol_pos]⟩
      rw [if_pos this]
      simp only [bump, hx]
      congr 1; ring
    · simp only [fire, hne, ne_eq, not_false_eq_true, if_true]
      exact (hin _ _).nb
    · intro y q hq
      simp only [fire] at hq
      split at hq
      · rcases hy : s.next y with _ | q' | _
        · rw [hy] at hq; cases hq
        · exact hs.fin y q' hy
        · rw [hy] at hq; cases hq
      · exact hs.fin y q hq

end Parcels.Schedule
