import Verif.Spec.Schedule
import Verif.Proofs.KernelLoop
import Mathlib.Algebra.Order.Floor.Ring
import Mathlib.Data.Rat.Floor

namespace Parcels.Schedule

/-- `t` is at or before the event time `e` in the direction of `dt`. -/
def NB (dt t : ℚ) : Ext → Prop
  | .fin q => NotBefore dt t q
  | .pinf => 0 < dt
  | .ninf => dt < 0

theorem AfterExt.nb {dt t : ℚ} {e : Ext} (h : AfterExt dt t e) : NB dt t e := by
  cases e with
  | fin q => exact le_of_lt h
  | pinf => exact h
  | ninf => exact h

theorem pos_or_neg {dt : ℚ} (h : dt ≠ 0) : (0 < dt ∧ sgn dt = 1) ∨ (dt < 0 ∧ sgn dt = -1) := by
  rcases sgn_cases dt with h' | h' | h'
  · exact Or.inl h'
  · exact Or.inr h'
  · exact absurd h'.1 h

/-- The direction-dependent choice of the loop. -/
def pick (dt : ℚ) : Ext → Ext → Ext := if 0 < dt then Ext.min2 else Ext.max2

theorem pick_nb {dt : ℚ} (h : dt ≠ 0) (t : ℚ) (x y : Ext) :
    NB dt t (pick dt x y) ↔ NB dt t x ∧ NB dt t y := by
  rcases pos_or_neg h with ⟨hp, e⟩ | ⟨hp, e⟩
  · unfold pick; rw [if_pos hp]
    have hn : ¬ dt < 0 := not_lt.mpr (le_of_lt hp)
    cases x with
    | ninf => cases y <;> simp [Ext.min2, NB, hn]
    | pinf => cases y <;> simp [Ext.min2, NB, hp]
    | fin a =>
      cases y with
      | ninf => simp [Ext.min2, NB, hn]
      | pinf => simp [Ext.min2, NB, hp]
      | fin b =>
        by_cases hab : b < a
        · simp only [Ext.min2, hab, if_true, NB, NotBefore, e]
          constructor
          · intro h; exact ⟨by linarith, h⟩
          · exact fun h => h.2
        · simp only [Ext.min2, hab, if_false, NB, NotBefore, e]
          constructor
          · intro h; exact ⟨h, by linarith⟩
          · exact fun h => h.1
  · unfold pick; rw [if_neg (not_lt.mpr (le_of_lt hp))]
    have hn : ¬ 0 < dt := not_lt.mpr (le_of_lt hp)
    cases x with
    | pinf => cases y <;> simp [Ext.max2, NB, hn]
    | ninf => cases y <;> simp [Ext.max2, NB, hp]
    | fin a =>
      cases y with
      | pinf => simp [Ext.max2, NB, hn]
      | ninf => simp [Ext.max2, NB, hp]
      | fin b =>
        by_cases hab : a < b
        · simp only [Ext.max2, hab, if_true, NB, NotBefore, e]
          constructor
          · intro h; exact ⟨by linarith, h⟩
          · exact fun h => h.2
        · simp only [Ext.max2, hab, if_false, NB, NotBefore, e]
          constructor
          · intro h; exact ⟨h, by linarith⟩
          · exact fun h => h.1

theorem pick_mem (dt : ℚ) (x y : Ext) : pick dt x y = x ∨ pick dt x y = y := by
  unfold pick
  split
  · cases x <;> cases y <;> simp [Ext.min2]
    rename_i a b
    by_cases h : b < a
    · right; simp [h]
    · left; simp [h]
  · cases x <;> cases y <;> simp [Ext.max2]
    rename_i a b
    by_cases h : a < b
    · right; simp [h]
    · left; simp [h]

theorem nextStop_eq (a : Args) (s : St) : nextStop a s =
    pick a.dt (s.next .release) (pick a.dt s.nextIn (pick a.dt (s.next .output)
      (pick a.dt (s.next .movie) (pick a.dt (s.next .callback) (.fin a.E))))) := rfl

theorem nextStop_nb {a : Args} (h : a.dt ≠ 0) (s : St) (t : ℚ) :
    NB a.dt t (nextStop a s) ↔ (∀ x, NB a.dt t (s.next x)) ∧ NB a.dt t s.nextIn ∧
      NotBefore a.dt t a.E := by
  rw [nextStop_eq]
  simp only [pick_nb h]
  constructor
  · rintro ⟨h1, h2, h3, h4, h5, h6⟩
    refine ⟨fun x => ?_, h2, h6⟩
    cases x <;> assumption
  · rintro ⟨h1, h2, h3⟩
    exact ⟨h1 _, h2, h1 _, h1 _, h1 _, h3⟩

theorem nextStop_mem (a : Args) (s : St) :
    (∃ x, nextStop a s = s.next x) ∨ nextStop a s = s.nextIn ∨ nextStop a s = .fin a.E := by
  rw [nextStop_eq]
  rcases pick_mem a.dt (s.next .release) (pick a.dt s.nextIn (pick a.dt (s.next .output)
      (pick a.dt (s.next .movie) (pick a.dt (s.next .callback) (.fin a.E))))) with h | h
  · exact Or.inl ⟨_, h⟩
  rw [h]
  rcases pick_mem a.dt s.nextIn (pick a.dt (s.next .output)
      (pick a.dt (s.next .movie) (pick a.dt (s.next .callback) (.fin a.E)))) with h | h
  · exact Or.inr (Or.inl h)
  rw [h]
  rcases pick_mem a.dt (s.next .output)
      (pick a.dt (s.next .movie) (pick a.dt (s.next .callback) (.fin a.E))) with h | h
  · exact Or.inl ⟨_, h⟩
  rw [h]
  rcases pick_mem a.dt (s.next .movie) (pick a.dt (s.next .callback) (.fin a.E)) with h | h
  · exact Or.inl ⟨_, h⟩
  rw [h]
  rcases pick_mem a.dt (s.next .callback) (.fin a.E) with h | h
  · exact Or.inl ⟨_, h⟩
  · exact Or.inr (Or.inr h)

theorem continues_iff {a : Args} (h : a.dt ≠ 0) (s : St) : continues a s ↔ After a.dt s.time a.E := by
  unfold continues After
  rcases pos_or_neg h with ⟨hp, e⟩ | ⟨hp, e⟩ <;> rw [e]
  · constructor
    · rintro (h1 | h1 | h1)
      · linarith [h1.1]
      · linarith [h1.2]
      · exact absurd h1 h
    · intro h1; left; exact ⟨by linarith, hp⟩
  · constructor
    · rintro (h1 | h1 | h1)
      · linarith [h1.2]
      · linarith [h1.1]
      · exact absurd h1 h
    · intro h1; right; left; exact ⟨by linarith, hp⟩

theorem interval_pos {a : Args} (h : Ordinary a) (x : Stream) (r : ℚ)
    (hr : interval a x = some r) : 0 < r := by
  have hmin : ∀ u v : Option ℚ, (∀ r, u = some r → 0 < r) → (∀ r, v = some r → 0 < r) →
      ∀ r, minOpt u v = some r → 0 < r := by
    intro u v hu hv r hr
    cases u <;> cases v <;> simp only [minOpt] at hr
    · cases hr
    · exact hv r hr
    · exact hu r hr
    · cases hr; exact lt_min (hu _ rfl) (hv _ rfl)
  have hout : ∀ r, (if a.hasFile then a.outputdt else none) = some r → 0 < r := by
    intro r hr; split at hr
    · exact h.output r hr
    · cases hr
  cases x with
  | release =>
    simp only [interval] at hr
    split at hr
    · cases hr
    · exact h.release r hr
  | output => exact hout r hr
  | movie => exact h.movie r hr
  | callback =>
    simp only [interval] at hr
    split at hr
    · rename_i c hc; cases hr; exact h.callback _ hc
    · exact hmin _ _ (hmin _ _ h.movie hout) h.release r hr

/-- Main invariant of the event loop for ordinary arguments. -/
structure Inv (a : Args) (s : St) : Prop where
  next : ∀ x, AfterExt a.dt s.time (s.next x)
  fin : ∀ x q, s.next x = .fin q → ∃ r, interval a x = some r
  nextIn : s.time ≠ a.E → AfterExt a.dt s.time s.nextIn
  le : NotBefore a.dt s.time a.E

theorem first_after {dt t : ℚ} (hdt : dt ≠ 0) (i : Option ℚ) (hi : ∀ r, i = some r → 0 < r) :
    AfterExt dt t (firstEvent dt t i) := by
  rcases pos_or_neg hdt with ⟨hp, e⟩ | ⟨hp, e⟩
  · cases i with
    | none => simp only [firstEvent, hp, if_true, AfterExt]
    | some r =>
      simp only [firstEvent, hp, if_true, AfterExt, After, e]
      linarith [hi r rfl]
  · have hn : ¬ 0 < dt := not_lt.mpr (le_of_lt hp)
    cases i with
    | none => simp only [firstEvent, hn, if_false, AfterExt]; exact hp
    | some r =>
      simp only [firstEvent, hn, if_false, AfterExt, After, e]
      linarith [hi r rfl]

theorem release_after (dt S rs r : ℚ) (hdt : dt ≠ 0) (hr : 0 < r) :
    After dt S (rs + (⌊|S - rs| / r⌋ + 1) * r * sgn dt) := by
  have hss := sgn_mul_self_of_ne hdt
  unfold After
  have h1 : |S - rs| < (⌊|S - rs| / r⌋ + 1) * r := by
    have := Int.lt_floor_add_one (|S - rs| / r)
    rwa [div_lt_iff₀ hr] at this
  have e : (rs + (⌊|S - rs| / r⌋ + 1) * r * sgn dt - S) * sgn dt =
      (⌊|S - rs| / r⌋ + 1) * r * (sgn dt * sgn dt) - (S - rs) * sgn dt := by ring
  rw [e, hss]
  have h2 : (S - rs) * sgn dt ≤ |S - rs| := by
    rcases pos_or_neg hdt with ⟨_, e⟩ | ⟨_, e⟩ <;> rw [e]
    · rw [mul_one]; exact le_abs_self _
    · rw [mul_neg_one]; exact neg_le_abs _
  linarith

theorem inv_init {a : Args} (h : Ordinary a) : Inv a (init a) := by
  refine ⟨?_, ?_, ?_, h.ahead⟩
  · intro x
    have hi := fun r => interval_pos h x r
    cases x with
    | release =>
      simp only [init, initNext]
      rcases hr : interval a .release with _ | r
      · simp only []
        rcases pos_or_neg h.dt with ⟨hp, e⟩ | ⟨hp, e⟩
        · rw [if_pos hp]; exact hp
        · rw [if_neg (not_lt.mpr (le_of_lt hp))]; exact hp
      · exact release_after a.dt a.S a.rs r h.dt (hi r hr)
    | output => exact first_after h.dt _ hi
    | movie => exact first_after h.dt _ hi
    | callback => exact first_after h.dt _ hi
  · intro x q hq
    have key : ∀ y : Option ℚ, firstEvent a.dt a.S y = .fin q → ∃ r, y = some r := by
      intro y hy
      cases y with
      | none => simp only [firstEvent] at hy; split at hy <;> cases hy
      | some r => exact ⟨r, rfl⟩
    cases x with
    | release =>
      simp only [init, initNext] at hq
      rcases hr : interval a .release with _ | r
      · rw [hr] at hq; simp only [] at hq; split at hq <;> cases hq
      · exact ⟨r, rfl⟩
    | output => exact key _ hq
    | movie => exact key _ hq
    | callback => exact key _ hq
  · intro _
    simp only [init, h.fieldset, if_true]
    exact h.input 0 a.S

/-- The next stop is finite, after the current time, not after `E` and not after any event. -/
theorem stop_spec {a : Args} (h : Ordinary a) {s : St} (hI : Inv a s) (hc : continues a s) :
    ∃ t, nextStop a s = .fin t ∧ After a.dt s.time t ∧ NotBefore a.dt t a.E ∧
      (∀ x, NB a.dt t (s.next x)) ∧
      ((∃ x, s.next x = .fin t) ∨ s.nextIn = .fin t ∨ t = a.E) := by
  rw [continues_iff h.dt] at hc
  have hne : s.time ≠ a.E := by
    intro e; unfold After at hc; rw [e] at hc; simp at hc
  have hin := hI.nextIn hne
  have hnow : NB a.dt s.time (nextStop a s) :=
    (nextStop_nb h.dt s s.time).mpr ⟨fun x => (hI.next x).nb, hin.nb, hI.le⟩
  have hmem := nextStop_mem a s
  rcases hst : nextStop a s with _ | t | _
  · -- ninf
    rw [hst] at hnow
    have hneg : a.dt < 0 := hnow
    exfalso
    have : NB a.dt (a.E + sgn a.dt) (nextStop a s) := by rw [hst]; exact hneg
    have h2 := ((nextStop_nb h.dt s _).mp this).2.2
    unfold NotBefore at h2
    rw [show (a.E - (a.E + sgn a.dt)) * sgn a.dt = - (sgn a.dt * sgn a.dt) by ring,
      sgn_mul_self_of_ne h.dt] at h2
    norm_num at h2
  · have hall := (nextStop_nb h.dt s t).mp (by rw [hst]; simp [NB, NotBefore])
    refine ⟨t, rfl, ?_, hall.2.2, hall.1, ?_⟩
    · rcases hmem with ⟨x, hx⟩ | hx | hx
      · have := hI.next x; rw [← hx, hst] at this; exact this
      · rw [← hx, hst] at hin; exact hin
      · rw [hst] at hx; cases hx; exact hc
    · rcases hmem with ⟨x, hx⟩ | hx | hx
      · left; exact ⟨x, by rw [← hx, hst]⟩
      · right; left; rw [← hx, hst]
      · right; right; rw [hst] at hx; cases hx; rfl
  · rw [hst] at hnow
    have hpos : 0 < a.dt := hnow
    exfalso
    have : NB a.dt (a.E + sgn a.dt) (nextStop a s) := by rw [hst]; exact hpos
    have h2 := ((nextStop_nb h.dt s _).mp this).2.2
    unfold NotBefore at h2
    rw [show (a.E - (a.E + sgn a.dt)) * sgn a.dt = - (sgn a.dt * sgn a.dt) by ring,
      sgn_mul_self_of_ne h.dt] at h2
    norm_num at h2

theorem near_iff (t : ℚ) (e : Ext) : near t e = true ↔ ∃ q, e = .fin q ∧ |t - q| < tol := by
  cases e <;> simp [near]

theorem tol_pos : 0 < tol := by unfold tol; norm_num

theorem inv_fire {a : Args} (h : Ordinary a) {s : St} (hI : Inv a s) {t : ℚ}
    (hle : NotBefore a.dt t a.E) (hnb : ∀ x, NB a.dt t (s.next x)) : Inv a (fire a s t) := by
  have hss := sgn_mul_self_of_ne h.dt
  refine ⟨?_, ?_, ?_, hle⟩
  · intro x
    simp only [fire]
    split
    · rename_i hn
      obtain ⟨q, hq, _⟩ := (near_iff _ _).mp hn
      obtain ⟨r, hr⟩ := hI.fin x q hq
      have hrp := interval_pos h x r hr
      have hb := hnb x
      rw [hq] at hb ⊢
      simp only [bump, hr, AfterExt, After]
      simp only [NB, NotBefore] at hb
      have e : (q + r * sgn a.dt - t) * sgn a.dt = (q - t) * sgn a.dt + r * (sgn a.dt * sgn a.dt) := by
        ring
      rw [e, hss]; linarith
    · rename_i hn
      have hb := hnb x
      rcases hx : s.next x with _ | q | _
      · rw [hx] at hb; exact hb
      · rw [hx] at hb hn
        simp only [NB, NotBefore] at hb
        simp only [AfterExt, After]
        rcases lt_or_eq_of_le hb with h1 | h1
        · exact h1
        · exfalso
          have : q - t = 0 := by
            have h2 : (q - t) * sgn a.dt * sgn a.dt = 0 := by rw [← h1]; ring
            rw [mul_assoc, hss, mul_one] at h2; exact h2
          apply hn
          rw [near_iff]
          refine ⟨q, rfl, ?_⟩
          rw [show t - q = -(q - t) by ring, this]; simp [tol_pos]
      · rw [hx] at hb; exact hb
  · intro x q hq
    simp only [fire] at hq
    split at hq
    · rcases hx : s.next x with _ | q' | _
      · rw [hx] at hq; cases hq
      · exact hI.fin x q' hx
      · rw [hx] at hq; cases hq
    · exact hI.fin x q hq
  · intro hne
    simp only [fire] at hne ⊢
    rw [if_pos hne]
    exact h.input _ _

/-- Rule of invariants for the event loop with ordinary arguments. -/
theorem loop_inv {a : Args} (h : Ordinary a) (P : St → Prop)
    (hstep : ∀ s t, Inv a s → P s → continues a s → nextStop a s = .fin t →
      After a.dt s.time t → NotBefore a.dt t a.E → (∀ x, NB a.dt t (s.next x)) →
      ((∃ x, s.next x = .fin t) ∨ s.nextIn = .fin t ∨ t = a.E) → P (fire a s t)) :
    ∀ n s r, loop a n s = some r → Inv a s → P s →
      ∃ s', r = .done s' ∧ Inv a s' ∧ P s' ∧ s'.time = a.E := by
  intro n
  induction n with
  | zero => intro s r hr; simp [loop] at hr
  | succ n ih =>
    intro s r hr hI hP
    rw [loop] at hr
    split at hr
    · rename_i hc
      obtain ⟨t, ht, h1, h2, h3, h4⟩ := stop_spec h hI hc
      rw [ht] at hr
      simp only [h.fieldset] at hr
      rw [if_neg (by simp), if_neg h.dt] at hr
      exact ih _ _ hr (inv_fire h hI h2 h3) (hstep s t hI hP hc ht h1 h2 h3 h4)
    · rename_i hc
      cases hr
      refine ⟨s, rfl, hI, hP, ?_⟩
      rw [continues_iff h.dt] at hc
      have h1 := hI.le
      unfold After at hc; unfold NotBefore at h1
      have h2 : (a.E - s.time) * sgn a.dt = 0 := le_antisymm (not_lt.mp hc) h1
      have h3 : (a.E - s.time) * sgn a.dt * sgn a.dt = 0 := by rw [h2]; ring
      rw [mul_assoc, sgn_mul_self_of_ne h.dt, mul_one] at h3
      linarith

/-! ### Stops -/

theorem filter_streams (p : Stream → Bool) (t : ℚ) (x : Stream) :
    (((streams.filter p).map fun y => (y, t)).filter fun e => e.1 = x).map (·.2) =
      if p x then [t] else [] := by
  unfold streams
  rcases h1 : p .release <;> rcases h2 : p .output <;> rcases h3 : p .movie <;>
    rcases h4 : p .callback <;> cases x <;> simp [List.filter, h1, h2, h3, h4]

theorem timesOf_fire (a : Args) (s : St) (t : ℚ) (x : Stream) :
    timesOf x (fire a s t) = timesOf x s ++ (if near t (s.next x) then [t] else []) := by
  unfold timesOf fire
  simp only [List.filter_append, List.map_append]
  congr 1
  exact filter_streams (fun x => near t (s.next x)) t x

/-- Invariant on the events of a finite stream with first event `q0` and interval `r`. -/
structure StreamInv (a : Args) (x : Stream) (q0 r : ℚ) (s : St) : Prop where
  next : s.next x = .fin (q0 + (timesOf x s).length * (r * sgn a.dt))
  times : ∀ i (hi : i < (timesOf x s).length),
    NotBefore a.dt (timesOf x s)[i] (q0 + (i : ℚ) * (r * sgn a.dt)) ∧
    |(timesOf x s)[i] - (q0 + (i : ℚ) * (r * sgn a.dt))| < tol
  stops : ∀ t ∈ timesOf x s, t ∈ s.stops

theorem stream_fire {a : Args} {x : Stream} {q0 r : ℚ} (hr : interval a x = some r) {s : St}
    (hS : StreamInv a x q0 r s) {t : ℚ} (hnb : NB a.dt t (s.next x)) :
    StreamInv a x q0 r (fire a s t) := by
  have hT := timesOf_fire a s t x
  by_cases hn : near t (s.next x) = true
  · rw [if_pos hn] at hT
    have hn' := hn
    rw [hS.next] at hnb hn'
    obtain ⟨q, hq, hlt⟩ := (near_iff _ _).mp hn'
    cases hq
    refine ⟨?_, ?_, ?_⟩
    · rw [hT]
      simp only [fire, hn, if_true]
      rw [hS.next]
      simp only [bump, hr, List.length_append, List.length_singleton]
      congr 1; push_cast; ring
    · intro i hi
      simp only [hT] at hi ⊢
      rcases Nat.lt_or_ge i (timesOf x s).length with h1 | h1
      · rw [List.getElem_append_left h1]; exact hS.times i h1
      · have : i = (timesOf x s).length := by simp at hi; omega
        subst this
        rw [List.getElem_append_right (le_refl _)]
        simp only [Nat.sub_self, List.getElem_cons_zero]
        exact ⟨hnb, hlt⟩
    · rw [hT]
      intro u hu
      simp only [fire]
      rcases List.mem_append.mp hu with h | h
      · exact List.mem_append_left _ (hS.stops u h)
      · exact List.mem_append_right _ h
  · rw [if_neg hn, List.append_nil] at hT
    refine ⟨?_, ?_, ?_⟩
    · rw [hT]
      simp only [fire]; rw [if_neg hn]; exact hS.next
    · intro i hi; simp only [hT] at hi ⊢; exact hS.times i hi
    · rw [hT]; intro u hu; simp only [fire]; exact List.mem_append_left _ (hS.stops u hu)

/-- Stops are strictly monotone and end at the current time. -/
structure StopInv (a : Args) (s : St) : Prop where
  mono : (a.S :: s.stops).Pairwise (After a.dt)
  last : (a.S :: s.stops).getLast (by simp) = s.time

theorem After.trans {dt x y z : ℚ} (h1 : After dt x y) (h2 : After dt y z) : After dt x z := by
  unfold After at *
  have : (z - x) * sgn dt = (y - x) * sgn dt + (z - y) * sgn dt := by ring
  linarith

theorem stop_fire {a : Args} {s : St} (hS : StopInv a s) {t : ℚ} (h : After a.dt s.time t) :
    StopInv a (fire a s t) := by
  constructor
  · simp only [fire]
    rw [← List.cons_append, List.pairwise_append]
    refine ⟨hS.mono, by simp, ?_⟩
    intro u hu v hv
    simp only [List.mem_singleton] at hv
    subst hv
    -- u is at or before the last element
    have hl := hS.last
    obtain ⟨pre, hpre⟩ : ∃ pre, a.S :: s.stops = pre ++ [s.time] := by
      refine ⟨(a.S :: s.stops).dropLast, ?_⟩
      rw [← hl, List.dropLast_append_getLast]
    have hm := hS.mono
    rw [hpre] at hu hm
    rcases List.mem_append.mp hu with h1 | h1
    · have := (List.pairwise_append.mp hm).2.2 u h1 s.time (by simp)
      exact this.trans h
    · simp only [List.mem_singleton] at h1; rw [h1]; exact h
  · simp [fire]

/-! ### Exactness on a unit -/

def Mult (u x : ℚ) : Prop := ∃ z : ℤ, x = z * u

theorem Mult.add {u x y : ℚ} (hx : Mult u x) (hy : Mult u y) : Mult u (x + y) := by
  obtain ⟨z, rfl⟩ := hx; obtain ⟨w, rfl⟩ := hy
  exact ⟨z + w, by push_cast; ring⟩

theorem Mult.sub {u x y : ℚ} (hx : Mult u x) (hy : Mult u y) : Mult u (x - y) := by
  obtain ⟨z, rfl⟩ := hx; obtain ⟨w, rfl⟩ := hy
  exact ⟨z - w, by push_cast; ring⟩

theorem Mult.mul_int {u x : ℚ} (hx : Mult u x) (n : ℤ) : Mult u (n * x) := by
  obtain ⟨z, rfl⟩ := hx
  exact ⟨n * z, by push_cast; ring⟩

theorem Mult.mul_sgn {u x : ℚ} (hx : Mult u x) (dt : ℚ) : Mult u (x * sgn dt) := by
  obtain ⟨z, rfl⟩ := hx
  rcases sgn_cases dt with ⟨_, e⟩ | ⟨_, e⟩ | ⟨_, e⟩ <;> rw [e]
  · exact ⟨z, by ring⟩
  · exact ⟨-z, by push_cast; ring⟩
  · exact ⟨0, by push_cast; ring⟩

theorem Mult.eq_of_lt {u x y : ℚ} (hu : tol ≤ u) (hx : Mult u x) (hy : Mult u y)
    (h : |x - y| < tol) : x = y := by
  obtain ⟨z, hz⟩ := hx.sub hy
  have hup : 0 < u := lt_of_lt_of_le tol_pos hu
  rw [hz, abs_mul, abs_of_pos hup] at h
  have h1 : |(z : ℚ)| * u < 1 * u := by linarith
  have h2 : |(z : ℚ)| < 1 := lt_of_mul_lt_mul_right h1 (le_of_lt hup)
  have h3 : |z| < 1 := by exact_mod_cast h2
  have h4 : z = 0 := Int.abs_lt_one_iff.mp h3
  rw [h4] at hz
  push_cast at hz
  linarith

def MultExt (u : ℚ) : Ext → Prop
  | .fin q => Mult u q
  | _ => True

theorem interval_mult {a : Args} {u : ℚ} (h : OnUnit a u) (x : Stream) (r : ℚ)
    (hr : interval a x = some r) : Mult u r := by
  have hmin : ∀ y z : Option ℚ, (∀ r, y = some r → Mult u r) → (∀ r, z = some r → Mult u r) →
      ∀ r, minOpt y z = some r → Mult u r := by
    intro y z hy hz r hr
    cases y <;> cases z <;> simp only [minOpt] at hr
    · cases hr
    · exact hz r hr
    · exact hy r hr
    · rename_i p q
      cases hr
      rcases min_choice p q with e | e <;> rw [e]
      · exact hy _ rfl
      · exact hz _ rfl
  have hout : ∀ r, (if a.hasFile then a.outputdt else none) = some r → Mult u r := by
    intro r hr; split at hr
    · exact h.output r hr
    · cases hr
  cases x with
  | release =>
    simp only [interval] at hr
    split at hr
    · cases hr
    · exact h.release r hr
  | output => exact hout r hr
  | movie => exact h.movie r hr
  | callback =>
    simp only [interval] at hr
    split at hr
    · rename_i c hc; cases hr; exact h.callback _ hc
    · exact hmin _ _ (hmin _ _ h.movie hout) h.release r hr

structure UnitInv (a : Args) (u : ℚ) (s : St) : Prop where
  next : ∀ x, MultExt u (s.next x)
  nextIn : MultExt u s.nextIn
  stops : ∀ t ∈ s.stops, Mult u t

theorem unit_init {a : Args} (h : Ordinary a) {u : ℚ} (hu : OnUnit a u) : UnitInv a u (init a) := by
  refine ⟨?_, ?_, by simp [init]⟩
  · intro x
    have hm := fun r => interval_mult hu x r
    have key : ∀ y : Option ℚ, (∀ r, y = some r → Mult u r) → MultExt u (firstEvent a.dt a.S y) := by
      intro y hy
      cases y with
      | none => simp only [firstEvent]; split <;> trivial
      | some r =>
        simp only [firstEvent]; split
        · exact Mult.add hu.S (hy r rfl)
        · exact Mult.sub hu.S (hy r rfl)
    cases x with
    | release =>
      simp only [init, initNext]
      rcases hr : interval a .release with _ | r
      · simp only []; split <;> trivial
      · simp only [MultExt]
        refine Mult.add hu.rs (Mult.mul_sgn ?_ _)
        have := Mult.mul_int (hm r hr) (⌊|a.S - a.rs| / r⌋ + 1)
        push_cast at this; exact this
    | output => exact key _ hm
    | movie => exact key _ hm
    | callback => exact key _ hm
  · simp only [init, h.fieldset, if_true]
    rcases hq : a.input 0 a.S with _ | q | _
    · trivial
    · exact hu.input _ _ _ hq
    · trivial

theorem unit_fire {a : Args} {u : ℚ} (hu : OnUnit a u) {s : St} (hU : UnitInv a u s) {t : ℚ}
    (hmem : (∃ x, s.next x = .fin t) ∨ s.nextIn = .fin t ∨ t = a.E) :
    Mult u t ∧ UnitInv a u (fire a s t) := by
  have ht : Mult u t := by
    rcases hmem with ⟨x, hx⟩ | hx | hx
    · have := hU.next x; rw [hx] at this; exact this
    · have := hU.nextIn; rw [hx] at this; exact this
    · rw [hx]; exact hu.E
  refine ⟨ht, ?_, ?_, ?_⟩
  · intro x
    simp only [fire]
    split
    · have hx := hU.next x
      rcases hx' : s.next x with _ | q | _
      · simp [bump, MultExt]
      · rw [hx'] at hx
        simp only [bump]
        rcases hr : interval a x with _ | r
        · simp only []; split <;> trivial
        · exact Mult.add hx (Mult.mul_sgn (interval_mult hu x r hr) _)
      · simp [bump, MultExt]
    · exact hU.next x
  · simp only [fire]
    split
    · rcases hq : a.input s.calls t with _ | q | _
      · trivial
      · exact hu.input _ _ _ hq
      · trivial
    · exact hU.nextIn
  · intro v hv
    simp only [fire] at hv
    rcases List.mem_append.mp hv with h | h
    · exact hU.stops v h
    · simp only [List.mem_singleton] at h; rw [h]; exact ht

end Parcels.Schedule
