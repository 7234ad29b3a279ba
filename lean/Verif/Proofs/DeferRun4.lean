import Verif.Proofs.DeferRun3

namespace Parcels.DeferRun

open Search TimeChunk
open WholeRun (OnGrid GridExt)
open Schedule (Ext After AfterExt NotBefore NB)

/-! ### One request -/

/-- A grid that is ready for a request at time `t`. -/
structure Fine (dt : ℚ) (f : Flags) (g : DG) (t : ℚ) : Prop where
  inc : Increasing g.full
  len : 3 ≤ g.full.length
  np : f.periodic = false
  reach : Reachable f g.full g
  back : dt < 0 → (∃ k, k < g.full.length ∧ t = g.full.getD k 0) ∨ (∃ i, Holds g i ∧ g.full.getD i 0 ≤ t ∧ t ≤ g.full.getD (i + 1) 0) ∨
    t < g.full.getD 0 0 ∨ g.full.getD (g.full.length - 1) 0 < t
  ok : f.extrap = true ∨ (g.full.getD 0 0 ≤ t ∧ t ≤ g.full.getD (g.full.length - 1) 0 ∧ (0 < dt → t < g.full.getD (g.full.length - 1) 0) ∧
    (dt < 0 → g.full.getD 0 0 < t))

/-- What a request does. -/
structure Served (dt : ℚ) (f : Flags) (g g' : DG) (t : ℚ) (nx : Option ℚ) : Prop where
  full : g'.full = g.full
  reach : Reachable f g.full g'
  next : ∀ x, nx = some x → After dt t x ∧ x ∈ g.full
  covers : ∃ j, Holds g' j ∧ ∀ u, NotBefore dt t u → (∀ x, nx = some x → NotBefore dt u x) → Covers g.full j u

theorem getD_mem {l : List ℚ} {i : Nat} (h : i < l.length) : l.getD i 0 ∈ l := by
  rw [List.getD_eq_getElem l 0 h]; exact List.getElem_mem h

theorem notBefore_pos {dt : ℚ} (h : 0 < dt) (s t : ℚ) : NotBefore dt s t ↔ s ≤ t := by
  unfold NotBefore; rw [show sgn dt = 1 by unfold sgn; rw [if_pos h]]; constructor <;> intro _ <;> linarith
theorem notBefore_neg {dt : ℚ} (h : dt < 0) (s t : ℚ) : NotBefore dt s t ↔ t ≤ s := by
  unfold NotBefore; rw [show sgn dt = -1 by unfold sgn; rw [if_neg (not_lt.mpr h.le), if_pos h]]; constructor <;> intro _ <;> linarith
theorem after_pos {dt : ℚ} (h : 0 < dt) (s t : ℚ) : After dt s t ↔ s < t := by
  unfold After; rw [show sgn dt = 1 by unfold sgn; rw [if_pos h]]; constructor <;> intro _ <;> linarith
theorem after_neg {dt : ℚ} (h : dt < 0) (s t : ℚ) : After dt s t ↔ t < s := by
  unfold After; rw [show sgn dt = -1 by unfold sgn; rw [if_neg (not_lt.mpr h.le), if_pos h]]; constructor <;> intro _ <;> linarith

theorem serve_forward {dt : ℚ} (hdt : 0 < dt) {f : Flags} {g : DG} {t : ℚ} (h : Fine dt f g t) :
    ∃ g' nx, gridChunk f g t 1 = .ok (g', nx) ∧ Served dt f g g' t nx := by
  obtain ⟨hr, -⟩ := reachable_ready h.inc h.len h.reach
  have hp := reachable_periods h.np h.reach
  rcases forward_step h.np hr hp (by norm_num : (0 : ℤ) ≤ 1) (t := t) with ⟨g', nx, j, e1, ⟨d1, d2, d3, d4⟩, e3⟩ | ⟨-, e2, e3⟩
  · have hj := d1.lt
    rw [d2] at hj
    have hjj : g.full.getD j 0 < g.full.getD (j + 1) 0 := inc_lt h.inc (Nat.lt_succ_self j) hj
    have hlast : j + 2 = g.full.length → g.full.getD (j + 1) 0 = g.full.getD (g.full.length - 1) 0 := by
      intro e; rw [show g.full.length - 1 = j + 1 from by omega]
    have hnx : (nx = none ∧ j + 2 = g.full.length) ∨ (nx = some (g.full.getD (j + 1) 0) ∧ (j + 2 < g.full.length ∨ f.extrap = false)) := by
      rw [d4, hp]
      unfold nextTime
      by_cases c : (j : ℤ) < (g.full.length : ℤ) - 2 ∨ f.extrap = false
      · right
        rw [if_pos ⟨by norm_num, c⟩]
        refine ⟨by simp, c.imp (fun c => by omega) id⟩
      · left
        rw [if_neg (fun hh => c hh.2), if_neg (by omega)]
        rw [not_or] at c
        exact ⟨rfl, by omega⟩
    refine ⟨g', nx, e1, d2, .request h.reach e1, ?_, j, d1, ?_⟩
    · intro x hx
      rcases hnx with ⟨c, -⟩ | ⟨c, c'⟩
      · rw [c] at hx; cases hx
      · rw [c] at hx
        obtain rfl := Option.some.inj hx
        refine ⟨(after_pos hdt _ _).mpr ?_, getD_mem hj⟩
        rcases e3 with ⟨-, a⟩ | ⟨rfl, a⟩ | ⟨a, b⟩
        · exact a
        · linarith
        · rcases c' with c' | c'
          · omega
          · rcases h.ok with h' | h'
            · rw [h'] at c'; cases c'
            · linarith [h'.2.2.1 hdt]
    · intro u hu hux
      rw [notBefore_pos hdt] at hu
      by_cases c : u ≤ g.full.getD (j + 1) 0
      · by_cases c' : g.full.getD j 0 ≤ u
        · exact Or.inl ⟨c', c⟩
        · rw [not_le] at c'
          rcases e3 with ⟨a, -⟩ | ⟨rfl, a⟩ | ⟨a, b⟩
          · linarith
          · exact Or.inr (Or.inl ⟨rfl, c'⟩)
          · rw [hlast a] at hjj; linarith
      · rw [not_le] at c
        rcases hnx with ⟨-, e⟩ | ⟨e, -⟩
        · exact Or.inr (Or.inr ⟨e, by rw [← hlast e]; exact c⟩)
        · have := hux _ e
          rw [notBefore_pos hdt] at this
          linarith
  · exfalso
    rcases h.ok with h' | ⟨h1, h2, -⟩
    · rw [h'] at e2; cases e2
    · rcases e3 with c | c <;> linarith

theorem serve_backward {dt : ℚ} (hdt : dt < 0) {f : Flags} {g : DG} {t : ℚ} (h : Fine dt f g t) :
    ∃ g' nx, gridChunk f g t (-1) = .ok (g', nx) ∧ Served dt f g g' t nx := by
  obtain ⟨hr, -⟩ := reachable_ready h.inc h.len h.reach
  have hp := reachable_periods h.np h.reach
  rcases backward_step h.np hr hp (h.back hdt) with ⟨g', nx, j, e1, ⟨d1, d2, d3, d4⟩, e3⟩ | ⟨-, e2, e3⟩
  · have hj := d1.lt
    rw [d2] at hj
    have hjj : g.full.getD j 0 < g.full.getD (j + 1) 0 := inc_lt h.inc (Nat.lt_succ_self j) hj
    have hlast : j + 2 = g.full.length → g.full.getD (j + 1) 0 = g.full.getD (g.full.length - 1) 0 := by
      intro e; rw [show g.full.length - 1 = j + 1 from by omega]
    have hnx : (nx = none ∧ j = 0) ∨ (nx = some (g.full.getD j 0) ∧ (0 < j ∨ f.extrap = false)) := by
      rw [d4, hp]
      unfold nextTime
      rw [if_neg (by simp)]
      by_cases c : (0 : ℤ) < (j : ℤ) ∨ f.extrap = false
      · right
        rw [if_pos ⟨by norm_num, c⟩]
        refine ⟨by simp, c.imp (fun c => by omega) id⟩
      · left
        rw [if_neg (fun hh => c hh.2)]
        rw [not_or] at c
        exact ⟨rfl, by omega⟩
    refine ⟨g', nx, e1, d2, .request h.reach e1, ?_, j, d1, ?_⟩
    · intro x hx
      rcases hnx with ⟨c, -⟩ | ⟨c, c'⟩
      · rw [c] at hx; cases hx
      · rw [c] at hx
        obtain rfl := Option.some.inj hx
        refine ⟨(after_neg hdt _ _).mpr ?_, getD_mem (by omega)⟩
        rcases e3 with ⟨a, -⟩ | ⟨rfl, a⟩ | ⟨a, b⟩
        · exact a
        · rcases c' with c' | c'
          · omega
          · rcases h.ok with h' | h'
            · rw [h'] at c'; cases c'
            · linarith [h'.2.2.2 hdt]
        · rw [← hlast a] at b; linarith
    · intro u hu hux
      rw [notBefore_neg hdt] at hu
      by_cases c : u ≤ g.full.getD (j + 1) 0
      · by_cases c' : g.full.getD j 0 ≤ u
        · exact Or.inl ⟨c', c⟩
        · rcases hnx with ⟨-, rfl⟩ | ⟨e, -⟩
          · exact Or.inr (Or.inl ⟨rfl, not_le.mp c'⟩)
          · have := hux _ e
            rw [notBefore_neg hdt] at this
            exact absurd this c'
      · rw [not_le] at c
        rcases e3 with ⟨-, b⟩ | ⟨rfl, b⟩ | ⟨a, b⟩
        · linarith
        · linarith
        · exact Or.inr (Or.inr ⟨a, by rw [← hlast a]; exact c⟩)
  · exfalso
    rcases h.ok with h' | ⟨h1, h2, -⟩
    · rw [h'] at e2; cases e2
    · rcases e3 with c | c <;> linarith

theorem signQ_sgn (dt : ℚ) : signQ (sgn dt) = signQ dt := by
  unfold signQ sgn
  split_ifs <;> first | rfl | (exfalso; linarith)

theorem serve {dt : ℚ} (hdt : dt ≠ 0) {f : Flags} {g : DG} {t : ℚ} (h : Fine dt f g t) :
    ∃ g' nx, gridChunk f g t (signQ dt) = .ok (g', nx) ∧ Served dt f g g' t nx := by
  rcases lt_or_gt_of_ne hdt with c | c
  · rw [show signQ dt = -1 by unfold signQ; rw [if_neg (not_lt.mpr c.le), if_pos c]]; exact serve_backward c h
  · rw [show signQ dt = 1 by unfold signQ; rw [if_pos c]]; exact serve_forward c h

/-! ### All grids -/

/-- All grids after a request at time `t`; no new one is needed until `nx`. -/
structure All (dt : ℚ) (gs gs' : Grids) (t : ℚ) (nx : Option ℚ) : Prop where
  each : List.Forall₂ (fun x y => y.1 = x.1 ∧ y.2.full = x.2.full ∧ Reachable x.1 x.2.full y.2 ∧
    ∃ j, Holds y.2 j ∧ ∀ u, NotBefore dt t u → (∀ x, nx = some x → NotBefore dt u x) → Covers x.2.full j u) gs gs'
  next : ∀ x, nx = some x → After dt t x ∧ ∃ y ∈ gs, x ∈ y.2.full

theorem soonest_spec {dt : ℚ} (hdt : dt ≠ 0) (a b : Option ℚ) :
    (soonest (signQ dt) a b = a ∨ soonest (signQ dt) a b = b) ∧
    ∀ u, (∀ x, soonest (signQ dt) a b = some x → NotBefore dt u x) → (∀ x, a = some x → NotBefore dt u x) ∧ ∀ x, b = some x → NotBefore dt u x := by
  cases a with
  | none => exact ⟨Or.inr (by cases b <;> rfl), fun u hu => ⟨(by intro x hx; cases hx), fun x hx => hu x (by rw [hx]; rfl)⟩⟩
  | some a =>
    cases b with
    | none => exact ⟨Or.inl rfl, fun u hu => ⟨fun x hx => hu x (by rw [hx]; rfl), by intro x hx; cases hx⟩⟩
    | some b =>
      rcases lt_or_gt_of_ne hdt with c | c
      · have e : soonest (signQ dt) (some a) (some b) = some (max a b) := by
          unfold soonest signQ; rw [if_neg (not_lt.mpr c.le), if_pos c]; rfl
        rw [e]
        refine ⟨(max_choice a b).imp (fun h => by rw [h]) (fun h => by rw [h]), fun u hu => ?_⟩
        have := hu _ rfl
        simp only [notBefore_neg c] at this ⊢
        exact ⟨fun x hx => by rw [← Option.some.inj hx]; exact le_trans (le_max_left _ _) this, fun x hx => by rw [← Option.some.inj hx]; exact le_trans (le_max_right _ _) this⟩
      · have e : soonest (signQ dt) (some a) (some b) = some (min a b) := by
          unfold soonest signQ; rw [if_pos c]; rfl
        rw [e]
        refine ⟨(min_choice a b).imp (fun h => by rw [h]) (fun h => by rw [h]), fun u hu => ?_⟩
        have := hu _ rfl
        simp only [notBefore_pos c] at this ⊢
        exact ⟨fun x hx => by rw [← Option.some.inj hx]; exact le_trans this (min_le_left _ _), fun x hx => by rw [← Option.some.inj hx]; exact le_trans this (min_le_right _ _)⟩

theorem after_ne {dt t : ℚ} (h : After dt t t) : False := by unfold After at h; simp at h

theorem forall₂_mono {α β : Type} {R Q : α → β → Prop} (h : ∀ a b, R a b → Q a b) : ∀ {l : List α} {m : List β}, List.Forall₂ R l m → List.Forall₂ Q l m := by
  intro l m hl
  induction hl with
  | nil => exact .nil
  | cons a _ ih => exact .cons (h _ _ a) ih

theorem serve_all {dt : ℚ} (hdt : dt ≠ 0) {t : ℚ} : ∀ {gs : Grids}, (∀ x ∈ gs, Fine dt x.1 x.2 t) →
    ∃ gs' nx, chunkAll t (signQ dt) gs = .ok (gs', nx) ∧ All dt gs gs' t nx := by
  intro gs
  induction gs with
  | nil => intro _; exact ⟨[], none, rfl, .nil, by intro x hx; cases hx⟩
  | cons a gs ih =>
    intro h
    obtain ⟨f, g⟩ := a
    obtain ⟨g', n1, e1, s1⟩ := serve hdt (h (f, g) List.mem_cons_self)
    obtain ⟨gs', n2, e2, a1, a2⟩ := ih fun x hx => h x (List.mem_cons_of_mem _ hx)
    obtain ⟨c1, c2⟩ := soonest_spec hdt n1 n2
    refine ⟨(f, g') :: gs', soonest (signQ dt) n1 n2, ?_, ?_, ?_⟩
    · rw [chunkAll]
      simp only [e1, e2]
      rw [if_neg]
      rintro ⟨c, -⟩
      exact after_ne (s1.next _ c).1
    · refine .cons ⟨rfl, s1.full, s1.reach, ?_⟩ (forall₂_mono ?_ a1)
      · obtain ⟨j, j1, j2⟩ := s1.covers
        exact ⟨j, j1, fun u hu hx => j2 u hu (c2 u hx).1⟩
      · rintro x y ⟨b1, b2, b3, j, j1, j2⟩
        exact ⟨b1, b2, b3, j, j1, fun u hu hx => j2 u hu (c2 u hx).2⟩
    · intro x hx
      rcases c1 with c | c
      · rw [c] at hx
        exact ⟨(s1.next x hx).1, (f, g), List.mem_cons_self, (s1.next x hx).2⟩
      · rw [c] at hx
        obtain ⟨b1, y, b2, b3⟩ := a2 x hx
        exact ⟨b1, y, List.mem_cons_of_mem _ b2, b3⟩

/-- The time returned, on a grid of steps `d` from `t`. -/
theorem rounded {d t nx : ℚ} (hd : d ≠ 0) (h : After d t nx) :
    let r := if Converters.truncInt ((nx - t) / d) = 0 then nx else t + Converters.truncInt ((nx - t) / d) * d
    After d t r ∧ NotBefore d r nx ∧ (r = nx ∨ ∃ z : ℤ, r = t + z * d) ∧ ((∃ z : ℤ, nx = t + z * d) → r = nx) := by
  have hsd := WholeRun.mul_sgn_self d
  have hpos := abs_pos.mpr hd
  have hq : 0 < (nx - t) / d := by
    rcases lt_or_gt_of_ne hd with c | c
    · rw [after_neg c] at h; exact div_pos_of_neg_of_neg (by linarith) c
    · rw [after_pos c] at h; exact div_pos (by linarith) c
  have e : Converters.truncInt ((nx - t) / d) = ⌊(nx - t) / d⌋ := by
    unfold Converters.truncInt; rw [if_pos hq.le]
  have hfl := Int.floor_le ((nx - t) / d)
  have hfn : 0 ≤ ⌊(nx - t) / d⌋ := Int.floor_nonneg.2 hq.le
  have hnx : nx = t + (nx - t) / d * d := by field_simp; ring
  intro r
  have hr : r = if ⌊(nx - t) / d⌋ = 0 then nx else t + ⌊(nx - t) / d⌋ * d := by rw [← e]
  clear_value r
  subst hr
  split_ifs with c
  · refine ⟨h, ?_, Or.inl rfl, fun _ => rfl⟩
    unfold NotBefore; simp
  · have hp : (0 : ℚ) < ⌊(nx - t) / d⌋ := by
      have : (0 : ℤ) < ⌊(nx - t) / d⌋ := by omega
      exact_mod_cast this
    refine ⟨?_, ?_, Or.inr ⟨_, rfl⟩, ?_⟩
    · unfold After
      rw [add_sub_cancel_left, mul_assoc, hsd]
      positivity
    · unfold NotBefore
      have key : ∀ z q : ℚ, nx - t = q * d → (nx - (t + z * d)) * sgn d = (q - z) * (d * sgn d) := by
        intro z q h
        rw [show nx - (t + z * d) = (nx - t) - z * d by ring, h]
        ring
      rw [key _ ((nx - t) / d) (by field_simp), hsd]
      exact mul_nonneg (by linarith) hpos.le
    · rintro ⟨z, hz⟩
      have : (nx - t) / d = z := by rw [hz, add_sub_cancel_left]; field_simp
      rw [this, Int.floor_intCast, hz]

theorem notBefore_trans {dt a b c : ℚ} (h : NotBefore dt a b) (h' : NotBefore dt b c) : NotBefore dt a c := by
  unfold NotBefore at *; nlinarith

theorem sgn_idem {dt : ℚ} (hdt : dt ≠ 0) : sgn (sgn dt) = sgn dt ∧ sgn dt ≠ 0 ∧ |sgn dt| = 1 := by
  rcases lt_or_gt_of_ne hdt with c | c
  · have : sgn dt = -1 := by unfold sgn; rw [if_neg (not_lt.mpr c.le), if_pos c]
    rw [this]; unfold sgn; norm_num
  · have : sgn dt = 1 := by unfold sgn; rw [if_pos c]
    rw [this]; unfold sgn; norm_num

/-- `FieldSet.computeTimeChunk` with step `d`, in the direction of `dt`. -/
theorem chunk_spec {dt d : ℚ} (hdt : dt ≠ 0) (hd : d ≠ 0) (hs : sgn d = sgn dt) (hsq : signQ d = signQ dt) {t : ℚ} {gs : Grids} (h : ∀ x ∈ gs, Fine dt x.1 x.2 t) :
    ∃ gs' nx, computeTimeChunk gs t d = .ok (gs', nx) ∧
      List.Forall₂ (fun x y => y.1 = x.1 ∧ y.2.full = x.2.full ∧ Reachable x.1 x.2.full y.2 ∧
        ∃ j, Holds y.2 j ∧ ∀ u, NotBefore dt t u → (∀ x, nx = some x → NotBefore dt u x) → Covers x.2.full j u) gs gs' ∧
      ∀ r, nx = some r → After dt t r ∧ ∃ y ∈ gs, ∃ x ∈ y.2.full, (r = x ∨ ∃ z : ℤ, r = t + z * d) ∧ ((∃ z : ℤ, x = t + z * d) → r = x) := by
  have hA : ∀ a b, After d a b ↔ After dt a b := by intro a b; unfold After; rw [hs]
  have hN : ∀ a b, NotBefore d a b ↔ NotBefore dt a b := by intro a b; unfold NotBefore; rw [hs]
  obtain ⟨gs', nx, e1, a1, a2⟩ := serve_all hdt h
  unfold computeTimeChunk
  rw [hsq, e1]
  dsimp only
  rw [if_neg hd]
  cases nx with
  | none => exact ⟨gs', none, rfl, a1, by intro r hr; cases hr⟩
  | some nx =>
    obtain ⟨b1, y, b2, b3⟩ := a2 nx rfl
    obtain ⟨r1, r2, r3, r4⟩ := rounded hd ((hA _ _).mpr b1)
    refine ⟨gs', _, rfl, forall₂_mono ?_ a1, ?_⟩
    · rintro x y ⟨c1, c2, c3, j, j1, j2⟩
      refine ⟨c1, c2, c3, j, j1, fun u hu hx => j2 u hu fun x' hx' => ?_⟩
      rw [← Option.some.inj hx']
      exact notBefore_trans (hx _ rfl) ((hN _ _).mp r2)
    · intro r hr
      obtain rfl := Option.some.inj hr
      exact ⟨(hA _ _).mp r1, y, b2, nx, b3, r3, r4⟩

end Parcels.DeferRun
