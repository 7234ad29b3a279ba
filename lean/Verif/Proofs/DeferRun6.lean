import Verif.Proofs.DeferRun5

namespace Parcels.DeferRun

open Search Interp TimeChunk
open GridRun (Fld Prog Body Hint SpaceValue TimeValue FieldValue Sound follow refScheme Interpolates scipyScheme jitScheme strip bare)
open WholeRun
open Recovery (TP RMap)
open Schedule (Ext After AfterExt NotBefore NB)

variable {V : Type}

/-! ### The state of the grids during a run -/

structure Good (fs : Nat → Fld) (slot : Nat → Option Nat) (S dt : ℚ) (N : ℕ) (gs : Grids) (m : ℕ) (e : Ext) : Prop where
  defer : Deferred fs slot gs
  onGrid : ∀ x ∈ gs, ∀ t ∈ x.2.full, OnGrid S dt t
  inside : ∀ x ∈ gs, x.1.extrap = true ∨ (InRange x.2.full S ∧ InRange x.2.full (S + N * dt))
  covers : ∀ x ∈ gs, ∃ j, Holds x.2 j ∧ ∀ u, NotBefore dt (S + m * dt) u → NB dt u e → TimeChunk.Covers x.2.full j u

theorem nb_ext {dt : ℚ} (hdt : dt ≠ 0) (u : ℚ) (nx : Option ℚ) : NB dt u (ext dt nx) ↔ ∀ x, nx = some x → NotBefore dt u x := by
  cases nx with
  | none =>
    refine ⟨fun _ x hx => (by cases hx), fun _ => ?_⟩
    unfold ext
    dsimp only
    split_ifs with c
    · exact c
    · exact lt_of_le_of_ne (not_lt.mp c) hdt
  | some x => exact ⟨fun h y hy => by rw [← Option.some.inj hy]; exact h, fun h => h x rfl⟩

theorem forall₂_get {α β : Type} {R : α → β → Prop} {l : List α} {m : List β} (h : List.Forall₂ R l m) :
    ∀ {k : ℕ} {a : α}, l[k]? = some a → ∃ b, m[k]? = some b ∧ R a b := by
  induction h with
  | nil => intro k a h; cases h
  | cons hr _ ih =>
    intro k a hk
    cases k with
    | zero => rw [List.getElem?_cons_zero] at hk; rw [← Option.some.inj hk]; exact ⟨_, rfl, hr⟩
    | succ k => rw [List.getElem?_cons_succ] at hk ⊢; exact ih hk

theorem forall₂_get' {α β : Type} {R : α → β → Prop} {l : List α} {m : List β} (h : List.Forall₂ R l m) :
    ∀ {k : ℕ} {b : β}, m[k]? = some b → ∃ a, l[k]? = some a ∧ R a b := by
  induction h with
  | nil => intro k a h; cases h
  | cons hr _ ih =>
    intro k b hk
    cases k with
    | zero => rw [List.getElem?_cons_zero] at hk; rw [← Option.some.inj hk]; exact ⟨_, rfl, hr⟩
    | succ k => rw [List.getElem?_cons_succ] at hk ⊢; exact ih hk

theorem inRange_ends {l : List ℚ} (hinc : Increasing l) {u : ℚ} (h : InRange l u) : l.getD 0 0 ≤ u ∧ u ≤ l.getD (l.length - 1) 0 := by
  obtain ⟨a, b, ha, hb, h1, h2⟩ := h
  obtain ⟨i, hi, rfl⟩ := List.getElem_of_mem ha
  obtain ⟨j, hj, rfl⟩ := List.getElem_of_mem hb
  have e1 := inc_le hinc (Nat.zero_le i) hi
  have e2 := inc_le hinc (show j ≤ l.length - 1 by omega) (by omega)
  rw [List.getD_eq_getElem _ 0 hi] at e1
  rw [List.getD_eq_getElem _ 0 hj] at e2
  exact ⟨by linarith, by linarith⟩

/-- Before the end of the run the requests do not fail. -/
theorem ok_inside {S dt : ℚ} (hdt : dt ≠ 0) {N n : ℕ} (hn : n < N) {full : List ℚ} (hinc : Increasing full) (h1 : InRange full S) (h2 : InRange full (S + N * dt)) :
    full.getD 0 0 ≤ S + n * dt ∧ S + n * dt ≤ full.getD (full.length - 1) 0 ∧ (0 < dt → S + n * dt < full.getD (full.length - 1) 0) ∧
      (dt < 0 → full.getD 0 0 < S + n * dt) := by
  obtain ⟨a1, a2⟩ := inRange_ends hinc h1
  obtain ⟨b1, b2⟩ := inRange_ends hinc h2
  have hn' : (n : ℚ) < N := by exact_mod_cast hn
  have hn0 : (0 : ℚ) ≤ n := Nat.cast_nonneg n
  rcases lt_or_gt_of_ne hdt with c | c
  · have e1 : (N : ℚ) * dt < n * dt := mul_lt_mul_of_neg_right hn' c
    have e2 : (n : ℚ) * dt ≤ 0 := mul_nonpos_of_nonneg_of_nonpos hn0 c.le
    exact ⟨by linarith, by linarith, fun h => absurd h (not_lt.mpr c.le), fun _ => by linarith⟩
  · have e1 : (n : ℚ) * dt < N * dt := mul_lt_mul_of_pos_right hn' c
    have e2 : 0 ≤ (n : ℚ) * dt := mul_nonneg hn0 c.le
    exact ⟨by linarith, by linarith, fun _ => by linarith, fun h => absurd h (not_lt.mpr c.le)⟩

/-- The state after a request at step `n`. -/
theorem good_next {fs : Nat → Fld} {slot : Nat → Option Nat} {S dt : ℚ} (hdt : dt ≠ 0) {N n : ℕ} {gs gs' : Grids} {nx : Option ℚ} (hd : Deferred fs slot gs)
    (hg : ∀ x ∈ gs, ∀ t ∈ x.2.full, OnGrid S dt t) (hi : ∀ x ∈ gs, x.1.extrap = true ∨ (InRange x.2.full S ∧ InRange x.2.full (S + N * dt)))
    (h : List.Forall₂ (fun x y => y.1 = x.1 ∧ y.2.full = x.2.full ∧ Reachable x.1 x.2.full y.2 ∧
        ∃ j, Holds y.2 j ∧ ∀ u, NotBefore dt (S + n * dt) u → (∀ x, nx = some x → NotBefore dt u x) → TimeChunk.Covers x.2.full j u) gs gs') :
    Good fs slot S dt N gs' n (ext dt nx) := by
  have back : ∀ y ∈ gs', ∃ x ∈ gs, y.1 = x.1 ∧ y.2.full = x.2.full ∧ Reachable x.1 x.2.full y.2 ∧
        ∃ j, Holds y.2 j ∧ ∀ u, NotBefore dt (S + n * dt) u → (∀ x, nx = some x → NotBefore dt u x) → TimeChunk.Covers x.2.full j u := by
    intro y hy
    obtain ⟨k, hk, rfl⟩ := List.getElem_of_mem hy
    obtain ⟨x, hx, hr⟩ := forall₂_get' h (List.getElem?_eq_getElem hk)
    exact ⟨x, List.mem_of_getElem? hx, hr⟩
  refine ⟨⟨?_, ?_, ?_, ?_, ?_, ?_⟩, ?_, ?_, ?_⟩
  · intro i k hk
    obtain ⟨x, hx, e⟩ := hd.grid i k hk
    obtain ⟨y, hy, -, e2, -⟩ := forall₂_get h hx
    exact ⟨y, hy, by rw [e, e2]⟩
  · intro i k y hk hy
    obtain ⟨x, hx, e1, -⟩ := forall₂_get' h hy
    rw [e1]
    exact hd.extrap i k x hk hx
  · intro y hy
    obtain ⟨x, hx, e1, -⟩ := back y hy
    rw [e1]; exact hd.notPeriodic x hx
  · intro y hy
    obtain ⟨x, hx, -, e2, -⟩ := back y hy
    rw [e2]; exact hd.increasing x hx
  · intro y hy
    obtain ⟨x, hx, -, e2, -⟩ := back y hy
    rw [e2]; exact hd.length x hx
  · intro y hy
    obtain ⟨x, hx, e1, e2, e3, -⟩ := back y hy
    rw [e1, e2]; exact e3
  · intro y hy
    obtain ⟨x, hx, -, e2, -⟩ := back y hy
    rw [e2]; exact hg x hx
  · intro y hy
    obtain ⟨x, hx, e1, e2, -⟩ := back y hy
    rw [e1, e2]; exact hi x hx
  · intro y hy
    obtain ⟨x, hx, -, e2, -, j, e4, e5⟩ := back y hy
    refine ⟨j, e4, fun u h1 h2 => ?_⟩
    rw [e2]
    exact e5 u h1 ((nb_ext hdt u nx).mp h2)

/-- Requests at the stops of the run. -/
theorem good_chunk {fs : Nat → Fld} {slot : Nat → Option Nat} {S dt : ℚ} (hdt : dt ≠ 0) {N : ℕ} {gs : Grids} {m : ℕ} {e : Ext} {n : ℕ}
    (h : Good fs slot S dt N gs m e) (hmn : m < n) (hn : n < N) (hnb : NB dt (S + n * dt) e) :
    ∃ gs' nx, computeTimeChunk gs (S + n * dt) dt = .ok (gs', nx) ∧ Good fs slot S dt N gs' n (ext dt nx) ∧ AfterExt dt (S + n * dt) (ext dt nx) ∧
      GridExt S dt (ext dt nx) := by
  have hfine : ∀ x ∈ gs, Fine dt x.1 x.2 (S + n * dt) := by
    intro x hx
    obtain ⟨j, hj, hc⟩ := h.covers x hx
    refine ⟨h.defer.increasing x hx, h.defer.length x hx, h.defer.notPeriodic x hx, h.defer.state x hx, fun _ => ?_, ?_⟩
    · rcases hc _ ((grid_le hdt).mpr hmn.le) hnb with c | ⟨-, c⟩ | ⟨-, c⟩
      · exact Or.inr (Or.inl ⟨j, hj, c⟩)
      · exact Or.inr (Or.inr (Or.inl c))
      · exact Or.inr (Or.inr (Or.inr c))
    · exact (h.inside x hx).imp_right fun ⟨a, b⟩ => ok_inside hdt hn (h.defer.increasing x hx) a b
  obtain ⟨gs', nx, e1, e2, e3⟩ := chunk_spec hdt hdt rfl rfl hfine
  refine ⟨gs', nx, e1, good_next hdt h.defer h.onGrid h.inside e2, ?_, ?_⟩
  · cases nx with
    | none => unfold ext; dsimp only; split_ifs with c; exacts [c, lt_of_le_of_ne (not_lt.mp c) hdt]
    | some r => exact (e3 r rfl).1
  · cases nx with
    | none => unfold ext; dsimp only; split_ifs <;> trivial
    | some r =>
      obtain ⟨-, y, hy, x, hx, -, h2⟩ := e3 r rfl
      obtain ⟨z, hz⟩ := h.onGrid y hy x hx
      show OnGrid S dt r
      rw [h2 ⟨z - n, by rw [hz]; push_cast; ring⟩]
      exact ⟨z, hz⟩

/-- The first request. -/
theorem good_first {fs : Nat → Fld} {slot : Nat → Option Nat} {S dt : ℚ} (hdt : dt ≠ 0) {N : ℕ} (hN : 0 < N) {gs : Grids} (hd : Deferred fs slot gs)
    (ht : Timed S dt N gs) : ∃ gs1 nx, First S dt gs gs1 nx (Good fs slot S dt N) := by
  have hfine : ∀ x ∈ gs, Fine dt x.1 x.2 S := by
    intro x hx
    refine ⟨hd.increasing x hx, hd.length x hx, hd.notPeriodic x hx, hd.state x hx, fun c => (ht.backward c x hx).2.2.2.2, ?_⟩
    refine (ht.inside x hx).imp_right fun ⟨a, b⟩ => ?_
    have := ok_inside hdt hN (hd.increasing x hx) a b
    simpa using this
  obtain ⟨s1, s2, s3⟩ := sgn_idem hdt
  obtain ⟨gs', nx, e1, e2, e3⟩ := chunk_spec hdt s2 s1 (signQ_sgn dt) hfine
  refine ⟨gs', nx, e1, good_next hdt hd ht.onGrid ht.inside (by simpa using e2), ?_, ?_⟩
  · cases nx with
    | none => unfold ext; dsimp only; split_ifs with c; exacts [c, lt_of_le_of_ne (not_lt.mp c) hdt]
    | some r => exact (e3 r rfl).1
  · cases nx with
    | none => unfold ext; dsimp only; split_ifs <;> trivial
    | some r =>
      obtain ⟨-, y, hy, x, hx, h1, h2⟩ := e3 r rfl
      show OnGrid S dt r
      rcases ht.seconds with ⟨k, hk⟩ | hs
      · rcases h1 with rfl | ⟨z, rfl⟩
        · exact ht.onGrid y hy r hx
        · refine ⟨z * k, ?_⟩
          have : sgn dt = k * dt := by
            rw [← mul_sgn_self] at hk
            have hq : sgn dt * sgn dt = 1 := by rw [← abs_mul_abs_self, s3]; norm_num
            calc sgn dt = (k * (dt * sgn dt)) * sgn dt := by rw [hk, one_mul]
              _ = k * dt * (sgn dt * sgn dt) := by ring
              _ = k * dt := by rw [hq, mul_one]
          rw [this]; push_cast; ring
      · obtain ⟨z, hz⟩ := hs y hy x hx
        have : ∃ z : ℤ, x = S + z * sgn dt := by
          rcases lt_or_gt_of_ne hdt with c | c
          · refine ⟨-z, ?_⟩
            rw [hz, show sgn dt = -1 by unfold sgn; rw [if_neg (not_lt.mpr c.le), if_pos c]]; push_cast; ring
          · refine ⟨z, ?_⟩
            rw [hz, show sgn dt = 1 by unfold sgn; rw [if_pos c]]
        rw [h2 this]
        exact ht.onGrid y hy x hx

/-! ### The fields in memory -/

theorem window_cases {fs : Nat → Fld} {slot : Nat → Option Nat} {gs : Grids} (hd : Deferred fs slot gs) (i : Nat) :
    (slot (fs i).igrid = none ∧ inMemory slot gs (fs i) = fs i) ∨
    (∃ k x, slot (fs i).igrid = some k ∧ gs[k]? = some x ∧ (fs i).time = x.2.full ∧
      inMemory slot gs (fs i) = { fs i with time := x.2.loaded, data := fun n => (fs i).data (if n = 0 then x.2.mem.1 else x.2.mem.2) }) := by
  unfold inMemory
  cases h : slot (fs i).igrid with
  | none => exact Or.inl ⟨rfl, rfl⟩
  | some k =>
    obtain ⟨x, hx, e⟩ := hd.grid i k h
    refine Or.inr ⟨k, x, rfl, hx, e, ?_⟩
    rw [Option.bind_some, hx]

theorem window_igrid {fs : Nat → Fld} {slot : Nat → Option Nat} {gs : Grids} (hd : Deferred fs slot gs) (i : Nat) :
    (inMemory slot gs (fs i)).igrid = (fs i).igrid ∧ (inMemory slot gs (fs i)).grid = (fs i).grid := by
  rcases window_cases hd i with ⟨-, e⟩ | ⟨k, x, -, -, -, e⟩ <;> rw [e] <;> exact ⟨rfl, rfl⟩

theorem pair_inc {a b : ℚ} (h : a < b) : Increasing [a, b] := by simp [Increasing, h]

theorem window_sound {fs : Nat → Fld} (hf : ∀ i, Sound (fs i)) {slot : Nat → Option Nat} {S dt : ℚ} {N : ℕ} {gs : Grids} {m : ℕ} {e : Ext}
    (h : Good fs slot S dt N gs m e) (i : Nat) : Sound (inMemory slot gs (fs i)) := by
  rcases window_cases h.defer i with ⟨-, e⟩ | ⟨k, x, -, hx, -, e⟩
  · rw [e]; exact hf i
  · rw [e]
    have hx' := List.mem_of_getElem? hx
    obtain ⟨j, hj, -⟩ := h.covers x hx'
    have f := hf i
    refine ⟨f.flat, f.noHalo, f.mom5, f.lonInc, f.lonLen, f.latInc, f.latLen, f.depth, ?_, ?_, fun n => f.fits _⟩
    · show Increasing x.2.loaded
      rw [hj.times]
      exact pair_inc (inc_lt (h.defer.increasing x hx') (Nat.lt_succ_self j) hj.lt)
    · show 1 ≤ x.2.loaded.length
      rw [hj.times]; simp

theorem window_grids {fs : Nat → Fld} (hg : GridRun.Grids fs) {slot : Nat → Option Nat} {gs : Grids} (hd : Deferred fs slot gs) :
    GridRun.Grids fun i => inMemory slot gs (fs i) := by
  intro i j hij
  dsimp only at hij ⊢
  rw [(window_igrid hd i).1, (window_igrid hd j).1] at hij
  rw [(window_igrid hd i).2, (window_igrid hd j).2]
  obtain ⟨e1, e2⟩ := hg i j hij
  refine ⟨e1, ?_⟩
  rcases window_cases hd i with ⟨h1, e⟩ | ⟨k, x, h1, hx, -, e⟩ <;> rcases window_cases hd j with ⟨h2, e'⟩ | ⟨k', x', h2, hx', -, e'⟩
  · rw [e, e']; exact e2
  · rw [hij, h2] at h1; cases h1
  · rw [hij, h2] at h1; cases h1
  · rw [hij, h2] at h1
    rw [← Option.some.inj h1, hx'] at hx
    rw [e, e', Option.some.inj hx]

theorem window_hints {fs : Nat → Fld} {slot : Nat → Option Nat} {S dt : ℚ} {N : ℕ} {gs : Grids} {m : ℕ} {e : Ext}
    (h : Good fs slot S dt N gs m e) (hs : Nat → Hint) : GridRun.Hints (fun i => inMemory slot gs (fs i)) hs ↔ Hints fs slot hs := by
  have : ∀ i, (inMemory slot gs (fs i)).time.length = (match slot (fs i).igrid with | some _ => 2 | none => (fs i).time.length : ℕ) := by
    intro i
    rcases window_cases h.defer i with ⟨h1, e⟩ | ⟨k, x, h1, hx, -, e⟩
    · rw [e, h1]
    · obtain ⟨j, hj, -⟩ := h.covers x (List.mem_of_getElem? hx)
      rw [e, h1]
      show x.2.loaded.length = 2
      rw [hj.times]; rfl
  unfold GridRun.Hints Hints
  refine forall_congr' fun i => ?_
  dsimp only
  rw [(window_igrid h.defer i).1, (window_igrid h.defer i).2, this i]
  cases slot (fs i).igrid <;> exact Iff.rfl

theorem window_value {fs : Nat → Fld} {slot : Nat → Option Nat} {S dt : ℚ} {N : ℕ} {gs : Grids} {m : ℕ} {e : Ext} (h : Good fs slot S dt N gs m e)
    {u : ℚ} (h1 : NotBefore dt (S + m * dt) u) (h2 : NB dt u e) (i : Nat) (z y x w : ℚ) :
    FieldValue (inMemory slot gs (fs i)) u z y x w ↔ FieldValue (fs i) u z y x w := by
  rcases window_cases h.defer i with ⟨-, e⟩ | ⟨k, g, -, hg, ef, e⟩
  · rw [e]
  · have hg' := List.mem_of_getElem? hg
    obtain ⟨j, hj, hc⟩ := h.covers g hg'
    rw [e]
    exact value_window hj ef (h.defer.increasing g hg') (hc u h1 h2) z y x w

theorem notBefore_nb {dt t u : ℚ} {e : Ext} (h : NotBefore dt u t) (h' : NB dt t e) : NB dt u e := by
  cases e with
  | fin q => exact notBefore_trans h h'
  | pinf => exact h'
  | ninf => exact h'

/-- The trajectory in the fields in memory. -/
theorem window_trajectory {fs : Nat → Fld} {val : Nat → (t z y x : ℚ) → Option ℚ} (hv : Interpolates fs val)
    {b : Body V} (hb : DuringStep b) {slot : Nat → Option Nat} {S dt : ℚ} (hdt : dt ≠ 0) {N : ℕ} {gs : Grids} {m n : ℕ} {e : Ext}
    (h : Good fs slot S dt N gs m e) (hnb : NB dt (S + n * dt) e) {valw : Nat → (t z y x : ℚ) → Option ℚ}
    (hvw : Interpolates (fun i => inMemory slot gs (fs i)) valw) (q : TP V) (hq : ∃ j : ℕ, m ≤ j ∧ q.2.time = S + j * dt) :
    trajectory (refScheme valw b) dt (S + n * dt) q = trajectory (refScheme val b) dt (S + n * dt) q := by
  refine trajectory_within hb hdt (m := m) (fun u h1 h2 i z y x => ?_) q hq
  apply Option.ext
  intro w
  rw [hvw, hv]
  exact window_value h h1 (notBefore_nb h2 hnb) i z y x w

/-! ### The two modes -/

theorem fits_of {S dt : ℚ} (hdt : dt ≠ 0) (n : ℕ) (q : TP V) (h : ∃ j : ℕ, q.2.time = S + j * dt) : Fits dt (S + n * dt) q := by
  obtain ⟨j, hj⟩ := h
  rcases Nat.lt_or_ge j n with c | c
  · exact Or.inr ⟨n - j - 1, by rw [hj, Nat.cast_sub (by omega : 1 ≤ n - j), Nat.cast_sub c.le]; push_cast; ring⟩
  · exact Or.inl (by rw [hj]; exact (grid_le hdt).mpr c)

theorem map_id_list (ps : List (TP V)) : ps.map (mapP id) = ps := List.map_id ps

theorem serves_scipy {fs : Nat → Fld} (hf : ∀ i, Sound (fs i)) {val : Nat → (t z y x : ℚ) → Option ℚ} (hv : Interpolates fs val)
    {b : Body V} (hb : DuringStep b) (user : RMap Unit V) {slot : Nat → Option Nat} {S dt : ℚ} (hdt : 1 / 100000000 < |dt|) (N k r : ℕ) :
    Serves (Deletes user) (Raises user) (refScheme val b) id (fun _ => True) S dt N
      (fun gs => scipyExec (kernel (scipyScheme (fun i => inMemory slot gs (fs i)) b)) user k r) (Good fs slot S dt N) := by
  have hne := ne_zero_of hdt
  refine ⟨fun gs m e n h h1 h2 h3 => good_chunk hne h h1 h2 h3, fun gs m e n ps x ps' h hmn hnN hnb hps he => ?_⟩
  have hfw := fun i => window_sound hf h i
  obtain ⟨valw, hvw⟩ := GridRun.interpolates_exists hfw
  have ht : ∀ q ∈ ps, trajectory (scipyScheme (fun i => inMemory slot gs (fs i)) b) dt (S + n * dt) q = trajectory (refScheme val b) dt (S + n * dt) q := by
    intro q hq
    rw [GridRun.trajectory_scipy hfw hvw b]
    exact window_trajectory hv hb hne h hnb hvw q (hps q hq).2.1
  obtain ⟨g1, g2⟩ := mode_effect (user := user) (f := scipyScheme (fun i => inMemory slot gs (fs i)) b) ⟨k, r, Or.inl rfl⟩ hdt (S + n * dt) ps x ps'
    (fun q hq => ⟨(hps q hq).1, by obtain ⟨j, -, hj⟩ := (hps q hq).2.1; exact fits_of hne n q ⟨j, hj⟩⟩) he
  refine ⟨fun hok => ?_, fun hu ⟨q, hq, hq'⟩ => g2 hu ⟨q, hq, by rw [ht q hq]; exact hq'⟩⟩
  obtain ⟨e1, e2, e3⟩ := g1 (hok.imp_right fun H q hq => by rw [ht q hq]; exact H q hq)
  refine ⟨e1, ?_, fun q hq => ⟨e3 q hq, trivial⟩⟩
  rw [map_id_list, map_id_list, e2]
  exact List.filterMap_congr ht

theorem hints_solution {fs : Nat → Fld} (hf : ∀ i, Sound (fs i)) (hg : GridRun.Grids fs) (b : Body V) (dt : ℚ) :
    ∀ (n : ℕ) (t : ℚ) (v w : V × (Nat → Hint)), GridRun.Hints fs v.2 → solution (jitScheme fs b) dt n t v = some w → GridRun.Hints fs w.2 := by
  obtain ⟨val, hv⟩ := GridRun.interpolates_exists hf
  intro n
  induction n with
  | zero => intro t v w h e; rw [← Option.some.inj e]; exact h
  | succ n ih =>
    intro t v w h e
    obtain ⟨h1, h2⟩ := GridRun.follow_jit hf hg hv (b t dt v.1) v.2 h
    rw [solution] at e
    unfold jitScheme at e
    cases hw : follow val (b t dt v.1) with
    | none =>
      obtain ⟨x, hx⟩ := h2 hw
      rw [hx] at e
      cases e
    | some v' =>
      obtain ⟨hs', hx, hh⟩ := h1 v' hw
      rw [hx] at e
      exact ih _ _ _ hh e

theorem hints_trajectory {fs : Nat → Fld} (hf : ∀ i, Sound (fs i)) (hg : GridRun.Grids fs) (b : Body V) (dt t : ℚ) (q : TP (V × (Nat → Hint)))
    (hq : GridRun.Hints fs q.2.vars.2) (c : Nat × ℚ × V × (Nat → Hint)) (h : trajectory (jitScheme fs b) dt t q = some c) : GridRun.Hints fs c.2.2.2 := by
  unfold trajectory at h
  split_ifs at h
  · rw [← Option.some.inj h]; exact hq
  · obtain ⟨w, hw, e⟩ := Option.map_eq_some_iff.mp h
    rw [← e]
    exact hints_solution hf hg b dt _ _ _ _ hq hw

theorem serves_jit {fs : Nat → Fld} (hf : ∀ i, Sound (fs i)) (hg : GridRun.Grids fs) {val : Nat → (t z y x : ℚ) → Option ℚ} (hv : Interpolates fs val)
    {b : Body V} (hb : DuringStep b) (user : RMap Unit (V × (Nat → Hint))) {slot : Nat → Option Nat} {S dt : ℚ} (hdt : 1 / 100000000 < |dt|) (N k r : ℕ) :
    Serves (Deletes user) (Raises user) (refScheme val b) Prod.fst (fun v => Hints fs slot v.2) S dt N
      (fun gs => jitExec (kernel (jitScheme (fun i => inMemory slot gs (fs i)) b)) user k r) (Good fs slot S dt N) := by
  have hne := ne_zero_of hdt
  refine ⟨fun gs m e n h h1 h2 h3 => good_chunk hne h h1 h2 h3, fun gs m e n ps x ps' h hmn hnN hnb hps he => ?_⟩
  have hfw := fun i => window_sound hf h i
  have hgw := window_grids hg h.defer
  obtain ⟨valw, hvw⟩ := GridRun.interpolates_exists hfw
  have hh : ∀ q ∈ ps, GridRun.Hints (fun i => inMemory slot gs (fs i)) q.2.vars.2 := fun q hq => (window_hints h _).mpr (hps q hq).2.2
  have ht : ∀ q ∈ ps, (trajectory (jitScheme (fun i => inMemory slot gs (fs i)) b) dt (S + n * dt) q).map bare =
      trajectory (refScheme val b) dt (S + n * dt) (mapP Prod.fst q) := by
    intro q hq
    rw [GridRun.trajectory_jit hfw hgw hvw b _ _ q (hh q hq)]
    exact window_trajectory hv hb hne h hnb hvw (strip q) (hps q hq).2.1
  obtain ⟨g1, g2⟩ := mode_effect (user := user) (f := jitScheme (fun i => inMemory slot gs (fs i)) b) ⟨k, r, Or.inr rfl⟩ hdt (S + n * dt) ps x ps'
    (fun q hq => ⟨(hps q hq).1, by obtain ⟨j, -, hj⟩ := (hps q hq).2.1; exact fits_of hne n q ⟨j, hj⟩⟩) he
  refine ⟨fun hok => ?_, fun hu ⟨q, hq, hq'⟩ => g2 hu ⟨q, hq, by rw [← ht q hq, Option.map_eq_none_iff] at hq'; exact hq'⟩⟩
  obtain ⟨e1, e2, e3⟩ := g1 (hok.imp_right fun H q hq => by
    have := H q hq
    rw [← ht q hq, Option.isSome_map] at this
    exact this)
  refine ⟨e1, ?_, fun q hq => ⟨e3 q hq, ?_⟩⟩
  · have : (ps'.map (mapP Prod.fst)).map core = (ps'.map core).map bare := by
      rw [List.map_map, List.map_map]; rfl
    rw [this, e2]
    exact GridRun.filterMap_bare _ _ _ _ _ ht
  · have hm : core q ∈ ps'.map core := List.mem_map_of_mem hq
    rw [e2, List.mem_filterMap] at hm
    obtain ⟨p, hp, hp'⟩ := hm
    exact (window_hints h _).mp (hints_trajectory hfw hgw b _ _ p (hh p hp) _ hp')

theorem mapS_id (s : St V) : mapS id s = s := by
  obtain ⟨a, ps, f, outs⟩ := s
  unfold mapS
  rw [map_id_list]
  congr 1
  conv_rhs => rw [← List.map_id outs]
  apply List.map_congr_left
  rintro ⟨t, d, o⟩ -
  show Output.Out.mk t (d.map (mapO id)) (o.map (mapO id)) = ⟨t, d, o⟩
  rw [show d.map (mapO id) = d from List.map_id d, show o.map (mapO id) = o from List.map_id o]

theorem records_bare (s : St (V × (Nat → Hint))) : records (mapS Prod.fst s) = (records s).map bare := by
  unfold records mapS
  rw [List.flatMap_map, List.map_flatMap]
  congr 1
  funext o
  dsimp only
  rw [List.filterMap_map, List.map_filterMap]
  congr 1
  funext p
  show Option.map _ p.time = _
  cases p.time <;> rfl

theorem steps_pos {o : Opts} {S : ℚ} {N : ℕ} {ps : List (TP V)} (h : Regular o S N ps) : 0 < N := by
  rcases Nat.eq_zero_or_pos N with c | c
  · have := h.length
    rw [c] at this
    norm_num at this
  · exact c

theorem hints_weaken {fs : Nat → Fld} {slot : Nat → Option Nat} {gs : Grids} (hd : Deferred fs slot gs) {hs : Nat → Hint} (h : Hints fs slot hs) :
    GridRun.Hints fs hs := by
  intro i
  obtain ⟨h1, h2, h3, h4⟩ := h i
  refine ⟨h1, h2, h3, ?_⟩
  rcases window_cases hd i with ⟨e, -⟩ | ⟨k, x, e, hx, ef, -⟩
  · rw [e] at h4; exact h4
  · rw [e] at h4
    have := hd.length x (List.mem_of_getElem? hx)
    rw [ef]
    dsimp only at h4
    push_cast at h4
    omega

end Parcels.DeferRun
