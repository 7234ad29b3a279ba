import Verif.Proofs.GridRun

namespace Parcels.GridRun

open Search Interp TimeInterp
open KernelLoop (Exc)

variable {V : Type}

/-! ### Space -/

theorem Sound.flatGrid {f : Fld} (hf : Sound f) : FlatGrid f.grid := ⟨hf.flat, hf.noHalo, hf.lonInc, hf.lonLen, hf.latInc, hf.latLen⟩

theorem space_scipy {f : Fld} (hf : Sound f) (d : Arr) {z y x w : ℚ} (h : SpaceValue f.grid d z y x w) :
    sample f.grid .nemo .linear d x y z = .ok (some w) := by
  obtain ⟨n, m, r, s, hx, hy, h2, h3⟩ := h
  rcases Nat.lt_or_ge f.grid.depth.length 2 with c | c
  · rw [h2 (by omega)]
    exact C29_scipy_2D f.grid hf.flatGrid (by omega) .nemo d x y z n m r s hx hy
  · obtain ⟨k, q, hz, rfl⟩ := h3 c
    exact C29_scipy_3D_partial f.grid hf.flatGrid (hf.depth.resolve_left (by omega)) c hf.mom5 .nemo (Or.inl rfl) d x y z n m k r s q hx hy hz

/-- A remembered cell of the grid of a field. -/
def HintOk (f : Fld) (h : Hint) : Prop :=
  h.xi + 1 < f.grid.lon.length ∧ h.yi + 1 < f.grid.lat.length ∧ h.zi ≤ f.grid.depth.length - 1 ∧ h.ti < f.time.length

theorem space_jit {f : Fld} (hf : Sound f) (d : Arr) (hd : Fits d f.grid) {z y x w : ℚ} (h : SpaceValue f.grid d z y x w) {hi : Hint} (hh : HintOk f hi) :
    cSample f.grid .nemo .linear d x y z hi.xi hi.yi hi.zi = .ok w := by
  obtain ⟨n, m, r, s, hx, hy, h2, h3⟩ := h
  obtain ⟨a1, a2, a3, -⟩ := hh
  rcases Nat.lt_or_ge f.grid.depth.length 2 with c | c
  · rw [h2 (by omega)]
    exact C29_jit_2D f.grid hf.flatGrid (by omega) .nemo d hd x y z hi.xi hi.yi hi.zi a1 a2 n m r s hx hy
  · obtain ⟨k, q, hz, rfl⟩ := h3 c
    exact C29_jit_3D_partial f.grid hf.flatGrid (hf.depth.resolve_left (by omega)) c hf.mom5 .nemo (Or.inl rfl) d hd x y z hi.xi hi.yi hi.zi a1 a2 a3
      n m k r s q hx hy hz

theorem located {l : List ℚ} (hl : Increasing l) (hlen : 2 ≤ l.length) {x : ℚ} (h : InRange l x) : ∃ n : Nat, ∃ r, Locates l x n r := by
  rw [inRange_inc hl hlen] at h
  obtain ⟨n, hn, ha, hb, -⟩ := axisSearch_found hl hlen h.1 h.2
  exact ⟨n, _, locates_of_cell hl hn ha hb⟩

/-- Either the position is in a cell, for all data and starting cells, or it is in no cell and both searches fail. -/
theorem space_cases {f : Fld} (hf : Sound f) (z y x : ℚ) :
    ((∃ val : Arr → ℚ, ∀ d, SpaceValue f.grid d z y x (val d)) ∧
      ∀ hi, HintOk f hi → ∃ p, cSearchRect f.grid x y z hi.xi hi.yi hi.zi = .ok p ∧ p.xi.toNat + 1 < f.grid.lon.length ∧
        p.yi.toNat + 1 < f.grid.lat.length ∧ p.zi.toNat ≤ f.grid.depth.length - 1) ∨
    ((∃ e, searchRect f.grid x y z = .error e) ∧ ∀ hi, HintOk f hi → ∃ e, cSearchRect f.grid x y z hi.xi hi.yi hi.zi = .error e) := by
  have hg := hf.flatGrid
  by_cases hin : InRange f.grid.lon x ∧ InRange f.grid.lat y
  · obtain ⟨n, r, hx⟩ := located hf.lonInc hf.lonLen hin.1
    obtain ⟨m, s, hy⟩ := located hf.latInc hf.latLen hin.2
    rcases Nat.lt_or_ge f.grid.depth.length 2 with c | c
    · left
      refine ⟨⟨fun d => bilinearAt d 0 m n s r, fun d => ⟨n, m, r, s, hx, hy, fun _ => rfl, fun h => by omega⟩⟩, ?_⟩
      rintro hi ⟨a1, a2, a3, -⟩
      obtain ⟨p, hp, p1, p2⟩ := (C24_jit f.grid hg (by omega) x y z hi.xi hi.yi hi.zi a1 a2).1 hin
      obtain ⟨n', e1, e1'⟩ := locates_nat p1
      obtain ⟨m', e2, e2'⟩ := locates_nat p2
      refine ⟨p, hp, by rw [e1]; simpa using e1', by rw [e2]; simpa using e2', ?_⟩
      have e3 : p.zi = (hi.zi : ℤ) := by
        unfold cSearchRect at hp
        rw [if_neg (show ¬ 1 < f.grid.depth.length by omega)] at hp
        split at hp
        · cases hp
        · split at hp
          · cases hp
          · split at hp
            · cases hp
            · simp only at hp
              split at hp
              · injection hp with hp; rw [← hp]
              · cases hp
      rw [e3]
      simpa using a3
    · have hdep := hf.depth.resolve_left (by omega : ¬ f.grid.depth.length ≤ 1)
      by_cases hb : BeforeFirst f.grid.depth z ∨ BeyondLast f.grid.depth z
      · right
        constructor
        · obtain ⟨q1, q2, -⟩ := C24_scipy_3D f.grid hg (Or.inl hdep) c hf.mom5 x y z hin.1 hin.2
          rcases hb with hb | hb
          · exact ⟨_, q1 hb⟩
          · exact ⟨_, q2 hb⟩
        · rintro hi ⟨a1, a2, a3, -⟩
          obtain ⟨q1, q2, -⟩ := C24_jit_3D f.grid hg (Or.inl hdep) c hf.mom5 x y z hi.xi hi.yi hi.zi a1 a2 a3 hin.1 hin.2
          rcases hb with hb | hb
          · exact ⟨_, q1 hb⟩
          · exact ⟨_, q2 hb⟩
      · rw [not_or] at hb
        left
        obtain ⟨p, -, -, -, hz⟩ := (C24_scipy_3D f.grid hg (Or.inl hdep) c hf.mom5 x y z hin.1 hin.2).2.2 hb.1 hb.2
        obtain ⟨k, ek, -⟩ := locates_nat hz
        rw [ek] at hz
        refine ⟨⟨fun d => trilinearAt d k m n p.zeta s r, fun d => ⟨n, m, r, s, hx, hy, fun h => by omega, fun _ => ⟨k, _, hz, rfl⟩⟩⟩, ?_⟩
        rintro hi ⟨a1, a2, a3, -⟩
        obtain ⟨p, hp, p1, p2, p3⟩ := (C24_jit_3D f.grid hg (Or.inl hdep) c hf.mom5 x y z hi.xi hi.yi hi.zi a1 a2 a3 hin.1 hin.2).2.2 hb.1 hb.2
        obtain ⟨n', e1, e1'⟩ := locates_nat p1
        obtain ⟨m', e2, e2'⟩ := locates_nat p2
        obtain ⟨k', e3, e3'⟩ := locates_nat p3
        exact ⟨p, hp, by rw [e1]; simpa using e1', by rw [e2]; simpa using e2', by rw [e3, Int.toNat_natCast]; omega⟩
  · right
    constructor
    · by_cases c : f.grid.depth.length ≤ 1
      · exact ⟨_, (C24_scipy f.grid hg c x y z).2 hin⟩
      · refine ⟨.outOfBounds, ?_⟩
        have := (C24_scipy { f.grid with depth := [] } ⟨hg.flat, hg.noHalo, hg.lonInc, hg.lonLen, hg.latInc, hg.latLen⟩ (by simp) x y z).2 hin
        have h2 : 1 < f.grid.lon.length := by have := hf.lonLen; omega
        have h3 : 1 < f.grid.lat.length := by have := hf.latLen; omega
        rw [inRange_inc hf.lonInc hf.lonLen, inRange_inc hf.latInc hf.latLen] at hin
        unfold searchRect
        rw [minL_inc hf.lonInc, maxL_inc hf.lonInc, minL_inc hf.latInc, maxL_inc hf.latInc]
        by_cases hx : f.grid.lon.getD 0 0 ≤ x ∧ x ≤ f.grid.lon.getD (f.grid.lon.length - 1) 0
        · rw [if_neg (by rintro ⟨_, _, h | h⟩ <;> linarith [hx.1, hx.2]), if_pos]
          refine ⟨h3, ?_⟩
          by_contra hh
          rw [not_or, not_lt, not_lt] at hh
          exact hin ⟨hx, hh⟩
        · rw [if_pos]
          refine ⟨h2, hf.noHalo, ?_⟩
          by_contra hh
          rw [not_or, not_lt, not_lt] at hh
          exact hx hh
    · rintro hi ⟨a1, a2, a3, -⟩
      refine ⟨.outOfBounds, ?_⟩
      have h2 : 1 < f.grid.lon.length := by have := hf.lonLen; omega
      have h3 : 1 < f.grid.lat.length := by have := hf.latLen; omega
      rw [inRange_inc hf.lonInc hf.lonLen, inRange_inc hf.latInc hf.latLen] at hin
      unfold cSearchRect
      rw [minL_inc hf.lonInc, maxL_inc hf.lonInc, minL_inc hf.latInc, maxL_inc hf.latInc]
      by_cases hx : f.grid.lon.getD 0 0 ≤ x ∧ x ≤ f.grid.lon.getD (f.grid.lon.length - 1) 0
      · rw [if_neg (by rintro ⟨_, _, h | h⟩ <;> linarith [hx.1, hx.2]), if_pos]
        refine ⟨h3, ?_⟩
        by_contra hh
        rw [not_or, not_lt, not_lt] at hh
        exact hin ⟨hx, hh⟩
      · rw [if_pos]
        refine ⟨hf.noHalo, h2, ?_⟩
        by_contra hh
        rw [not_or, not_lt, not_lt] at hh
        exact hx hh

/-! ### Samples -/

theorem evalTime_err (a : TAxis) (sn : Nat → Except Err ℚ) (e : Err) (h : ∀ i, sn i = .error e) (t : ℚ) : ∃ e', evalTime a sn t = .error e' := by
  unfold evalTime
  split
  · exact ⟨_, rfl⟩
  · dsimp only
    split <;> rw [h] <;> exact ⟨_, rfl⟩

theorem cEvalTime_err (a : TAxis) (sn : Nat → Except Err ℚ) (e : Err) (h : ∀ i, sn i = .error e) (n : Nat) (t : ℚ) (ti : ℤ) (w : ℚ) :
    cEvalTime a sn n t ti ≠ some (.ok w) := by
  unfold cEvalTime
  split
  · simp
  · split
    · simp
    · dsimp only
      rw [h]
      simp

/-- Sampling in Scipy mode gives the interpolated value where there is one, and fails elsewhere. -/
theorem eval_iff {f : Fld} (hf : Sound f) (t z y x w : ℚ) : eval f t z y x = .ok w ↔ FieldValue f t z y x w := by
  have hfwd : ∀ w, FieldValue f t z y x w → eval f t z y x = .ok w := by
    rintro w ⟨v, hv, ht⟩
    have hs : ∀ j, j < f.time.length → snap f z y x j = .ok (v j) := by
      intro j hj
      unfold snap
      rw [space_scipy hf _ (hv j hj)]
    unfold eval
    rw [time_scipy hf.timeInc hf.timeLen f.extrap _ v hs t w ht]
  refine ⟨fun h => ?_, hfwd w⟩
  rcases space_cases hf z y x with ⟨⟨val, hval⟩, -⟩ | ⟨⟨e, he⟩, -⟩
  · have hs : ∀ j, j < f.time.length → snap f z y x j = .ok (val (f.data j)) := by
      intro j _
      unfold snap
      rw [space_scipy hf _ (hval (f.data j))]
    rcases time_total hf.timeInc hf.timeLen f.extrap t (fun i => val (f.data i)) with ⟨w', hw'⟩ | ⟨c, hc⟩
    · have hv : FieldValue f t z y x w' := ⟨fun i => val (f.data i), fun i _ => hval _, hw'⟩
      rw [hfwd w' hv] at h
      injection h with h
      rw [← h]
      exact hv
    · exfalso
      have hne : f.time ≠ [] := List.length_pos_iff.mp hf.timeLen
      obtain ⟨o1, o2⟩ := C32_scipy_outside f.time hf.timeInc hne (snap f z y x) _ hs t
      unfold eval at h
      rw [c] at h
      rcases hc with hc | hc
      · rw [(o1 hc).1] at h; cases h
      · rw [(o2 hc).1] at h; cases h
  · exfalso
    have hs : ∀ i, snap f z y x i = .error e := by
      intro i
      unfold snap sample
      rw [he]
    obtain ⟨e', h'⟩ := evalTime_err (TAxis.full f.time false f.extrap) _ e hs t
    unfold eval at h
    rw [h'] at h
    cases h

theorem remember_ok {f : Fld} (hf : Sound f) (t z y x : ℚ) {h : Hint} (hh : HintOk f h) : HintOk f (remember f t z y x h) := by
  have hti := hh.2.2.2
  have hlen := hf.timeLen
  have hst : startIdx h.ti < f.time.length := by unfold startIdx; split_ifs <;> omega
  have hidx := cSearch_direct (T := f.time) false 0 0 0 t h.ti 0 (Or.inl rfl)
  unfold remember
  rw [hidx]
  rcases space_cases hf z y x with ⟨-, hc⟩ | ⟨-, hc⟩
  · obtain ⟨p, hp, p1, p2, p3⟩ := hc h hh
    rw [hp]
    refine ⟨p1, p2, p3, ?_⟩
    have : cWalk ltB f.time t (startIdx h.ti) < f.time.length := by
      rcases lt_or_ge t (f.time.getD 0 0) with c | c
      · rw [walk_before hf.timeInc _ hst c]; omega
      · exact (walk_in hf.timeInc _ hst c).1
    show ((cWalk ltB f.time t (startIdx h.ti) : ℕ) : ℤ) < f.time.length
    exact_mod_cast this
  · obtain ⟨e, he⟩ := hc h hh
    rw [he]
    exact hh

/-- The same in JIT mode, from every remembered cell. -/
theorem cEval_iff {f : Fld} (hf : Sound f) {hi : Hint} (hh : HintOk f hi) (t z y x w : ℚ) :
    cEval f t z y x hi = .ok (w, remember f t z y x hi) ↔ FieldValue f t z y x w := by
  have hfwd : ∀ w, FieldValue f t z y x w → cEval f t z y x hi = .ok (w, remember f t z y x hi) := by
    rintro w ⟨v, hv, ht⟩
    have hs : ∀ j, j < f.time.length → cSample f.grid .nemo .linear (f.data j) x y z hi.xi hi.yi hi.zi = .ok (v j) := by
      intro j hj
      exact space_jit hf _ (hf.fits j) (hv j hj) hh
    unfold cEval
    rw [time_jit hf.timeInc hf.timeLen f.extrap _ v hs 0 hi.ti hh.2.2.2 t w ht]
  refine ⟨fun h => ?_, hfwd w⟩
  rcases space_cases hf z y x with ⟨⟨val, hval⟩, -⟩ | ⟨-, he⟩
  · have hs : ∀ j, j < f.time.length → cSample f.grid .nemo .linear (f.data j) x y z hi.xi hi.yi hi.zi = .ok (val (f.data j)) := by
      intro j _
      exact space_jit hf _ (hf.fits j) (hval _) hh
    rcases time_total hf.timeInc hf.timeLen f.extrap t (fun i => val (f.data i)) with ⟨w', hw'⟩ | ⟨c, hc⟩
    · have hv : FieldValue f t z y x w' := ⟨fun i => val (f.data i), fun i _ => hval _, hw'⟩
      rw [hfwd w' hv] at h
      injection h with h
      rw [← (Prod.mk.inj h).1]
      exact hv
    · exfalso
      have hne : f.time ≠ [] := List.length_pos_iff.mp hf.timeLen
      obtain ⟨o1, o2⟩ := C32_jit_outside f.time hf.timeInc hne _ _ hs 0 hi.ti hh.2.2.2 t
      unfold cEval at h
      rw [c] at h
      rcases hc with hc | hc
      · rw [(o1 hc).1] at h; cases h
      · rw [(o2 hc).1] at h; cases h
  · exfalso
    obtain ⟨e, he⟩ := he hi hh
    have hs : ∀ i, cSample f.grid .nemo .linear (f.data i) x y z hi.xi hi.yi hi.zi = .error e := by
      intro i
      unfold cSample
      rw [he]
    have h' := cEvalTime_err (TAxis.full f.time false f.extrap) _ e hs 1 t hi.ti
    unfold cEval at h
    split at h
    · rename_i v hv; exact h' v hv
    · cases h
    · cases h

theorem cEval_shape {f : Fld} {t z y x : ℚ} {hi h' : Hint} {w : ℚ} (h : cEval f t z y x hi = .ok (w, h')) : h' = remember f t z y x hi := by
  unfold cEval at h
  split at h
  · injection h with h; exact (Prod.mk.inj h).2.symm
  · cases h
  · cases h

end Parcels.GridRun
