import Verif.Props.GridSet

/-!
C65: fields with different time origins are sampled at the same date. `complete` moves the times of each grid to the
origin of the FieldSet; a sample at time `t` of the FieldSet is the sample of the field's own axis at the same date.
-/

namespace Parcels.GridSet
open Parcels.TimeInterp Parcels.Search

/-- An axis moved by `c`. -/
def moved (a : TAxis) (c : ℚ) : TAxis :=
  { time := a.time.map (· + c), tdim := a.tdim, fullMin := a.fullMin + c, fullMax := a.fullMax + c, periodic := a.periodic, extrap := a.extrap }

theorem any_moved (l : List ℚ) (c t : ℚ) :
    ((l.map (· + c)).any fun v => decide (v ≤ t + c)) = l.any fun v => decide (v ≤ t) := by
  rw [List.any_map]; congr 1; funext v; simp

theorem all_moved (l : List ℚ) (c t : ℚ) :
    ((l.map (· + c)).all fun v => decide (v ≤ t + c)) = l.all fun v => decide (v ≤ t) := by
  rw [List.all_map]; congr 1; funext v; simp

theorem allNot_moved (l : List ℚ) (c t : ℚ) :
    ((l.map (· + c)).all fun v => !decide (v ≤ t + c)) = l.all fun v => !decide (v ≤ t) := by
  rw [List.all_map]; congr 1; funext v; simp

theorem findIdx_moved (l : List ℚ) (c t : ℚ) :
    ((l.map (· + c)).findIdx fun v => !decide (v ≤ t + c)) = l.findIdx fun v => !decide (v ≤ t) := by
  rw [List.findIdx_map]; congr 1; funext v; simp

theorem argminIdx_moved (l : List ℚ) (c t : ℚ) : argminIdx (l.map (· + c)) (t + c) = argminIdx l t := by
  unfold argminIdx; rw [any_moved, all_moved, findIdx_moved]

theorem timeIndex_moved (a : TAxis) (c t : ℚ) (h : a.time ≠ []) : timeIndex (moved a c) (t + c) = timeIndex a t := by
  have hp : periodsOf (moved a c) (t + c) = periodsOf a t := by
    unfold periodsOf moved; congr 2 <;> ring
  have hs : (moved a c).fullMax - (moved a c).fullMin = a.fullMax - a.fullMin := by unfold moved; ring
  unfold timeIndex
  rw [hp, hs]
  show (if a.periodic = false ∧ a.extrap = false ∧ (t + c < (a.time.map (· + c)).headD 0 ∨ (a.time.map (· + c)).getLastD 0 < t + c)
    then _ else if a.periodic = true then _ else _) = _
  have hm : (moved a c).time = a.time.map (· + c) := rfl
  rw [hm, headD_map_add _ _ h, getLastD_map_add _ _ h, all_moved, allNot_moved, argminIdx_moved, List.length_map]
  have e : t + c - (periodsOf a t : ℚ) * (a.fullMax - a.fullMin) = t - (periodsOf a t : ℚ) * (a.fullMax - a.fullMin) + c := by ring
  rw [e, argminIdx_moved]
  simp only [add_lt_add_iff_right]

theorem getD_moved (l : List ℚ) (c : ℚ) (i : Nat) (h : i < l.length) : (l.map (· + c)).getD i 0 = l.getD i 0 + c := by
  simp [List.getD_eq_getElem?_getD, h]

theorem wrapIdx_lt (n : Nat) (i : ℤ) (hn : 0 < n) (h1 : -(n : ℤ) ≤ i) (h2 : i < n) : wrapIdx n i < n := by
  unfold wrapIdx; split <;> omega

theorem argminIdx_bounds (l : List ℚ) (t : ℚ) (h : l ≠ []) : -1 ≤ argminIdx l t ∧ argminIdx l t < l.length := by
  unfold argminIdx
  have h0 : 0 < l.length := List.length_pos_iff.mpr h
  split
  · split
    · omega
    · have := List.findIdx_le_length (xs := l) (p := fun v => !decide (v ≤ t))
      omega
  · omega

theorem timeIndex_bounds (a : TAxis) (t : ℚ) (h : a.time ≠ []) (ti p : ℤ) (ht : timeIndex a t = .ok (ti, p)) :
    -1 ≤ ti ∧ ti < a.time.length := by
  have h0 : 0 < a.time.length := List.length_pos_iff.mpr h
  unfold timeIndex at ht
  split at ht
  · cases ht
  · split at ht
    · split at ht <;> (simp only [Except.ok.injEq, Prod.mk.injEq] at ht; rw [← ht.1]; exact argminIdx_bounds _ _ h)
    · split at ht
      · simp only [Except.ok.injEq, Prod.mk.injEq] at ht; omega
      · split at ht
        · simp only [Except.ok.injEq, Prod.mk.injEq] at ht; omega
        · simp only [Except.ok.injEq, Prod.mk.injEq] at ht; rw [← ht.1]; exact argminIdx_bounds _ _ h

/-- Sampling does not depend on where the time axis starts. -/
theorem evalTime_moved (a : TAxis) (c t : ℚ) (h : a.time ≠ []) (htd : a.tdim ≤ a.time.length) (snap : Nat → Except Err ℚ) :
    evalTime (moved a c) snap (t + c) = evalTime a snap t := by
  have h0 : 0 < a.time.length := List.length_pos_iff.mpr h
  unfold evalTime
  rw [timeIndex_moved a c t h]
  cases ht : timeIndex a t with
  | error e => rfl
  | ok q =>
    obtain ⟨ti, p⟩ := q
    have hb := timeIndex_bounds a t h ti p ht
    have hm : (moved a c).time = a.time.map (· + c) := rfl
    have hs : (moved a c).fullMax - (moved a c).fullMin = a.fullMax - a.fullMin := by unfold moved; ring
    have hw := wrapIdx_lt a.time.length ti h0 (by omega) hb.2
    have hmt : (moved a c).tdim = a.tdim := rfl
    simp only [hm, hs, hmt, List.length_map]
    rw [getD_moved _ _ _ hw]
    have e : t + c - (p : ℚ) * (a.fullMax - a.fullMin) = t - (p : ℚ) * (a.fullMax - a.fullMin) + c := by ring
    rw [e]
    simp only [add_lt_add_iff_right]
    by_cases hc : ti < (a.tdim : ℤ) - 1 ∧ a.time.getD (wrapIdx a.time.length ti) 0 < t - (p : ℚ) * (a.fullMax - a.fullMin)
    · rw [if_pos hc, if_pos hc]
      have hw1 := wrapIdx_lt a.time.length (ti + 1) h0 (by omega) (by omega)
      rw [getD_moved _ _ _ hw1]
      simp only [add_sub_add_right_eq_sub]
    · rw [if_neg hc, if_neg hc]

/-- Without periods, the first and last of all times do not matter. -/
theorem evalTime_full_irrelevant (T : List ℚ) (m : Nat) (lo hi lo' hi' : ℚ) (e : Bool) (snap : Nat → Except Err ℚ) (t : ℚ) :
    evalTime ⟨T, m, lo, hi, false, e⟩ snap t = evalTime ⟨T, m, lo', hi', false, e⟩ snap t := by
  have hi0 : ∀ lo hi, timeIndex ⟨T, m, lo, hi, false, e⟩ t = timeIndex ⟨T, m, 0, 0, false, e⟩ t := by
    intro lo hi; rfl
  have hp : ∀ ti p, timeIndex ⟨T, m, 0, 0, false, e⟩ t = .ok (ti, p) → p = 0 := by
    intro ti p h
    unfold timeIndex at h
    split at h
    · cases h
    · simp only [Bool.false_eq_true, if_false] at h
      split at h
      · simp only [Except.ok.injEq, Prod.mk.injEq] at h; exact h.2.symm
      · split at h <;> (simp only [Except.ok.injEq, Prod.mk.injEq] at h; exact h.2.symm)
  unfold evalTime
  rw [hi0 lo hi, hi0 lo' hi']
  cases h : timeIndex ⟨T, m, 0, 0, false, e⟩ t with
  | error x => rfl
  | ok q =>
    obtain ⟨ti, p⟩ := q
    rw [hp ti p h]
    simp only [Int.cast_zero, zero_mul]

/-- C65 (partial): sampling a completed FieldSet at its time `t` gives what the field's own axis gives at the same date,
`o + t`, for every time, including the error outside the axis; for fields that are not periodic, and for periodic ones
that are loaded lazily or have the origin of the FieldSet. Missing: periodic fields loaded directly with another
origin, for which the claim is false, see `C65_full_false`. -/
theorem C65_same_date_partial (o : ℚ) (g : GTime) (hf : g.Fresh) (tdim : Nat) (htd : tdim ≤ g.time.length) (periodic extrap : Bool) (snap : Nat → Except Err ℚ)
    (h : periodic = false ∨ g.deferred = true ∨ g.origin = o) (hlen : g.time.length ≠ 1) (t : ℚ) :
    evalTime ((complete o g).axis tdim periodic extrap) snap t = evalTime (g.axis tdim periodic extrap) snap (o + t - g.origin) := by
  have key := evalTime_moved (g.axis tdim periodic extrap) (g.origin - o) (o + t - g.origin) hf.1 htd snap
  have e : o + t - g.origin + (g.origin - o) = t := by ring
  rw [e] at key
  rw [← key]
  have hc : complete o g = { time := g.time.map (· + (g.origin - o)), timeFull := if g.deferred then g.timeFull.map (· + (g.origin - o)) else g.timeFull, origin := o, deferred := g.deferred } := by
    unfold complete; rw [if_neg hlen]
  by_cases hd : g.deferred = true ∨ g.origin = o
  · have hfull : (complete o g).timeFull = g.timeFull.map (· + (g.origin - o)) := by
      rw [hc]
      show (if g.deferred = true then _ else _) = _
      rcases hd with h' | h'
      · rw [if_pos h']
      · split
        · rfl
        · rw [h', sub_self]; simp
    have : (complete o g).axis tdim periodic extrap = moved (g.axis tdim periodic extrap) (g.origin - o) := by
      unfold GTime.axis moved
      rw [hfull, headD_map_add _ _ hf.2.1, getLastD_map_add _ _ hf.2.1, hc]
    rw [this]
  · have hp : periodic = false := by
      rcases h with h | h
      · exact h
      · exact absurd h hd
    subst hp
    unfold GTime.axis moved
    rw [hc]
    exact evalTime_full_irrelevant _ _ _ _ _ _ _ _ _

/-- The hypotheses of `C65_same_date_partial` hold for a field that starts 5 seconds after the FieldSet; half way
between its snapshots it is sampled half way. -/
example : evalTime ((complete 100 ⟨[0, 10], [0, 10], 105, false⟩).axis 2 false false) (fun i => .ok i) 10 = .ok (1 / 2) := by
  decide +kernel

/-- C65: a field with one snapshot, which may be extrapolated, is that snapshot at all times. -/
theorem C65_single (o : ℚ) (g : GTime) (v : ℚ) (hg : g.time = [v]) (snap : Nat → Except Err ℚ) (x : ℚ) (hx : snap 0 = .ok x) (t : ℚ) :
    evalTime ((complete o g).axis 1 false true) snap t = .ok x := by
  have hc : complete o g = g := by unfold complete; rw [if_pos (by rw [hg]; rfl)]
  rw [hc]
  have ht : timeIndex (g.axis 1 false true) t = .ok (0, 0) := by
    unfold timeIndex GTime.axis
    simp only [hg, Bool.false_eq_true, if_false, Bool.true_eq_false, false_and, and_false]
    by_cases h : v ≤ t <;> simp [h]
  unfold evalTime
  rw [ht]
  simp [GTime.axis, hg, wrapIdx, hx]

example : evalTime ((complete 100 ⟨[3], [3], 105, false⟩).axis 1 false true) (fun _ => .ok 7) 1000 = .ok 7 := by decide +kernel

/-- The full claim of C65 is false of the code: a periodic field loaded directly, with period 10, that starts 5 seconds
after the FieldSet. At the FieldSet's time 22, its own time 17, it has the value at its time 7, which is 3; the code
gives the value at its first time. -/
theorem C65_full_false :
    let g : GTime := ⟨[0, 5, 10], [0, 5, 10], 105, false⟩
    let snap : Nat → Except Err ℚ := fun i => .ok ([0, 5, 0].getD i 0)
    evalTime (g.axis 3 true false) snap (100 + 22 - 105) = .ok 3 ∧
      evalTime ((complete 100 g).axis 3 true false) snap 22 = .ok 0 := by decide +kernel

end Parcels.GridSet
