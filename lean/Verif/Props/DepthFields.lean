import Verif.Proofs.DepthFields
import Verif.Model.SLevels

/-!
C93: depths that are given by a field follow that field.
-/

namespace Parcels.DepthFields
open Parcels.TimeChunk Parcels.Search

/-- C93: a field and the field of its depths on the same grid, both loaded when needed: after every request, at any time and in any direction,
periodic or not, after any history of the grid, the levels are those of the snapshots in memory. -/
theorem C93_same_grid (S S' : FSet) (i j : Nat) (hu : Uses S i j) (hg : (S.field j).grid = (S.field i).grid) (fl : Flags) (T : List ℚ) (d : DG)
    (ht : (S.grid (S.field i).grid).times = .deferred fl d) (hT : Increasing T) (hlen : 3 ≤ T.length) (hd : Reachable fl T d) (t : ℚ) (s : ℤ)
    (h : S.request t s = some S') : Follows S' i j := by
  obtain ⟨gs, hl, hs, hdep⟩ := request_stored hu h (by rw [ht]; rfl)
  obtain ⟨-, -, l3⟩ := load_grid hl hu.gi
  rcases l3 with ⟨T', e, _⟩ | ⟨fl', d0, d', nx, e1, e2, e3⟩
  · rw [ht] at e; cases e
  rw [ht] at e1
  injection e1 with e1 e1'
  subst e1 e1'
  obtain ⟨-, n, hn⟩ := C39_memory _ T hT hlen _ hd t s d' nx e2
  have fe : ∀ k, (FSet.mk S.fields gs).field k = S.field k := fun _ => rfl
  have data : ∀ k, (S.field k).grid = (S.field i).grid → (S.field k).files = true →
      (FSet.mk S.fields gs).data k = some [n, n + 1] := by
    intro k hk hf
    unfold FSet.data
    rw [fe, hk, e3]
    dsimp only
    rw [hf, if_pos rfl, hn.idx, hn.memory, if_neg (by omega)]
  refine ⟨[n, n + 1], [n, n + 1], ?_, ?_, ?_⟩
  · rw [hs.data]; exact data i rfl hu.filesI
  · rw [hdep]; unfold stored; rw [data j hg hu.filesJ]
  · unfold FSet.timesOf FSet.series
    rw [hs.field, hs.field, fe, fe, hg]

/-- C93: a field and the field of its depths on different grids with the same times, both loaded when needed: after every forward request, after
any histories of the two grids, the levels are those of the snapshots in memory, at the same times. -/
theorem C93_same_times (S S' : FSet) (i j : Nat) (hu : Uses S i j) (T : List ℚ) (hi : Loading (S.grid (S.field i).grid) T)
    (hj : Loading (S.grid (S.field j).grid) T) (t : ℚ) (s : ℤ) (hs0 : 0 ≤ s) (ht : T.getD 0 0 ≤ t ∧ t ≤ T.getD (T.length - 1) 0)
    (h : S.request t s = some S') : Follows S' i j := by
  obtain ⟨fi, di, ti, pi, hT, hlen, ri⟩ := hi
  obtain ⟨fj, dj, tj, pj, -, -, rj⟩ := hj
  obtain ⟨gs, hl, hs, hdep⟩ := request_stored hu h (by rw [ti]; rfl)
  have one : ∀ k fl d, (S.field k).grid < S.grids.length → (S.field k).files = true → (S.grid (S.field k).grid).times = .deferred fl d →
      fl.periodic = false → Reachable fl T d →
      ∃ n, n + 1 < T.length ∧ RightForward T n t ∧ (FSet.mk S.fields gs).data k = some [n, n + 1] ∧ (FSet.mk S.fields gs).series k = T := by
    intro k fl d hk hf e hp hr
    obtain ⟨-, -, l3⟩ := load_grid hl hk
    rcases l3 with ⟨T', e', _⟩ | ⟨fl', d0, d', nx, e1, e2, e3⟩
    · rw [e] at e'; cases e'
    rw [e] at e1
    injection e1 with e1 e1'
    subst e1 e1'
    obtain ⟨g', nx', n, c1, c2, c3, c4⟩ := C39_forward _ hp T hT hlen _ hr t s hs0 (Or.inr ht)
    rw [c1] at e2
    simp only [Except.ok.injEq, Prod.mk.injEq] at e2
    obtain ⟨rfl, rfl⟩ := e2
    refine ⟨n, by rw [← c2]; exact c3.lt, c4, ?_, ?_⟩
    · unfold FSet.data
      rw [show (FSet.mk S.fields gs).field k = S.field k from rfl, e3]
      dsimp only
      rw [hf, if_pos rfl, c3.idx, c3.memory, if_neg (by omega)]
    · unfold FSet.series
      rw [show (FSet.mk S.fields gs).field k = S.field k from rfl, e3]
      exact c2
  obtain ⟨n, n1, n2, n3, n4⟩ := one i fi di hu.gi hu.filesI ti pi ri
  obtain ⟨m, m1, m2, m3, m4⟩ := one j fj dj hu.gj hu.filesJ tj pj rj
  obtain rfl := right_forward_unique hT n1 m1 n2 m2
  refine ⟨[n, n + 1], [n, n + 1], by rw [hs.data]; exact n3, by rw [hdep]; unfold stored; rw [m3], ?_⟩
  unfold FSet.timesOf
  rw [hs.series, hs.series, n4, m4]

/-- C93: the same backward, from states from which a backward request is right (C39). -/
theorem C93_same_times_backward_partial (S S' : FSet) (i j : Nat) (hu : Uses S i j) (T : List ℚ) (fi fj : Flags) (di dj : DG)
    (ei : (S.grid (S.field i).grid).times = .deferred fi di) (ej : (S.grid (S.field j).grid).times = .deferred fj dj)
    (Ti : di.full = T) (Tj : dj.full = T) (t : ℚ) (hi : BackwardState fi di t) (hj : BackwardState fj dj t)
    (ht : T.getD 0 0 ≤ t ∧ t ≤ T.getD (T.length - 1) 0) (h : S.request t (-1) = some S') : Follows S' i j := by
  obtain ⟨gs, hl, hs, hdep⟩ := request_stored hu h (by rw [ei]; rfl)
  have hT : Increasing T := by rw [← Ti]; exact hi.1
  have one : ∀ k fl d, (S.field k).grid < S.grids.length → (S.field k).files = true → (S.grid (S.field k).grid).times = .deferred fl d →
      d.full = T → BackwardState fl d t →
      ∃ n, n + 1 < T.length ∧ RightBackward T n t ∧ (FSet.mk S.fields gs).data k = some [n, n + 1] ∧ (FSet.mk S.fields gs).series k = T := by
    intro k fl d hk hf e hd hr
    obtain ⟨-, -, l3⟩ := load_grid hl hk
    rcases l3 with ⟨T', e', _⟩ | ⟨fl', d0, d', nx, e1, e2, e3⟩
    · rw [e] at e'; cases e'
    rw [e] at e1
    injection e1 with e1 e1'
    subst e1 e1'
    obtain ⟨g', nx', n, c1, c2, c3, c4⟩ := C39_backward_partial _ _ t hr (Or.inr (by rw [hd]; exact ht))
    rw [c1] at e2
    simp only [Except.ok.injEq, Prod.mk.injEq] at e2
    obtain ⟨rfl, rfl⟩ := e2
    rw [hd] at c2 c4
    refine ⟨n, by rw [← c2]; exact c3.lt, c4, ?_, ?_⟩
    · unfold FSet.data
      rw [show (FSet.mk S.fields gs).field k = S.field k from rfl, e3]
      dsimp only
      rw [hf, if_pos rfl, c3.idx, c3.memory, if_neg (by omega)]
    · unfold FSet.series
      rw [show (FSet.mk S.fields gs).field k = S.field k from rfl, e3]
      exact c2
  obtain ⟨n, n1, n2, n3, n4⟩ := one i fi di hu.gi hu.filesI ei Ti hi
  obtain ⟨m, m1, m2, m3, m4⟩ := one j fj dj hu.gj hu.filesJ ej Tj hj
  obtain rfl := right_backward_unique hT n1 m1 n2 m2
  refine ⟨[n, n + 1], [n, n + 1], by rw [hs.data]; exact n3, by rw [hdep]; unfold stored; rw [m3], ?_⟩
  unfold FSet.timesOf
  rw [hs.series, hs.series, n4, m4]

/-- C93: if nothing is deferred, and the two series have the same times, the levels follow when the FieldSet is completed. -/
theorem C93_in_memory (S S' : FSet) (i j : Nat) (hu : Uses S i j) (T : List ℚ) (hi : (S.grid (S.field i).grid).times = .all T)
    (hj : (S.grid (S.field j).grid).times = .all T) (h : S.complete = some S') : Follows S' i j := by
  obtain ⟨h1, h2⟩ := completeLoop_ok (Same.rfl _) h
  have hdep := (h2 (S.field i).grid hu.gi).1 ⟨S.field i, by
    unfold FSet.field
    rw [List.getD_eq_getElem?_getD, List.getElem?_eq_getElem hu.fi]
    exact List.getElem_mem _, hu.filesI, rfl, by rw [hi]; rfl⟩ j hu.src
  have data : ∀ k, (S.grid (S.field k).grid).times = .all T → S.data k = some (List.range T.length) ∧ S.series k = T := by
    intro k hk
    unfold FSet.data FSet.series
    rw [hk]
    exact ⟨rfl, rfl⟩
  refine ⟨_, _, by rw [h1.data]; exact (data i hi).1, by rw [h1.field, hdep]; unfold stored; rw [(data j hj).1], ?_⟩
  unfold FSet.timesOf
  rw [h1.series, h1.series, (data i hi).2, (data j hj).2]

/-- C93: depths that were announced but never given are reported when the FieldSet is completed, and nothing else is: it raises exactly if some
field with files is on a grid whose depths are still to be given. -/
theorem C93_missing_reported (S : FSet) : S.complete = none ↔ ∃ f ∈ S.fields, f.files = true ∧ (S.grid f.grid).src = .notYetSet := by
  have main : ∀ (L : List FieldS) (S1 : FSet), Same S S1 →
      (S1.completeLoop L = none ↔ ∃ f ∈ L, f.files = true ∧ (S.grid f.grid).src = .notYetSet) := by
    intro L
    induction L with
    | nil => intro S1 _; simp [FSet.completeLoop]
    | cons f L ih =>
      intro S1 h1
      unfold FSet.completeLoop
      by_cases c : f.files = false
      · rw [if_pos c, ih S1 h1]
        simp [c]
      · rw [if_neg c]
        have c' : f.files = true := by simpa using c
        cases hs : (S1.grid f.grid).src with
        | none =>
          dsimp only
          rw [ih S1 h1]
          rw [h1.src] at hs
          simp [hs]
        | notYetSet =>
          dsimp only
          rw [h1.src] at hs
          simp [hs, c']
        | field j =>
          dsimp only
          have hs' := hs
          rw [h1.src] at hs'
          split_ifs
          · rw [ih S1 h1]; simp [hs']
          · rw [ih _ (h1.trans (copy_same S1 f.grid j))]; simp [hs']
  exact main S.fields S (Same.rfl S)

/-! ### Where the depths do not follow -/

/-- C93 fails for fields without files: the depths of a grid on which no field has files are never replaced, whatever field was named as the
source. -/
theorem C93_no_files_fails (S : FSet) (k : Nat) (hk : k < S.grids.length) (hno : ∀ f ∈ S.fields, f.grid = k → f.files = false) :
    (∀ S', S.complete = some S' → (S'.grid k).depth = (S.grid k).depth) ∧
    ∀ t s S', S.request t s = some S' → (S'.grid k).depth = (S.grid k).depth := by
  constructor
  · intro S' h
    exact ((completeLoop_ok (Same.rfl _) h).2 k hk).2.1 (Or.inl hno)
  · intro t s S' h
    unfold FSet.request at h
    cases hl : loadGrids t s S.grids with
    | none => rw [hl] at h; cases h
    | some gs =>
      rw [hl] at h
      dsimp only at h
      have hlen : gs.length = S.grids.length := (loadGrids_ok hl).1
      rw [((depthLoop_ok (Same.rfl _) h).2 k (by simpa [hlen] using hk)).2.1 (Or.inl hno)]
      exact (load_grid hl hk).2.1

/-- C93 fails if a field is put on the grid later: the constructor of the new field (which need not have to do with depths) clears the source, and
from then on the depths stay as they are; and nothing is reported. -/
theorem C93_new_field_fails (S : FSet) (i j : Nat) (hi : (S.field i).grid < S.grids.length) (files : Bool) (t : ℚ) (s : ℤ) :
    let S1 := (S.setDepth i j).addField (S.field i).grid files false
    (S1.grid (S.field i).grid).src = .none ∧
    ∀ S', S1.request t s = some S' → (S'.grid (S.field i).grid).depth = (S.grid (S.field i).grid).depth := by
  intro S1
  have len : (S.setDepth i j).grids.length = S.grids.length := by
    unfold FSet.setDepth FSet.modify
    dsimp only
    split_ifs <;> simp
  have dep : ∀ k, ((S.setDepth i j).grid k).depth = (S.grid k).depth := by
    intro k
    unfold FSet.setDepth
    dsimp only
    split_ifs
    · rw [grid_modify]; split_ifs <;> rfl
    · rw [grid_modify]
      split_ifs <;> rw [grid_modify] <;> split_ifs <;> rfl
  have hg : S1.grid (S.field i).grid = { (S.setDepth i j).grid (S.field i).grid with src := .none } := by
    show ((S.setDepth i j).modify _ _).grid _ = _
    rw [grid_modify, if_pos ⟨rfl, by rw [len]; exact hi⟩]
    simp
  have hk : (S.field i).grid < S1.grids.length := by
    show _ < ((S.setDepth i j).modify _ _).grids.length
    unfold FSet.modify
    rw [List.length_modify, len]
    exact hi
  refine ⟨by rw [hg], fun S' h => ?_⟩
  unfold FSet.request at h
  cases hl : loadGrids t s S1.grids with
  | none => rw [hl] at h; cases h
  | some gs =>
    rw [hl] at h
    dsimp only at h
    have hlen : gs.length = S1.grids.length := (loadGrids_ok hl).1
    have hld := load_grid hl hk
    rw [((depthLoop_ok (Same.rfl _) h).2 (S.field i).grid (by simpa [hlen] using hk)).2.1 (Or.inr (Or.inl (by
      refine hld.1.trans ?_; rw [hg])))]
    rw [hld.2.1, hg]
    exact dep _

/-- Two fields (0, on grid 0, and 1, on grid 1), loaded when needed from files with the times `T` and `T'`; the depths of field 0 are field 1. -/
def exTwo (T T' : List ℚ) : FSet :=
  (FSet.mk [⟨0, true⟩, ⟨1, true⟩] [⟨.deferred ⟨false, false⟩ (DG.fresh T), .notYetSet, .given⟩, ⟨.deferred ⟨false, false⟩ (DG.fresh T'), .notYetSet, .given⟩]).setDepth 0 1

example : Uses (exTwo [0, 10, 20, 30] [0, 10, 20, 30]) 0 1 ∧ (exTwo [0, 10, 20, 30] [0, 10, 20, 30]).complete ≠ none ∧
    (exTwo [0, 10, 20, 30] [0, 10, 20, 30]).request 12 1 ≠ none ∧
    ∀ k, k = 0 ∨ k = 1 → Loading ((exTwo [0, 10, 20, 30] [0, 10, 20, 30]).grid k) [0, 10, 20, 30] := by
  refine ⟨⟨by decide, by decide, by decide, by decide, rfl, rfl, rfl⟩, by decide +kernel, by decide +kernel, ?_⟩
  rintro k (rfl | rfl) <;>
    exact ⟨⟨false, false⟩, DG.fresh [0, 10, 20, 30], rfl, rfl, by unfold Increasing; decide +kernel, by decide, .fresh⟩

/-- Field 0 and the field of its depths, 1, on the same grid; 2 has no files and is on another grid. -/
def exOne (tm : Times) : FSet :=
  (FSet.mk [⟨0, true⟩, ⟨0, true⟩, ⟨1, false⟩] [⟨tm, .notYetSet, .given⟩, ⟨.all [0], .none, .given⟩]).setDepth 0 1

example : Uses (exOne (.deferred ⟨true, false⟩ (DG.fresh [0, 10, 20, 30]))) 0 1 ∧
    (exOne (.deferred ⟨true, false⟩ (DG.fresh [0, 10, 20, 30]))).request 12 (-1) ≠ none ∧
    (exOne (.deferred ⟨true, false⟩ (DG.fresh [0, 10, 20, 30]))).request 72 1 ≠ none ∧
    Increasing [0, 10, 20, 30] ∧ Reachable ⟨true, false⟩ [0, 10, 20, 30] (DG.fresh [0, 10, 20, 30]) :=
  ⟨⟨by decide, by decide, by decide, by decide, rfl, rfl, rfl⟩, by decide +kernel, by decide +kernel, by unfold Increasing; decide +kernel, .fresh⟩

example : Uses (exOne (.all [0, 10])) 0 1 ∧ (exOne (.all [0, 10])).complete ≠ none ∧
    ∀ f ∈ (exOne (.all [0, 10])).fields, f.grid = 1 → f.files = false :=
  ⟨⟨by decide, by decide, by decide, by decide, rfl, rfl, rfl⟩, by decide +kernel, by decide⟩

example : (FSet.mk [⟨0, true⟩] [⟨.all [0], .notYetSet, .given⟩]).complete = none := by decide +kernel

example : (((exOne (.deferred ⟨false, false⟩ (DG.fresh [0, 10, 20, 30]))).setDepth 0 1).addField 0 false false).request 12 1 ≠ none := by
  decide +kernel

example : (exTwo [0, 10, 20, 30] [0, 10, 20, 30]).request 30 (-1) ≠ none ∧ BackwardState ⟨false, false⟩ (DG.fresh [0, 10, 20, 30]) 30 := by
  refine ⟨by decide +kernel, ?_⟩
  exact ⟨by unfold Increasing; decide +kernel, by decide, rfl, .fresh, Or.inl ⟨3, by decide, by decide +kernel⟩⟩

/-- The levels of a column at time `t`: 0, 10 + t, 20 + 2 t; they move. -/
def movingLevels (t : ℚ) : Interp.Arr := { nz := 3, ny := 2, nx := 2, v := fun k _ _ => k * (10 + t) }

/-- A grid whose depths are the snapshots at the times `ts`. -/
def exColumn (ts : Nat → ℚ) : SLevels.SGrid where
  hor := { lon := [0, 1], lat := [0, 1], depth := [], spherical := false, zonalPeriodic := false, mom5 := false }
  zdim := 3
  z4d := true
  ndep := 2
  dep := fun k => movingLevels (ts k)

/-- C93 fails if the field of the depths has other times than the field: a request at time 5 loads the snapshots of times 0 and 10 of the
field and those of times 5 and 10 of the depths. So field 0, which here gives the depth of the levels itself, is 72/7 at depth 12. -/
theorem C93_other_times_fails :
    let S := exTwo [0, 10, 20, 30] [0, 5, 10, 15, 20, 25, 30]
    (∃ S', S.request 5 1 = some S' ∧ S'.data 0 = some [0, 1] ∧ S'.timesOf 0 [0, 1] = [0, 10] ∧
      (S'.grid 0).depth = .snaps 1 [1, 2] ∧ S'.timesOf 1 [1, 2] = [5, 10]) ∧
    SLevels.evalS (exColumn fun k => if k = 0 then 0 else 10) (TimeInterp.TAxis.full [0, 10] false false) .nemo .linear
      (fun k => movingLevels (if k = 0 then 0 else 10)) 5 0 0 12 = .ok 12 ∧
    SLevels.evalS (exColumn fun k => if k = 0 then 5 else 10) (TimeInterp.TAxis.full [0, 10] false false) .nemo .linear
      (fun k => movingLevels (if k = 0 then 0 else 10)) 5 0 0 12 = .ok (72 / 7) := by
  intro S
  have h : (S.request 5 1).isSome = true := by decide +kernel
  refine ⟨⟨(S.request 5 1).get h, (Option.some_get h).symm, ?_, ?_, ?_, ?_⟩, ?_, ?_⟩ <;> decide +kernel +revert

/-- C93 fails if the depths are all in memory (as they are if the file of the depths has two times only, or with deferred_load=False) and the
field is loaded when needed: at time 25 the snapshots of times 20 and 30 of the field are used with the first depths. -/
theorem C93_mixed_loading_fails :
    let S := (FSet.mk [⟨0, true⟩, ⟨1, true⟩] [⟨.deferred ⟨false, false⟩ (DG.fresh [0, 10, 20, 30]), .notYetSet, .given⟩, ⟨.all [0, 10, 20, 30], .none, .given⟩]).setDepth 0 1
    ∃ S', S.request 25 1 = some S' ∧ S'.data 0 = some [2, 3] ∧ (S'.grid 0).depth = .snaps 1 [0, 1, 2, 3] := by
  intro S
  have h : (S.request 25 1).isSome = true := by decide +kernel
  refine ⟨(S.request 25 1).get h, (Option.some_get h).symm, ?_, ?_⟩ <;> decide +kernel +revert

end Parcels.DepthFields
