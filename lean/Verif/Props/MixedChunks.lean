import Verif.Proofs.MixedChunks
import Verif.Model.GridSet

/-!
C88: compiled code reads each field through its own blocks.

Full C88: whatever fields are put on a FieldSet, with whatever `chunksize` each was opened, and whatever is executed: when
compiled code evaluates a field, it gets the data of that field at the cell asked for, or a block of that field that holds
a node of the cell is requested.

It is false where fields of one grid are split in different ways, since the grid remembers only the layout of the field
that was set up last; witnesses are below, and `C88_joined_fails` shows that `add_field` makes such grids. Proved where all
fields of a grid are split in the same way (in addition, the layout must be one the C code copes with, see C47).
-/

namespace Parcels.MixedChunks

open Parcels.Chunks

variable {α : Type}

/-- C88 (partial): if the fields of a grid are split in the same way, whatever happened before, and in whatever order the
fields were set up, the data read for a field of the kernel are those of that field, or a block of it is requested. -/
theorem C88_reads_partial {A : List (List Nat)} {d : Bool} {fs : List (List (List Nat) × Bool × Bool × Data α)}
    (hsame : SameSplit A d fs) (hc : Copes A) {s : St α} (h : Reach fs true s) {field : Nat} {f : Fld α}
    (hf : s.fields[field]? = some f) (hu : f.used = true) {idx : List Nat} (hcell : IsCell f.axes idx) (ti : Nat)
    (firstOnly : Bool) (ht : ti + (if firstOnly then 0 else 1) < f.data.tdim) :
    Reads s field f idx ti firstOnly := by
  have hmem := List.mem_of_getElem? hf
  have hi := reach_inv hsame h
  obtain ⟨he, hm⟩ := inv_inMemory hi hmem hu
  have hax := (hi.fields f hmem).ax
  unfold Reads evalField
  simp only
  rw [hf, he, hax]
  rw [hax] at hcell
  rcases getCell_right hc hcell f.data s.load f.chunks hm ti firstOnly ht with ⟨load', h1, _, _⟩ | h1
  · exact .inl ⟨load', h1⟩
  · exact .inr h1

/-- C88 (partial): under the same condition Python never refuses to call the compiled code. -/
theorem C88_no_refusal_partial {A : List (List Nat)} {d : Bool} {fs : List (List (List Nat) × Bool × Bool × Data α)}
    (hsame : SameSplit A d fs) {r : Bool} {s : St α} (h : Reach fs r s) : prepare s ≠ none := by
  obtain ⟨s', e, _⟩ := prepare_ok hsame.2 (reach_inv hsame h)
  rw [e]
  simp

/-- The data of the fields, which the theorems above speak of, are those last loaded, and calling the compiled code changes
neither them nor the fields it is called for. -/
theorem C88_data {s s' : St α} (new : List (Data α)) (hl : new.length = s.fields.length) :
    (snapshotFirst new s).fields.map (·.data) = new ∧ (snapshotNext new s).fields.map (·.data) = new ∧
    (prepare s = some s' → s'.fields.map (fun f => (f.axes, f.dask, f.used, f.data)) = s.fields.map fun f => (f.axes, f.dask, f.used, f.data)) := by
  refine ⟨?_, ?_, ?_⟩
  · unfold snapshotFirst
    simp only
    generalize (s.info, s.load) = g
    generalize s.fields = fs at hl
    induction fs generalizing g new with
    | nil =>
      rw [List.length_eq_zero_iff.mp hl]
      rfl
    | cons f fs ih =>
      cases new with
      | nil => simp at hl
      | cons d new =>
        have hd : (ensure g { f with data := d }).2.data = d := by
          unfold ensure
          split <;> rfl
        rw [List.zip_cons_cons]
        unfold firstLoad
        simp only [List.map_cons]
        rw [hd, ih new _ (by simpa using hl)]
  · unfold snapshotNext
    simp only
    generalize s.fields = fs at hl
    induction fs generalizing new with
    | nil =>
      rw [List.length_eq_zero_iff.mp hl]
      rfl
    | cons f fs ih =>
      cases new with
      | nil => simp at hl
      | cons d new =>
        rw [List.zipWith_cons_cons, List.map_cons, ih new (by simpa using hl)]
  · intro h
    have key : ∀ (fs : List (Fld α)) g g' fs', prepFields g fs = some (g', fs') →
        fs'.map (fun f => (f.axes, f.dask, f.used, f.data)) = fs.map fun f => (f.axes, f.dask, f.used, f.data) := by
      intro fs
      induction fs with
      | nil =>
        intro g g' fs' h
        simp only [prepFields, Option.some.injEq, Prod.mk.injEq] at h
        rw [← h.2]
      | cons f fs ih =>
        intro g g' fs' h
        unfold prepFields at h
        by_cases hu : f.used = true
        · rw [if_pos hu] at h
          cases hc : chunkData g f with
          | none => rw [hc] at h; cases h
          | some r =>
            obtain ⟨g1, f1⟩ := r
            rw [hc] at h
            simp only [Option.map_eq_some_iff] at h
            obtain ⟨⟨g2, fs2⟩, h1, h2⟩ := h
            have e := ih _ _ _ h1
            simp only [Prod.mk.injEq] at h2
            rw [← h2.2, List.map_cons, List.map_cons, e]
            have : (f1.axes, f1.dask, f1.used, f1.data) = (f.axes, f.dask, f.used, f.data) := by
              unfold chunkData ensure at hc
              by_cases hs : f.isSet = true
              · simp only [if_pos hs] at hc
                split at hc <;> split at hc <;> cases hc <;> rfl
              · simp only [if_neg hs] at hc
                split at hc <;> split at hc <;> cases hc <;> rfl
            rw [this]
        · rw [if_neg hu] at h
          simp only [Option.map_eq_some_iff] at h
          obtain ⟨⟨g2, fs2⟩, h1, h2⟩ := h
          have e := ih _ _ _ h1
          simp only [Prod.mk.injEq] at h2
          rw [← h2.2, List.map_cons, List.map_cons, e]
    unfold prepare at h
    cases hp : prepFields (s.info, s.load) s.fields with
    | none => rw [hp] at h; cases h
    | some r =>
      obtain ⟨g, fs⟩ := r
      rw [hp] at h
      simp only at h
      split at h
      · rw [← Option.some.inj h]
        exact key _ _ _ _ hp
      · cases h

example : (snapshotFirst [⟨1, fun _ _ => 5⟩] (start [([[4], [4]], false, true, (⟨2, fun _ _ => 7⟩ : Data Nat))])).fields.map (·.data.tdim) = [1] := by
  decide +kernel

/-! ### A concrete case -/

def exU : Data Nat := ⟨2, fun t n => 1000 + 100 * t + 10 * n.headD 0 + n.getD 1 0⟩
def exV : Data Nat := ⟨2, fun t n => 2000 + 100 * t + 10 * n.headD 0 + n.getD 1 0⟩

/-- Two dask fields with blocks of two rows and columns; the kernel uses only the first. -/
def exFs : List (List (List Nat) × Bool × Bool × Data Nat) := [([[2, 2], [2, 2]], true, true, exU), ([[2, 2], [2, 2]], true, false, exV)]

example : SameSplit [[2, 2], [2, 2]] true exFs := ⟨by decide, by simp⟩
example : Copes [[2, 2], [2, 2]] := ⟨by decide, by decide, by decide, .inl (by decide)⟩

/-- Run `prepare`; the state is left as it is if Python refuses. -/
def call (s : St α) : St α := (prepare s).getD s

/-- The C code asks for the cell at `idx` of field `field`, and only the load states change. -/
def ask (s : St α) (field : Nat) (idx : List ℤ) : St α :=
  match evalField s ⟨field, idx, 0, true⟩ with
  | .undef => s
  | .rep l => { s with load := l }
  | .ok l _ => { s with load := l }

theorem reach_call {fs : List (List (List Nat) × Bool × Bool × Data α)} {r : Bool} {s : St α} (h : Reach fs r s)
    (hp : (prepare s).isSome = true) : Reach fs true (call s) := by
  obtain ⟨s', e⟩ := Option.isSome_iff_exists.mp hp
  unfold call
  rw [e]
  exact .call h e

theorem reach_ask {fs : List (List (List Nat) × Bool × Bool × Data α)} {s : St α} (h : Reach fs true s) (field : Nat) (idx : List ℤ) :
    Reach fs true (ask s field idx) := by
  unfold ask
  split
  · exact h
  · rename_i e; exact .rep h e
  · rename_i e; exact .ok h e

/-- Not set up when loading (the data are in memory from the start), the first field is used, then both: the second is set
up while the first has blocks in memory. -/
def exRun : St Nat := ask (call (useFields [true, true] (call (ask (call (start exFs)) 0 [0, 0])))) 1 [0, 0]

example : Reach exFs true exRun :=
  reach_ask (reach_call (.use (reach_call (reach_ask (reach_call .start (by decide +kernel)) _ _) (by decide +kernel)) (by decide))
    (by decide +kernel)) _ _
example : (call exRun).load = [2, 0, 0, 0] ∧
    evalField (call exRun) ⟨1, [0, 0], 0, true⟩ = .ok [2, 0, 0, 0] [2000, 2001, 2010, 2011] ∧
    evalField (call exRun) ⟨0, [0, 0], 0, true⟩ = .ok [2, 0, 0, 0] [1000, 1001, 1010, 1011] ∧
    evalField (call exRun) ⟨0, [0, 2], 0, true⟩ = .rep [2, 1, 0, 0] := by
  refine ⟨?_, ?_, ?_, ?_⟩ <;> decide +kernel

/-- Two numpy fields. -/
def exNp : List (List (List Nat) × Bool × Bool × Data Nat) := [([[4], [4]], false, true, exU), ([[4], [4]], false, true, exV)]

example : SameSplit [[4], [4]] false exNp := ⟨by decide, by decide⟩
example : evalField (call (start exNp)) ⟨1, [2, 1], 0, true⟩ = .ok [2] [2021, 2022, 2031, 2032] := by decide +kernel

/-! ### Where C88 fails -/

/-- A velocity opened with blocks of two rows and columns, and another field on the same grid, opened without `chunksize`. -/
def mixed (usedU usedP : Bool) : List (List (List Nat) × Bool × Bool × Data Nat) :=
  [([[2, 2], [2, 2]], true, usedU, exU), ([[4], [4]], false, usedP, exV)]

/-- The data are loaded, and the C code is called, asks for the first cell of the velocity, and is called again. -/
def mixedRun : St Nat := call (ask (call (snapshotFirst [exU, exV] (start (mixed true false)))) 0 [0, 0])

/-- C88 fails: the kernel uses the velocity only. The velocity at the first cell is silently read from the wrong nodes, and
even from the wrong time; at another cell the C code reads outside the array. -/
theorem C88_mixed_fails :
    Reach (mixed true false) true mixedRun ∧
    (∃ f, mixedRun.fields[0]? = some f ∧ f.used = true ∧ f.axes = [[2, 2], [2, 2]] ∧ IsCell f.axes [0, 0] ∧ IsCell f.axes [2, 2] ∧
      cellData f.axes f.data [0, 0] 0 true = [1000, 1001, 1010, 1011] ∧
      ¬ Reads mixedRun 0 f [0, 0] 0 true ∧ ¬ Reads mixedRun 0 f [2, 2] 0 true) ∧
    evalField mixedRun ⟨0, [0, 0], 0, true⟩ = .ok [2] [1000, 1001, 1100, 1101] ∧
    evalField mixedRun ⟨0, [2, 2], 0, true⟩ = .undef := by
  have e1 : evalField mixedRun ⟨0, [0, 0], 0, true⟩ = .ok [2] [1000, 1001, 1100, 1101] := by decide +kernel
  have e2 : evalField mixedRun ⟨0, [2, 2], 0, true⟩ = .undef := by decide +kernel
  refine ⟨?_, ?_, e1, e2⟩
  · exact reach_call (reach_ask (reach_call (.first .start rfl) (by decide +kernel)) _ _) (by decide +kernel)
  · refine ⟨_, rfl, rfl, rfl, .cons (.inl (by decide)) (.cons (.inl (by decide)) .nil),
      .cons (.inl (by decide)) (.cons (.inl (by decide)) .nil), by decide +kernel, ?_, ?_⟩
    · rintro (⟨l, h⟩ | ⟨l, b, n, h, _⟩)
      · rw [show List.map (fun (n : Nat) => (n : ℤ)) [0, 0] = [0, 0] from rfl, show ((0 : Nat) : ℤ) = 0 from rfl, e1] at h
        simp only [Out.ok.injEq] at h
        exact absurd h.2 (by decide +kernel)
      · rw [show List.map (fun (n : Nat) => (n : ℤ)) [0, 0] = [0, 0] from rfl, show ((0 : Nat) : ℤ) = 0 from rfl, e1] at h
        cases h
    · rintro (⟨l, h⟩ | ⟨l, b, n, h, _⟩)
      · rw [show List.map (fun (n : Nat) => (n : ℤ)) [2, 2] = [2, 2] from rfl, show ((0 : Nat) : ℤ) = 0 from rfl, e2] at h
        cases h
      · rw [show List.map (fun (n : Nat) => (n : ℤ)) [2, 2] = [2, 2] from rfl, show ((0 : Nat) : ℤ) = 0 from rfl, e2] at h
        cases h

/-- If the kernel uses both fields, Python refuses to call the compiled code (an `AttributeError`), at the first time step. -/
theorem C88_both_fails :
    Reach (mixed true true) false (snapshotFirst [exU, exV] (start (mixed true true))) ∧
    prepare (snapshotFirst [exU, exV] (start (mixed true true))) = none := by
  refine ⟨.first .start rfl, ?_⟩
  rw [← Option.isNone_iff_eq_none]
  decide +kernel

/-- The same with sizes of blocks that are at least those of the grid, so that both fields have one block. -/
theorem C88_one_block_fails :
    let fs := [([[4], [4]], true, true, exU), ([[4], [4]], false, true, exV)]
    Reach fs false (snapshotFirst [exU, exV] (start fs)) ∧ prepare (snapshotFirst [exU, exV] (start fs)) = none := by
  refine ⟨.first .start rfl, ?_⟩
  rw [← Option.isNone_iff_eq_none]
  decide +kernel

open Parcels.GridSet in
/-- A field opened without `chunksize` is put on an existing grid with the same coordinates, times and origin that has block
sizes, for every such grid: `add_field` makes the grids for which C88 fails. -/
theorem C88_joined_fails (g grid : Grid) (sizes : List Nat) (hg : g.chunk = .sizes sizes) (hn : grid.chunk = .no)
    (heq : g.lon = grid.lon ∧ g.lat = grid.lat ∧ g.depth = grid.depth ∧ g.time = grid.time ∧ g.origin = grid.origin) :
    addGrid [g] grid .no = some ([g], 0) := by
  have hc : ∀ c : Coord, sameCoord c c = true := by
    intro c
    unfold sameCoord allclose
    simp only [decide_true, Bool.true_and, List.all_eq_true, decide_eq_true_eq]
    intro p hp
    have := List.mem_iff_getElem.mp hp
    obtain ⟨n, hn, rfl⟩ := this
    rw [List.getElem_zip]
    simp only [sub_self, abs_zero]
    positivity
  obtain ⟨h1, h2, h3, h4, h5⟩ := heq
  unfold addGrid findGrid
  simp only [h1, h2, h3, h4, h5, hc, hg, hn, sameChunks]
  by_cases hid : g.ident = grid.ident <;> simp [hid]

open Parcels.GridSet in
example : addGrid [⟨0, ⟨[4], [0, 1, 2, 3]⟩, ⟨[4], [0, 1, 2, 3]⟩, ⟨[1], [0]⟩, ⟨[2], [0, 1]⟩, 0, false, .sizes [2, 2]⟩]
    ⟨1, ⟨[4], [0, 1, 2, 3]⟩, ⟨[4], [0, 1, 2, 3]⟩, ⟨[1], [0]⟩, ⟨[2], [0, 1]⟩, 0, false, .no⟩ .no =
    some ([⟨0, ⟨[4], [0, 1, 2, 3]⟩, ⟨[4], [0, 1, 2, 3]⟩, ⟨[1], [0]⟩, ⟨[2], [0, 1]⟩, 0, false, .sizes [2, 2]⟩], 0) :=
  C88_joined_fails _ _ [2, 2] rfl rfl ⟨rfl, rfl, rfl, rfl, rfl⟩

end Parcels.MixedChunks
