import Verif.Proofs.JitData

/-!
C107: compiled kernels see the data that the fields and grids have.
-/

namespace Parcels.JitData

variable {α : Type}

/-- C107. Whatever was called and changed before (with types and shapes kept), and however the arrays lie in memory (transposed, with gaps, backward): in a call of a compiled kernel, each item of
each field that the kernel uses, read in C, is the item of `field.data` at the time of the call. -/
theorem C107_fields_partial {array : Arr α → Arr α} (hA : IsArray array) {w0 w : World α} (h0 : Fresh w0) (hr : Reach array w0 w) (members gset used : List ℕ) (i : ℕ)
    (hu : i ∈ used) (hm : i ∈ members) (idx : List ℕ) (hi : InBounds idx (w.fields i).data.shape) :
    cField (prepare array members gset used w) i idx = some ((w.fields i).data.get idx) :=
  call_field hA h0 (reach_inv h0 hr) members gset used i hu hm idx hi

/-- C107. So are the coordinates of the grids of the FieldSet. -/
theorem C107_coords {array : Arr α → Arr α} {w0 w : World α} (h0 : Fresh w0) (hr : Reach array w0 w) (members gset used : List ℕ) (g : ℕ) (hg : g ∈ gset) (idx : List ℕ) :
    (InBounds idx (w.grids g).lon.shape → cCoord ((prepare array members gset used w).grids g).lon .f32 idx = some ((w.grids g).lon.get idx)) ∧
    (InBounds idx (w.grids g).lat.shape → cCoord ((prepare array members gset used w).grids g).lat .f32 idx = some ((w.grids g).lat.get idx)) ∧
    (InBounds idx (w.grids g).depth.shape → cCoord ((prepare array members gset used w).grids g).depth .f32 idx = some ((w.grids g).depth.get idx)) := by
  have h := reach_inv h0 hr
  have hc : ∀ (members : List ℕ) (w : World α), ((members.foldl (eachField array used) w).grids g).lon = (w.grids g).lon ∧
      ((members.foldl (eachField array used) w).grids g).lat = (w.grids g).lat ∧ ((members.foldl (eachField array used) w).grids g).depth = (w.grids g).depth := by
    intro members
    induction members with
    | nil => intro w; exact ⟨rfl, rfl, rfl⟩
    | cons j l ih =>
      intro w
      rw [List.foldl_cons, (ih _).1, (ih _).2.1, (ih _).2.2]
      exact eachField_coords used w j g
  obtain ⟨c1, c2, c3⟩ := hc members w
  obtain ⟨d1, d2, d3⟩ := h.coords g
  unfold prepare
  rw [struct_grids]
  refine ⟨fun hi => ?_, fun hi => ?_, fun hi => ?_⟩
  · exact grids_coord (fun q => q.lon) (fun w g => by simp [eachGrid]) d1 hi gset _ (Or.inl ⟨c1, hg⟩)
  · exact grids_coord (fun q => q.lat) (fun w g => by simp [eachGrid]) d2 hi gset _ (Or.inl ⟨c2, hg⟩)
  · exact grids_coord (fun q => q.depth) (fun w g => by simp [eachGrid]) d3 hi gset _ (Or.inl ⟨c3, hg⟩)

/-- C107. And so are the times, although their arrays are not put in order before the call: they are in order since the FieldSet was completed. -/
theorem C107_times {array : Arr α → Arr α} {w0 w : World α} (h0 : Fresh w0) (hr : Reach array w0 w) (members gset used : List ℕ) (g k : ℕ)
    (hk : InBounds [k] (w.grids g).time.shape) :
    cCoord ((prepare array members gset used w).grids g).time .f64 [k] = some ((w.grids g).time.get [k]) := by
  have h := reach_inv h0 hr
  have h' := prepare_inv (array := array) h0 h members gset used
  rw [h'.time g, h.time g]
  rw [h.time g] at hk
  obtain ⟨shift, q, n, s, e1, e2, e3, e4⟩ := h0.times g
  rw [e4] at hk ⊢
  refine time_read e1 e2 e3 ?_
  have hs : (complete shift q).time.shape = [n] := by
    unfold complete
    split
    · exact e2
    · exact e2
  rw [hs] at hk
  cases hk
  assumption

/-! ### Cases -/

/-- Numbers in memory: each number is its place. -/
def exMem : ℤ → ℤ := fun k => k

/-- `np.arange(6).reshape(3, 2).T[np.newaxis]`: two rows and three columns that lie column after column in memory. -/
def exT : Arr ℤ := ⟨.f32, exMem, 0, [1, 2, 3], [6, 1, 2]⟩

def exLine (n : ℕ) : Arr ℤ := ⟨.f32, exMem, 0, [n], [1]⟩

/-- Every second day, from an array of daily times. -/
def exDays : Arr ℤ := ⟨.f64, exMem, 0, [2], [2]⟩

def exGrd : Grd ℤ := complete id ⟨exLine 3, ⟨.f32, exMem, 1, [2], [-1]⟩, exLine 1, exDays, [], []⟩

/-- All fields on grid 0, all with these data. -/
def exW (a : Arr ℤ) : World ℤ := ⟨fun _ => ⟨a, 0, false, none⟩, fun _ => exGrd⟩

theorem exW_fresh : Fresh (exW exT) :=
  ⟨fun _ => ⟨rfl, by simp [exW, exT], rfl⟩, fun _ _ _ => rfl, fun _ => ⟨rfl, rfl, rfl⟩,
    fun _ => ⟨id, ⟨exLine 3, ⟨.f32, exMem, 1, [2], [-1]⟩, exLine 1, exDays, [], []⟩, 2, 2, rfl, rfl, rfl, rfl⟩⟩

theorem isArray_id : IsArray (id : Arr α → Arr α) := fun _ => ⟨rfl, rfl, fun _ _ => rfl⟩

theorem isArray_copy : IsArray (Arr.copy : Arr α → Arr α) := fun a => ⟨rfl, rfl, fun _ h => copy_get a h⟩

/-- The hypotheses of C107 can be met, and the arrays of the example do not lie in memory as C expects: the data are transposed, the latitudes go backward, the times have gaps. After a call the data are
replaced, and the next call sees the new ones. -/
example : Fresh (exW exT) ∧ IsArray (id : Arr ℤ → Arr ℤ) ∧ exT.contiguous = false ∧ exDays.contiguous = false ∧
    Reach id (exW exT) (step id (step id (exW exT) (.call [0, 1] [0] [0])) (.setData 0 ⟨.f32, fun k => 10 * k, 5, [1, 2, 3], [0, -3, -1]⟩)) ∧
    InBounds [0, 1, 2] exT.shape ∧
    cField (prepare id [0, 1] [0] [0] (exW exT)) 0 [0, 1, 0] = some 1 ∧ exT.get [0, 1, 0] = 1 ∧
    cField (prepare id [0, 1] [0] [0]
      (step id (step id (exW exT) (.call [0, 1] [0] [0])) (.setData 0 ⟨.f32, fun k => 10 * k, 5, [1, 2, 3], [0, -3, -1]⟩))) 0 [0, 1, 0] = some 20 ∧
    cCoord ((prepare id [0, 1] [0] [0] (exW exT)).grids 0).lat .f32 [1] = some 0 ∧
    cCoord ((prepare id [0, 1] [0] [0] (exW exT)).grids 0).time .f64 [1] = some 2 := by
  refine ⟨exW_fresh, isArray_id, rfl, rfl, ?_, ?_, by decide, by decide, by decide, by decide, by decide⟩
  · exact .next _ (.next _ .start trivial) ⟨rfl, rfl⟩
  · exact .cons (by decide) (.cons (by decide) (.cons (by decide) .nil))

/-- Without the copies C would read other numbers: the transposed data in the order in which they lie in memory, and the daily times. -/
example : exT.read .f32 (lin exT.shape [0, 1, 0]) = some 3 ∧ exT.get [0, 1, 0] = 1 ∧ cCoord exDays .f64 [1] = some 1 ∧ exDays.get [1] = 2 := by
  decide

/-- The data after `add_periodic_halo` with one column on each side: two rows and five columns. -/
def exWide : Arr ℤ := ⟨.f32, fun k => 100 + k, 0, [1, 2, 5], [10, 5, 1]⟩

/-- C107 is false if the shape of the data changes after the first call, as with `add_periodic_halo`: the sizes that C uses are those of the first call, because `chunk_setup` is called once per field.
Item `[0][1][0]` is then read at place 3 instead of place 5. -/
theorem C107_halo_fails : let w := step id (step id (exW exT) (.call [0] [0] [0])) (.setData 0 exWide)
    cField (prepare id [0] [0] [0] w) 0 [0, 1, 0] = some 103 ∧ (w.fields 0).data.get [0, 1, 0] = 105 ∧
    cField (prepare id [0] [0] [0] (exW exWide)) 0 [0, 1, 0] = some 105 := by
  decide

/-- C107 is false if numbers of 64 bits are assigned to `field.data`: C reads them as numbers of 32 bits. -/
theorem C107_double_fails : cField (prepare id [0] [0] [0] (step id (exW exT) (.setData 0 { exT with dtype := .f64 }))) 0 [0, 1, 0] = none := by
  decide

/-- C107 is false if a kernel is used with a particle set on another FieldSet: the fields of the kernel are not among those that are prepared. Before the first call there are no data at all; after a call
with its own FieldSet C reads the data of that call. -/
theorem C107_other_fails : cField (prepare id [1] [0] [0] (exW exT)) 0 [0, 1, 0] = none ∧
    (let w := step id (step id (exW exT) (.call [0] [0] [0])) (.setData 0 { exT with mem := fun k => 10 * k })
     cField (prepare id [1] [0] [0] w) 0 [0, 1, 0] = some 1 ∧ (w.fields 0).data.get [0, 1, 0] = 10) := by
  decide

end Parcels.JitData
