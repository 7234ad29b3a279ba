import Verif.Proofs.WriteRead

/-!
C70: a field that is written to a file and read back is the same field.
-/

namespace Parcels.Load
open Parcels.Search

/-- C70: a field with a rectilinear grid, or with a curvilinear grid that is not close to a rectilinear one (`C70_curvilinear_fails`), can be
written and read back, and it then has the same nodes, the same depths, the same dates and the same values. Times that are numbers, not
dates, are the same if the first is 0 (`C70_numeric_time_fails`). Partial: these two restrictions. -/
theorem C70_write_read_partial (date : ℚ) (g : Grid) (hv : Valid g) (d : ND ℚ) (hd : FieldData g d)
    (hc : g.curvilinear = true → rectilinear g.lon g.lat = false) :
    ∃ f g' d', writeField date g d = some f ∧ loadDirect readBack [f] = some (g', d') ∧ SameField date g d (origin [f]) g' d' ∧
      (date = 0 → g.time.headD 0 = 0 → g'.time = g.time) := by
  obtain ⟨dx, dy, dz, dt⟩ := hv.dims
  have hw : ∃ f, writeField date g d = some f := by
    unfold writeField ND.reshape
    rw [if_pos hd.prod_eq]
    exact ⟨_, rfl⟩
  obtain ⟨f, hf⟩ := hw
  have hwf := written_wf date g hv d f hf
  have hparts : f.depth = g.depth ∧ f.time = g.time.map (· + date) ∧ f.lon.shape = [g.ydim, g.xdim] ∧ f.lat.shape = [g.ydim, g.xdim] := by
    unfold writeField at hf
    rw [Option.map_eq_some_iff] at hf
    obtain ⟨a, _, rfl⟩ := hf
    exact ⟨rfl, rfl, rfl, rfl⟩
  obtain ⟨fd, ft, flon, flat⟩ := hparts
  have hla : readBack.latIdx f = List.range g.ydim := by
    unfold Request.latIdx readBack; rw [flat]; rfl
  have hli : readBack.lonIdx f = List.range g.xdim := by
    unfold Request.lonIdx readBack; rw [flon]; rfl
  have hdi : readBack.depthIdx f = List.range g.depth.length := by
    unfold Request.depthIdx readBack; rw [fd]; rfl
  have hsh : readBack.short f g.depth.length = false := by
    unfold Request.short readBack; simp
  have hpk : picked readBack f g.depth.length = List.range g.depth.length := by
    unfold picked; rw [hsh]; exact hdi
  have hi : InFile readBack f g.ydim g.xdim g.depth.length := by
    refine ⟨?_, ?_, ?_, ?_, ?_⟩
    · rw [← latIdx_eq hwf, hla]; simp
    · rw [← lonIdx_eq hwf, hli]; simp
    · rw [hpk]; simp
    · intro _ i h; rw [← depthIdx_eq, hdi] at h; rw [fd]; simpa using h
    · rw [hpk]; simpa using dz
  have hT : Increasing ([f].flatMap (·.time)) := by
    simp only [List.flatMap_cons, List.flatMap_nil, List.append_nil]
    rw [ft]
    unfold Increasing
    rw [List.pairwise_map]
    exact hv.times.imp (fun h => by linarith)
  have hall : ∀ f' ∈ [f], WellFormed .tzyx g.ydim g.xdim g.depth.length f' := by
    intro f' h'
    rw [List.mem_singleton] at h'
    rw [h']; exact hwf
  have hfl : Layout.hasDepth .tzyx = false → readBack.depthIdx f = [0] := by intro h; cases h
  have hz' : Layout.tzyx = Layout.zyx → 1 < (readBack.depthIdx f).length := by intro h; cases h
  obtain ⟨g', d', hload⟩ := loadDirect_ok .tzyx g.ydim g.xdim g.depth.length readBack f [f] rfl hall (by
    intro a ha b hb
    rw [List.mem_singleton] at ha hb
    rw [ha, hb]
    exact ⟨rfl, rfl, rfl⟩) dz hfl hz' hi hT (by rw [hsh]; intro h; cases h)
  refine ⟨f, g', d', hf, hload, ?_, ?_⟩
  swap
  · intro h0 h1
    unfold loadDirect at hload
    simp only [Option.bind_eq_bind, Option.bind_eq_some_iff] at hload
    obtain ⟨g1, hg1, d1, hd1, h3⟩ := hload
    cases h3
    have htm := (makeGrid_spec .tzyx g.ydim g.xdim g.depth.length readBack f [f] rfl hwf g' hg1).time
    have ho : origin [f] = 0 := by
      unfold origin
      simp only [List.flatMap_cons, List.flatMap_nil, List.append_nil]
      rw [ft, h0]
      simpa using h1
    rw [htm, ho]
    simp only [List.flatMap_cons, List.flatMap_nil, List.append_nil]
    rw [ft, h0]
    simp
  unfold loadDirect at hload
  simp only [Option.bind_eq_bind, Option.bind_eq_some_iff] at hload
  obtain ⟨g1, hg1, d1, hd1, h3⟩ := hload
  cases h3
  have hG := makeGrid_spec .tzyx g.ydim g.xdim g.depth.length readBack f [f] rfl hwf g' hg1
  unfold makeGrid at hg1
  simp only [Option.bind_eq_bind, List.head?_cons, Option.bind_some, Option.bind_eq_some_iff] at hg1
  obtain ⟨⟨lon, lat⟩, k1, dep, k2, ts, k3, k4⟩ := hg1
  cases k4
  have hLL := lonlat_written date g hv d f hf (by
    intro hcur
    rw [← hc hcur]
    rcases hv.shape with ⟨X, Y, s1, _⟩ | ⟨X, Y, s1, s2⟩
    · unfold Grid.curvilinear at hcur; rw [s1] at hcur; simp at hcur
    · have hX : g.xdim = X := by unfold Grid.xdim; rw [s1]; rfl
      have hY : g.ydim = Y := by unfold Grid.ydim; rw [hcur, s1]; rfl
      unfold rectilinear row col Grid.lonAt Grid.latAt
      rw [hcur, s1, s2, hX, hY]
      rfl) lon lat k1 dep ts
  simp only [] at hLL
  obtain ⟨c1, c2, c3, c4, c5⟩ := hLL
  have hdep : dep = g.depth := by
    unfold depths at k2
    rw [hdi] at k2
    simp only [readBack, if_true] at k2
    split at k2
    · cases k2
      rw [fd]
      apply List.ext_getElem (by simp)
      intro i h1 h2
      simp [List.getElem?_eq_getElem h2]
    · cases k2
  have htm := hG.time
  simp only [List.flatMap_cons, List.flatMap_nil, List.append_nil] at htm
  have hlen : (createGrid lon lat dep ts).time.length = g.time.length := by rw [htm, ft]; simp
  refine ⟨c1, c2, c3, ?_, fun y x hy hx => (c5 y x hy hx).1, fun y x hy hx => (c5 y x hy hx).2, ?_, ?_⟩
  · unfold createGrid; simp only []; split <;> exact hdep
  · rw [htm, ft, List.map_map]
    simp
  · intro t z y x ht hz hy hx
    unfold loadOn at hd1
    simp only [Option.bind_eq_bind, List.head?_cons, Option.bind_some, Option.bind_eq_some_iff] at hd1
    obtain ⟨parts, p1, d0, p2, p3⟩ := hd1
    have hp1 := mapM_forall₂ _ _ _ p1
    cases hp1 with
    | cons hb hnil =>
      cases hnil
      rename_i b
      obtain ⟨b1, _, _, b4⟩ := readAll_spec .tzyx g.ydim g.xdim g.depth.length readBack f f hwf dz rfl hfl hz' _ _ b hb
      rw [hpk, hla, hli, ft] at b1 b4
      simp only [List.length_range, List.length_map] at b1 b4
      obtain ⟨q1, q2, q3, dd, q4⟩ := concat_some p2
      have hb0 := q2 b (by simp)
      have hshape : d0.shape = [g.time.length, g.depth.length, g.ydim, g.xdim] := by
        rw [q3, q1]
        rw [b1] at hb0
        simp only [List.headD_cons, List.cons.injEq, true_and] at hb0
        rw [← hb0]
        simp [b1]
      rw [hlen] at p3
      rw [fieldReshape_value _ g.time.length g.depth.length readBack.pop d0 d' (by rw [c2, c3]; exact hshape) p3 t z y x ht hz (by rw [c3]; exact hy)
        (by rw [c2]; exact hx), c4, q4, locate, if_pos (by rw [b1]; exact ht), b4 t z y x ht hz hy hx]
      rw [rangeGet hz, rangeGet hy, rangeGet hx]
      exact written_value date g d f hf hd t z y x ht hz hy hx

/-! ### Non-trivial cases -/

/-- A rectilinear grid with 2 times, 2 depths, 2 rows and 3 columns, and data on it. -/
def wGrid (t0 : ℚ) : Grid := ⟨⟨[3], fun i => 10 + i.headD 0⟩, ⟨[2], fun i => 50 + i.headD 0⟩, [0, 5], [t0, t0 + 10], false⟩
def wData : ND ℚ := ⟨[2, 2, 2, 3], fun i => 1000 * i.getD 0 0 + 100 * i.getD 1 0 + 10 * i.getD 2 0 + i.getD 3 0⟩

example : Valid (wGrid 7) ∧ FieldData (wGrid 7) wData ∧ (wGrid 7).curvilinear = false := by
  refine ⟨⟨Or.inl ⟨3, 2, rfl, rfl, ?_⟩, ?_, ?_⟩, Or.inl rfl, rfl⟩
  · intro _; decide +kernel
  · decide
  · unfold Increasing; decide +kernel

/-- A curvilinear grid, and data with one depth. -/
def cGrid : Grid := ⟨⟨[2, 2], fun i => i.getD 0 0 + i.getD 1 0⟩, ⟨[2, 2], fun i => i.getD 0 0 - i.getD 1 0⟩, [0], [0, 1], false⟩
def cData : ND ℚ := ⟨[2, 2, 2], fun i => 100 * i.getD 0 0 + 10 * i.getD 1 0 + i.getD 2 0⟩

example : Valid cGrid ∧ FieldData cGrid cData ∧ rectilinear cGrid.lon cGrid.lat = false := by
  refine ⟨⟨Or.inr ⟨2, 2, rfl, rfl⟩, ?_, ?_⟩, Or.inr ⟨rfl, rfl⟩, ?_⟩
  · decide
  · unfold Increasing; decide +kernel
  · decide +kernel

/-! ### Where C70 fails -/

/-- C70 is false for times that are numbers and do not start at 0: a field with the times 10 and 20 (here `date = 0`, since the file has no units)
has the times 0 and 10 after it is read back, so at time 10 it has the value that belongs to 20. -/
theorem C70_numeric_time_fails :
    Valid (wGrid 10) ∧ FieldData (wGrid 10) wData ∧ (wGrid 10).time = [10, 20] ∧ nodeValue wData 0 1 1 2 = 112 ∧
    ((writeField 0 (wGrid 10) wData).bind fun f => (loadDirect readBack [f]).map fun p => (p.1.time, nodeValue p.2 1 1 1 2)) =
      some ([0, 10], 1112) := by
  refine ⟨⟨Or.inl ⟨3, 2, rfl, rfl, ?_⟩, ?_, ?_⟩, Or.inl rfl, ?_, ?_, ?_⟩
  · intro _; decide +kernel
  · decide
  · unfold Increasing; decide +kernel
  · decide +kernel
  · decide +kernel
  · decide +kernel

/-- A curvilinear grid with a spacing of 100 m. -/
def fGrid : Grid := ⟨⟨[2, 2], fun i => 180 + (i.getD 0 0 + i.getD 1 0) / 1000⟩, ⟨[2, 2], fun i => i.getD 0 0 / 1000⟩, [0], [0], false⟩
def fData : ND ℚ := ⟨[1, 2, 2], fun i => 10 * i.getD 1 0 + i.getD 2 0⟩

/-- C70 is false for fine curvilinear grids: they are taken for rectilinear grids, and the nodes are at other places. -/
theorem C70_curvilinear_fails :
    Valid fGrid ∧ FieldData fGrid fData ∧ fGrid.curvilinear = true ∧ fGrid.lonAt 1 0 = 180 + 1 / 1000 ∧
    ((writeField 0 fGrid fData).bind fun f => (loadDirect readBack [f]).map fun p => (p.1.curvilinear, p.1.lonAt 1 0)) = some (false, 180) := by
  refine ⟨⟨Or.inr ⟨2, 2, rfl, rfl⟩, ?_, ?_⟩, Or.inr ⟨rfl, rfl⟩, rfl, ?_, ?_⟩
  · decide
  · unfold Increasing; decide +kernel
  · decide +kernel
  · decide +kernel

/-! ### FieldSets -/

/-- C70 for a FieldSet whose fields are all scalar: there is one file for each, with its name, and nothing else. Partial: see
`C70_vector_fails`. -/
theorem C70_fieldset_partial (es : List (String × ℚ × Grid × ND ℚ)) (hd : ∀ e ∈ es, FieldData e.2.2.1 e.2.2.2) :
    ∃ fs, writeSet (es.map fun e => .field e.1 e.2.1 e.2.2.1 e.2.2.2) = some fs ∧
      List.Forall₂ (fun e f => f.1 = e.1 ∧ writeField e.2.1 e.2.2.1 e.2.2.2 = some f.2) es fs := by
  induction es with
  | nil => exact ⟨[], rfl, List.Forall₂.nil⟩
  | cons e es ih =>
    obtain ⟨fs, h1, h2⟩ := ih (fun e' h' => hd e' (List.mem_cons_of_mem _ h'))
    have hw : ∃ f, writeField e.2.1 e.2.2.1 e.2.2.2 = some f := by
      unfold writeField ND.reshape
      rw [if_pos (hd e List.mem_cons_self).prod_eq]
      exact ⟨_, rfl⟩
    obtain ⟨f, hf⟩ := hw
    refine ⟨(e.1, f) :: fs, ?_, List.Forall₂.cons ⟨rfl, hf⟩ h2⟩
    simp only [List.map_cons, writeSet, hf, h1, Option.bind_some, Option.map_some]

/-- C70 is false for every FieldSet with a field that is not scalar; and each FieldSet with U and V has one, the vector field UV, once
particles are made with it: `FieldSet.write` raises. -/
theorem C70_vector_fails (es es' : List Entry) (n : String) : writeSet (es ++ .other n :: es') = none := by
  induction es with
  | nil => rfl
  | cons e es ih =>
    cases e with
    | other m => rfl
    | field m date g d =>
      simp only [List.cons_append, writeSet, ih, Option.map_none]
      cases writeField date g d <;> rfl

example : ((writeSet [.field "U" 0 (wGrid 7) wData, .field "V" 0 (wGrid 7) wData]).map fun fs => fs.map (·.1)) = some ["U", "V"] := by
  decide +kernel

end Parcels.Load
