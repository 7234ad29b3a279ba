import Verif.Proofs.XArray

/-!
C122: fields made from an xarray dataset.
-/

namespace Parcels.XArray
open Parcels.Load Parcels.Converters Parcels.FromNetcdf

/-! ### An example: a 2 x 3 sea with three records in days, from north to south -/

/-- Days since some date, in nanoseconds. -/
def days (t : ℚ) : ℚ := 86400000000000 * t + 1000000000

def exLonC : Coord := ⟨["i"], ⟨[3], fun i => 10 + i.headD 0⟩, .number, true, none⟩
def exLatC : Coord := ⟨["j"], ⟨[2], fun i => 5 - i.headD 0⟩, .number, true, none⟩
def exTimeC : Coord := ⟨["n"], ⟨[3], fun i => 2 * i.headD 0⟩, .number, false, some days⟩
def exU : DArray := ⟨["n", "j", "i"], ⟨[3, 2, 3], fun i => 100 * i.getD 0 0 + 10 * i.getD 1 0 + i.getD 2 0⟩⟩
def exP : DArray := ⟨["j", "i"], ⟨[2, 3], fun i => 10 * i.getD 0 0 + i.getD 1 0⟩⟩
def exDS : DS := ⟨fun m => [("x", exLonC), ("y", exLatC), ("day", exTimeC)].lookup m, fun m => [("uo", exU), ("press", exP)].lookup m⟩
def exKw : Kw := ⟨"spherical", none, none, .none, .all "linear", false, false⟩
def exDimsU : List (String × String) := [("lon", "x"), ("lat", "y"), ("time", "day")]
def exDimsP : List (String × String) := [("lon", "x"), ("lat", "y")]
def exArg : DimArg := exDimsU.map fun p => (p.1, .one p.2)
def exEach : DimArg := [("U", .dict exDimsU), ("P", .dict exDimsP)]
def exSize : String → Nat := fun m => ([("n", 3), ("k", 1), ("j", 2), ("i", 3)].lookup m).getD 0

theorem exU_ordered : Ordered exDS exDimsU exU false .tyx "n" "k" "j" "i" exSize where
  distinct := by decide
  dims := rfl
  shape := by decide +kernel
  lonlat := ⟨"x", "y", exLonC, exLatC, by decide +kernel, by decide +kernel, rfl, rfl, by decide +kernel, by decide +kernel, Or.inl ⟨rfl, rfl⟩⟩
  depth := by
    have e : exDimsU.lookup "depth" = none := by decide +kernel
    rw [e]
    intro q
    cases q
  time := by
    have e : exDimsU.lookup "time" = some "day" := by decide +kernel
    rw [e]
    exact ⟨rfl, by decide +kernel, exTimeC, rfl, rfl, by decide +kernel⟩

theorem exU_decoded : Decoded exDS exArg exDimsU := by
  refine Or.inr ⟨"day", rfl, by decide +kernel, ?_⟩
  intro k hk e
  unfold exDimsU at e
  simp only [List.lookup] at e
  split at e
  · exact absurd e (by decide)
  · split at e
    · exact absurd e (by decide)
    · split at e
      · rename_i q
        exact hk (by simpa using q)
      · cases e

/-! ### Values -/

/-- C122: if `FieldSet.from_xarray_dataset` succeeds, the i-th field is that of the i-th variable: at every time, depth and node of its grid it has
the value the data variable has at a position (by the names of the dimensions) where the dataset has the time, depth, latitude and longitude of the
node; also if latitudes run from north to south, and for curvilinear grids. The grid has as many nodes as the data. Partial: the dimensions of the
data variable are in the order time, depth, lat, lon (`C122_order_fails`); the time coordinate has `units`, or the dimensions are given for all
variables together (`C122_units_fails`). -/
theorem C122_values_partial (ds ds' : DS) (vars : List (String × String)) (a : DimArg) (k : Kw) (fs : List XField)
    (h : fromDataset ds vars a k = some (ds', fs)) (i : Nat) (var name : String) (hi : vars[i]? = some (var, name))
    (d : List (String × String)) (hd : Given a var d) (da : DArray) (hda : ds.vars name = some da)
    (l : Layout) (tN zN yN xN : String) (size : String → Nat) (ho : Ordered ds d da k.transpose l tN zN yN xN size) (hu : Decoded ds a d) :
    ∃ f, fs[i]? = some f ∧ f.name = var ∧ f.grid.xdim = size xN ∧ f.grid.ydim = size yN ∧
      f.grid.time.length = (if hasTime l then size tN else 1) ∧ f.grid.depth.length = (if l.hasDepth then size zN else 1) ∧
      ∀ t z y x, t < f.grid.time.length → z < f.grid.depth.length → y < f.grid.ydim → x < f.grid.xdim →
        ∃ sel, Matches ds d da f t z y x sel := by
  unfold fromDataset at h
  rw [Option.map_eq_some_iff] at h
  obtain ⟨fs', hl, h⟩ := h
  injection h with h1 h2
  subst h2
  obtain ⟨hlen, hm⟩ := loop_mem hl
  have hlt : i < fs'.length := by
    rw [hlen]
    exact (List.getElem?_eq_some_iff.1 hi).1
  have hf : fs'[i]? = some fs'[i] := List.getElem?_eq_getElem hlt
  generalize fs'[i] = f at hf
  refine ⟨f, hf, ?_⟩
  obtain ⟨d', da', g1, g2, g3⟩ := hm i (var, name) f hi hf
  rw [dimsFor_given hd] at g1
  injection g1 with g1
  subst g1
  rw [fixUnit_vars, hda] at g2
  injection g2 with g2
  subst g2
  simp only [] at g3
  have hui : ∃ u im, unitOf k.mesh k.ftype var = some u ∧ interpOf k.interp var = some im := by
    have q := g3
    unfold fieldOf at q
    simp only [Option.bind_eq_some_iff] at q
    obtain ⟨_, _, _, _, _, _, _, _, _, _, _, _, u, hu, im, him, _⟩ := q
    exact ⟨u, im, hu, him⟩
  obtain ⟨u, im, hu1, hu2⟩ := hui
  obtain ⟨f', w1, w2, -, -, -, -, w3, w4, w5, w6, w7, w8, w9⟩ := (ho.fixed a).field rfl hu1 hu2
  rw [g3] at w1
  injection w1 with w1
  subst w1
  refine ⟨w2, w3, w4, ?_, ?_, ?_⟩
  · cases e : hasTime l
    · exact w6 e
    · exact w5 e
  · cases e : l.hasDepth
    · exact w8 e
    · exact w7 e
  intro t z y x ht hz hy hx
  obtain ⟨sel, v1, v2, v3, v4, v5, v6⟩ := w9 t z y x ht hz hy hx
  -- the coordinates other than time are as in the dataset
  have keep : ∀ kk n c, kk ≠ "time" → d.lookup kk = some n → ds.coords n = some c → (fixUnit ds a).coords n = some c := by
    intro kk n c hk hn hc
    rcases fixUnit_coord ds a n c hc with ⟨q, -⟩ | ⟨q1, q2, dec, q3, q4⟩
    · exact q
    · rcases hu with hu | ⟨m, m1, m2, m3⟩
      · rcases hu n c hc with q | q
        · rw [q] at q2; cases q2
        · rw [q] at q3; cases q3
      · rw [q1] at m1
        injection m1 with m1
        injection m1 with m1
        subst m1
        exact absurd hn (m3 kk hk)
  refine ⟨sel, v1, ?_, ?_, ?_, ?_, v6⟩
  · obtain ⟨ln, la, clon, clat, l1, l2, l3, l4, -⟩ := ho.lonlat
    obtain ⟨n, c, q1, q2, q3⟩ := v2
    rw [l1] at q1
    injection q1 with q1
    subst q1
    rw [keep "lon" _ _ (by decide) l1 l3] at q2
    injection q2 with q2
    subst q2
    exact ⟨_, _, l1, l3, q3⟩
  · obtain ⟨ln, la, clon, clat, l1, l2, l3, l4, -⟩ := ho.lonlat
    obtain ⟨n, c, q1, q2, q3⟩ := v3
    rw [l2] at q1
    injection q1 with q1
    subst q1
    rw [keep "lat" _ _ (by decide) l2 l4] at q2
    injection q2 with q2
    subst q2
    exact ⟨_, _, l2, l4, q3⟩
  · intro n c hn hc
    exact v4 n c hn (keep "depth" n c (by decide) hn hc)
  · intro n c hn hc
    rcases fixUnit_coord ds a n c hc with ⟨q, qu⟩ | ⟨q1, q2, dec, q3, q4⟩
    · have hp : c.units = true ∨ c.unit = none := by
        rcases hu with hu | ⟨m, m1, m2, m3⟩
        · exact hu n c hc
        · rw [hn] at m2
          injection m2 with m2
          subst m2
          exact qu m1
      obtain ⟨p1, p2⟩ := plain_means hp
      obtain ⟨r1, r2⟩ := v5 n c hn q
      rw [p1, p2]
      exact ⟨r1, r2⟩
    · obtain ⟨r1, r2⟩ := v5 n _ hn q4
      have e1 : c.means = .np := by
        unfold Coord.means
        rw [q2, q3]
        rfl
      have e2 : ∀ v, c.seconds v = dec v / ticks .np := by
        intro v
        unfold Coord.seconds
        rw [q3, q2]
        rfl
      rw [e1, e2]
      exact ⟨r1, r2⟩

/-- C122: such a call succeeds for every dataset and all variables whose dimensions are in that order, with a known mesh and a field type that is
not a dictionary (`C122_fieldtype_fails`). -/
theorem C122_makes_partial (ds : DS) (vars : List (String × String)) (a : DimArg) (k : Kw) (im : String)
    (hm : k.mesh = "flat" ∨ k.mesh = "spherical") (hft : ∀ m, k.ftype ≠ .dict m) (him : k.interp = .all im)
    (hv : ∀ vn ∈ vars, ∃ d da, Given a vn.1 d ∧ ds.vars vn.2 = some da ∧
      ∃ l tN zN yN xN size, Ordered ds d da k.transpose l tN zN yN xN size) :
    ∃ ds' fs, fromDataset ds vars a k = some (ds', fs) ∧ fs.length = vars.length := by
  obtain ⟨fs, hfs⟩ := loop_total (ds := fixUnit ds a) (a := a) (k := k) (vars := vars) (by
    intro vn hvn
    obtain ⟨d, da, g1, g2, l, tN, zN, yN, xN, size, ho⟩ := hv vn hvn
    have hu : ∃ u, unitOf k.mesh k.ftype vn.1 = some u := by
      have ch : ∀ s, ∃ u, chooseUnit k.mesh s = some u := by
        intro s
        unfold chooseUnit
        simp only []
        split
        · exact ⟨_, rfl⟩
        · rename_i q
          rw [not_or] at q
          have e : k.mesh = "spherical" := hm.resolve_left q.1
          rw [if_pos e]
          exact Option.ne_none_iff_exists'.1 (by
            intro w
            rw [w] at q
            exact q.2 rfl)
      unfold unitOf
      cases e : k.ftype with
      | none => exact ch _
      | str s => exact ch _
      | dict m => exact absurd e (hft m)
    obtain ⟨u, hu⟩ := hu
    obtain ⟨f, hf, -⟩ := (ho.fixed a).field (var := vn.1) (k := k) (im := im) rfl hu (by rw [him]; rfl)
    exact ⟨d, da, f, dimsFor_given g1, by rw [fixUnit_vars]; exact g2, hf⟩)
  refine ⟨fixUnit ds a, fs, ?_, (loop_mem hfs).1⟩
  unfold fromDataset
  rw [hfs]
  rfl

/-- C122: the settings of the fields. The unit of a field is that of its name; the given flag for extrapolation is used; if none is given,
fields without time dimension extrapolate, and fields with several times do not. Partial: with one time only the field does extrapolate,
although it has a time dimension (`C122_extrapolation_fails`). -/
theorem C122_settings_partial (ds ds' : DS) (vars : List (String × String)) (a : DimArg) (k : Kw) (fs : List XField)
    (h : fromDataset ds vars a k = some (ds', fs)) (i : Nat) (var name : String) (hi : vars[i]? = some (var, name))
    (d : List (String × String)) (hd : Given a var d) :
    ∃ f, fs[i]? = some f ∧ (k.ftype = .none → chooseUnit k.mesh var = some f.unit) ∧
      (∀ e, k.extrap = some e → f.extrap = e) ∧
      (k.extrap = none → d.lookup "time" = none → f.extrap = true) ∧
      (k.extrap = none → 2 ≤ f.grid.time.length → f.extrap = false) := by
  unfold fromDataset at h
  rw [Option.map_eq_some_iff] at h
  obtain ⟨fs', hl, h⟩ := h
  injection h with h1 h2
  subst h2
  obtain ⟨hlen, hm⟩ := loop_mem hl
  have hlt : i < fs'.length := by
    rw [hlen]
    exact (List.getElem?_eq_some_iff.1 hi).1
  have hf : fs'[i]? = some fs'[i] := List.getElem?_eq_getElem hlt
  generalize fs'[i] = f at hf
  refine ⟨f, hf, ?_⟩
  obtain ⟨d', da', g1, g2, g3⟩ := hm i (var, name) f hi hf
  rw [dimsFor_given hd] at g1
  injection g1 with g1
  subst g1
  unfold fieldOf at g3
  simp only [Option.bind_eq_some_iff] at g3
  obtain ⟨t, ht, z, _, x, _, y, _, o, _, _, _, u, hu, im, _, b, _, g3⟩ := g3
  injection g3 with g3
  subst g3
  have e5 : (createGrid x y z (t.2.map (reltime t.1 o))).time.length = t.2.length := by
    unfold createGrid
    simp only []
    split <;> simp
  refine ⟨fun q => (by rw [q] at hu; exact hu), fun e q => (by simp only [q]; rfl), fun q q2 => ?_, fun q q2 => ?_⟩
  · unfold timeOf at ht
    rw [q2] at ht
    injection ht with ht
    subst ht
    simp [q]
  · simp only [] at q2 ⊢
    rw [e5] at q2
    rw [q]
    simp
    omega

/-- C122: a field does not depend on the other variables: it is the one the call with its variable alone makes. -/
theorem C122_alone (ds ds' : DS) (vars : List (String × String)) (a : DimArg) (k : Kw) (fs : List XField)
    (h : fromDataset ds vars a k = some (ds', fs)) (i : Nat) (vn : String × String) (f : XField) (hi : vars[i]? = some vn) (hf : fs[i]? = some f) :
    fromDataset ds [vn] a k = some (ds', [f]) := by
  unfold fromDataset at h ⊢
  rw [Option.map_eq_some_iff] at h
  obtain ⟨fs', hl, h⟩ := h
  injection h with h1 h2
  subst h1 h2
  obtain ⟨d, da, g1, g2, g3⟩ := (loop_mem hl).2 i vn f hi hf
  obtain ⟨var, name⟩ := vn
  simp only [loop]
  rw [g1, g2]
  simp only [Option.bind_some]
  rw [g3]
  rfl

/-- C122: the call leaves the dataset as it is: the data variables, all coordinates but the one given as time, and that one if its attribute
`units` is there or no attribute `Unit`. Partial: otherwise it is replaced in the dataset of the caller (`C122_dataset_fails`). -/
theorem C122_dataset_partial (ds ds' : DS) (vars : List (String × String)) (a : DimArg) (k : Kw) (fs : List XField)
    (h : fromDataset ds vars a k = some (ds', fs)) :
    ds'.vars = ds.vars ∧ ∀ n c, ds.coords n = some c → (a.lookup "time" ≠ some (.one n) ∨ c.units = true ∨ c.unit = none) → ds'.coords n = some c := by
  unfold fromDataset at h
  rw [Option.map_eq_some_iff] at h
  obtain ⟨fs', hl, h⟩ := h
  injection h with h1 h2
  subst h1
  refine ⟨fixUnit_vars ds a, ?_⟩
  intro n c hc ho
  rcases fixUnit_coord ds a n c hc with ⟨q, -⟩ | ⟨q1, q2, dec, q3, -⟩
  · exact q
  · rcases ho with ho | ho | ho
    · exact absurd q1 ho
    · rw [ho] at q2; cases q2
    · rw [ho] at q3; cases q3

/-! ### The example -/

/-- The hypotheses hold for the example, and its field: the rows run from south to north, times are two days apart, from the decoded first date. -/
example : Given exArg "U" exDimsU ∧ exDS.vars "uo" = some exU ∧ Ordered exDS exDimsU exU exKw.transpose .tyx "n" "k" "j" "i" exSize ∧
    Decoded exDS exArg exDimsU ∧
    (match fromDataset exDS [("U", "uo")] exArg exKw with
     | some (_, [f]) => decide (f.grid.time = [0, 172800, 345600]) && decide (f.origin = 1000000000) && decide (f.grid.latAt 0 1 = 4) &&
        decide (nodeValue f.data 2 0 0 1 = 211) && decide (f.extrap = false)
     | _ => false) = true :=
  ⟨⟨by decide +kernel, Or.inr ⟨by rfl, rfl⟩⟩, rfl, exU_ordered, exU_decoded, by decide +kernel⟩

/-- Dimensions for each variable: two fields. -/
example : (match fromDataset exDS [("U", "uo"), ("P", "press")] exEach exKw with
     | some (_, [f, g]) => decide (g.name = "P") && decide (nodeValue g.data 0 0 0 1 = 11) && decide (g.extrap = true) && decide (f.extrap = false)
     | _ => false) = true := by decide +kernel

/-! ### Where C122 fails -/

/-- C122 is false if the dimensions of a data variable have another order: `da.data` is used without regard to their names. Here the variable
has the dimensions (i, j), longitude first, and both have length 2: the field is mirrored, without an error. At longitude 10, latitude 5 the
dataset has 1, the field 10. -/
theorem C122_order_fails :
    let lon : Coord := ⟨["i"], ⟨[2], fun i => 10 + i.headD 0⟩, .number, true, none⟩
    let lat : Coord := ⟨["j"], ⟨[2], fun i => 4 + i.headD 0⟩, .number, true, none⟩
    let da : DArray := ⟨["i", "j"], ⟨[2, 2], fun i => 10 * i.getD 0 0 + i.getD 1 0⟩⟩
    let ds : DS := ⟨fun m => [("x", lon), ("y", lat)].lookup m, fun m => [("p", da)].lookup m⟩
    let sel : String → Nat := fun n => if n = "j" then 1 else 0
    pick lon.dims lon.vals sel = 10 ∧ pick lat.dims lat.vals sel = 5 ∧ pick da.dims da.data sel = 1 ∧
    (match fromDataset ds [("P", "p")] [("lon", .one "x"), ("lat", .one "y")] exKw with
     | some (_, [f]) => decide (f.grid.lonAt 1 0 = 10) && decide (f.grid.latAt 1 0 = 5) && decide (nodeValue f.data 0 0 1 0 = 10)
     | _ => false) = true := by
  decide +kernel

/-- C122 is false for a time coordinate whose attribute is called `Unit`, when dimensions are given for each variable: the numbers are not decoded
(days are taken for seconds). The same variable of the same dataset has the times 0, 2 and 4 seconds, and 0, 2 and 4 days when the dimensions
are given for all variables. -/
theorem C122_units_fails :
    (match fromDataset exDS [("U", "uo")] exEach exKw, fromDataset exDS [("U", "uo")] exArg exKw with
     | some (_, [f]), some (_, [g]) => decide (f.grid.time = [0, 2, 4]) && decide (f.cal = .number) && decide (g.grid.time = [0, 172800, 345600]) &&
        decide (g.cal = .np)
     | _, _ => false) = true := by
  decide +kernel

/-- C122 is false for `time_periodic`: no call depends on it. -/
theorem C122_periodic_fails (ds : DS) (vars : List (String × String)) (a : DimArg) (k : Kw) (P : Option ℚ) :
    fromDataset ds vars a { k with periodic := P } = fromDataset ds vars a k := by
  have e : ∀ ds vs, loop ds a { k with periodic := P } vs = loop ds a k vs := by
    intro ds vs
    induction vs with
    | nil => rfl
    | cons p rest ih =>
      obtain ⟨var, name⟩ := p
      simp only [loop, ih]
      rfl
  unfold fromDataset
  rw [e]

/-- C122 is false for the documented default of `allow_time_extrapolation` ("False if dimensions includes time"): with one record the field
extrapolates. -/
theorem C122_extrapolation_fails :
    let time : Coord := ⟨["n"], ⟨[1], fun _ => 7⟩, .number, true, none⟩
    let da : DArray := ⟨["n", "j", "i"], ⟨[1, 2, 3], fun _ => 0⟩⟩
    let ds : DS := ⟨fun m => [("x", exLonC), ("y", exLatC), ("t", time)].lookup m, fun m => [("p", da)].lookup m⟩
    (match fromDataset ds [("P", "p")] [("lon", .one "x"), ("lat", .one "y"), ("time", .one "t")] exKw with
     | some (_, [f]) => f.extrap
     | _ => false) = true := by
  decide +kernel

/-- C122 is false for the documented argument `fieldtype` ("dictionary mapping fields to fieldtypes"): on a spherical mesh every call with a
dictionary raises an error. -/
theorem C122_fieldtype_fails (ds : DS) (vn : String × String) (vars : List (String × String)) (a : DimArg) (k : Kw) (m : List (String × Option String))
    (hm : k.mesh = "spherical") (hft : k.ftype = .dict m) : fromDataset ds (vn :: vars) a k = none := by
  cases e : fromDataset ds (vn :: vars) a k with
  | none => rfl
  | some r =>
    exfalso
    unfold fromDataset at e
    rw [Option.map_eq_some_iff] at e
    obtain ⟨fs, hl, -⟩ := e
    obtain ⟨var, name⟩ := vn
    simp only [loop, Option.bind_eq_some_iff] at hl
    obtain ⟨d, -, da, -, f, hf, -⟩ := hl
    unfold fieldOf at hf
    simp only [Option.bind_eq_some_iff] at hf
    obtain ⟨_, _, _, _, _, _, _, _, _, _, _, _, u, hu, _⟩ := hf
    rw [hm, hft] at hu
    unfold unitOf at hu
    simp at hu

/-- C122 is false for the dataset of the caller, if the attribute of its time coordinate is called `Unit`: the coordinate is replaced. -/
theorem C122_dataset_fails :
    (match fromDataset exDS [("U", "uo")] exArg exKw with
     | some (ds', _) => decide ((exDS.coords "day").map (fun c => c.vals.get [1]) = some 2) &&
        decide ((ds'.coords "day").map (fun c => c.vals.get [1]) = some 172801000000000)
     | _ => false) = true := by
  decide +kernel

end Parcels.XArray
