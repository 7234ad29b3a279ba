import Verif.Proofs.FromNetcdf

/-!
C71: a field of a FieldSet read from files is the one its variable gives alone; options given for a variable act on it and on no other.
-/

namespace Parcels.FromNetcdf
open Parcels.Converters

variable {C : Type}

/-- C71 for `FieldSet.from_netcdf`, whatever the files contain: every field is the one that the same call with its variable alone gives:
same coordinates, depths, mesh, times, unit converter, interpolation method, extrapolation, period, and the same file for each time.
Whether data are loaded later is the same too, if the series is not periodic.

Partial: `fieldtype` is not given (`C71_fieldtype_fails`); the files are lists, or are given for each variable and dimension with
dimensions that hold for all variables and the same times for variables that share their files of coordinates
(`C71_files_by_dim_fails`, `C71_coordinates_shared_fails`, `C71_times_shared_fails`). -/
theorem C71_same_partial (W : World C) (c : Call) (hc : c.ListsOfFiles ∨ c.FilesPerDim W) (hft : c.ftype = .none)
    (vars : List (String × String)) (hn : (vars.map Prod.fst).Nodup) (r : Result C) (h : fromNetcdf W c vars = some r)
    (var nc : String) (hv : (var, nc) ∈ vars) :
    ∃ s, fromNetcdf W c [(var, nc)] = some s ∧ r.view var = s.view var ∧ (r.view var).isSome = true ∧
      (c.periodic = none ∨ c.deferred = false → r.later var = s.later var) := by
  have hs : Safe W c := by
    rcases hc with hc | hc
    · exact (safe_lists hc).1
    · exact (safe_perDim hc).1
  have h' := h
  unfold fromNetcdf at h'
  rw [hft] at h'
  obtain ⟨hinv, fs, e1, e2⟩ := loopVars_inv hs (r := ⟨[], []⟩) (by intro f hf; simp at hf) h'
  simp only [List.nil_append] at e1
  rw [← e2] at hv
  obtain ⟨f, hf, e3⟩ := List.mem_map.mp hv
  injection e3 with e3 e4
  subst e3 e4
  obtain ⟨p, d, i, o, g, ts, app, hp, hd, hi, ho, hg, hgood⟩ := hinv f (by rw [e1]; exact hf)
  have hfind : r.fields.find? (fun x => decide (x.name = f.name)) = some f := by
    rw [e1]
    have hnd : (fs.map Fld.name).Nodup := by rw [← e2] at hn; simpa [List.map_map, Function.comp_def] using hn
    clear e1 e2 hinv hgood hg h h' hv
    induction fs with
    | nil => simp at hf
    | cons x rest ih =>
      simp only [List.map_cons, List.nodup_cons] at hnd
      rcases List.mem_cons.mp hf with rfl | hf
      · simp
      · have hx : ¬ x.name = f.name := fun hx => hnd.1 (hx ▸ List.mem_map_of_mem hf)
        rw [List.find?_cons_of_neg (by simpa using hx)]
        exact ih hf hnd.2
  obtain ⟨s, hs1, hs2, hs3⟩ := alone_of_good hft hp hd hi ho hgood
  have hview := hgood.view ho hfind hg
  refine ⟨s, hs1, by rw [hview, hs2], by rw [hview]; rfl, ?_⟩
  intro hh
  rw [hs3]
  unfold Result.later
  rw [hfind, Option.map_some, hgood.later hh]

/-- C71: if each variable works alone, all work together. Partial: as for `C71_same_partial`. -/
theorem C71_works_partial (W : World C) (c : Call) (hc : c.ListsOfFiles ∨ c.FilesPerDim W) (hft : c.ftype = .none)
    (vars : List (String × String)) (h : ∀ v ∈ vars, ∃ s, fromNetcdf W c [v] = some s) : ∃ r, fromNetcdf W c vars = some r := by
  have hs : Safe W c ∧ Scans W c := by
    rcases hc with hc | hc
    · exact safe_lists hc
    · exact safe_perDim hc
  unfold fromNetcdf
  rw [hft]
  exact loopVars_ok hs.1 hs.2 hft (by intro f hf; simp at hf) h

/-- C71, what is loaded: from a list of files with increasing times, any list of variables loads, and each field has the coordinates and
depths of the first file and the times of all files, each time with the file it is in. Together with `C71_same_partial`: whatever
the other variables are. Partial: one list of files, dimensions and indices for all variables, no period. -/
theorem C71_loads_partial (W : World C) (c : Call) (fs : List String) (f0 : String) (d : Dims) (i : Inds) (im : String) (xy : C) (z : Option C)
    (hf : c.files = .list fs) (h0 : fs.head? = some f0) (hd : c.dims = .all d) (ht : d.time.isSome = true) (hi : c.inds = .all i) (hft : c.ftype = .none)
    (hp : c.periodic = none) (hm : c.interp = .all im) (hxy : W.coords f0 d i = some xy)
    (hz : (d.depth = none ∧ z = none) ∨ (d.depth.isSome = true ∧ ∃ z', z = some z' ∧ W.depth f0 d i = some z'))
    (hne : fs.flatMap (fun f => W.times f d) ≠ []) (hinc : (fs.flatMap fun f => W.times f d).Pairwise (· < ·))
    (hmesh : (W.mesh f0).getD c.mesh = "flat" ∨ (W.mesh f0).getD c.mesh = "spherical")
    (vars : List (String × String)) (hn : (vars.map Prod.fst).Nodup) (hv : ∀ v ∈ vars, v.1 ∉ ["lon", "lat", "depth", "time"]) :
    ∃ r, fromNetcdf W c vars = some r ∧ ∀ var nc, (var, nc) ∈ vars → ∃ u, chooseUnit ((W.mesh f0).getD c.mesh) var = some u ∧
      r.view var = some { name := var, nc := nc, coords := xy, depth := z, mesh := (W.mesh f0).getD c.mesh, times := fs.flatMap (fun f => W.times f d), dims := d, inds := i, unit := u, extrap := c.extrap.getD false, periodic := none, interp := im, source := fs.flatMap (fun f => List.replicate (W.times f d).length f) } := by
  have one := fun var nc h => loads_one W c fs f0 d i im xy z hf h0 hd ht hi hft hp hm hxy hz hne hinc hmesh var nc h
  have hl : c.ListsOfFiles := Or.inl ⟨fs, hf⟩
  obtain ⟨r, hr⟩ := C71_works_partial W c (Or.inl hl) hft vars (by
    rintro ⟨var, nc⟩ h
    obtain ⟨s, _, hs, _⟩ := one var nc (hv _ h)
    exact ⟨s, hs⟩)
  refine ⟨r, hr, fun var nc h => ?_⟩
  obtain ⟨s, u, hs, hu, hview⟩ := one var nc (hv _ h)
  obtain ⟨s', hs', he, _⟩ := C71_same_partial W c (Or.inl hl) hft vars hn r hr var nc h
  rw [hs] at hs'
  injection hs' with hs'
  subst hs'
  exact ⟨u, hu, he.trans hview⟩

/-! ### Examples -/

/-- Files `a0`, `a1` have the times 0 and 10; `b0`, `b1` the times 5 and 15; coordinates and depths are the name of the file. -/
def exWorld : World String where
  coords f _ _ := some f
  depth f _ _ := some f
  times f _ := [if f = "a0" then 0 else if f = "a1" then 10 else if f = "b0" then 5 else if f = "b1" then 15 else 0]
  mesh _ := none

def exDims : Dims := ⟨"x", "y", none, some "t"⟩
def exCall : Call where
  files := .byVar [("U", .list ["a0", "a1"]), ("V", .list ["a0", "a1"]), ("P", .list ["b0", "b1"])]
  dims := .all exDims
  inds := .all ⟨none, none, none⟩
  ftype := .none
  mesh := "spherical"
  stamps := none
  extrap := none
  periodic := none
  deferred := true
  interp := .all "linear"

/-- Files with the times 0, 10 and 15. -/
example : let fs := ["a0", "a1", "b1"]
    fs.head? = some "a0" ∧ exDims.time.isSome = true ∧ exWorld.coords "a0" exDims ⟨none, none, none⟩ = some "a0" ∧
      fs.flatMap (fun f => exWorld.times f exDims) = [0, 10, 15] ∧ ([0, 10, 15] : List ℚ).Pairwise (· < ·) := by
  refine ⟨rfl, rfl, rfl, by decide +kernel, by decide +kernel⟩

def exVars : List (String × String) := [("U", "uo"), ("V", "vo"), ("P", "phy")]

/-- Three variables: U and V share a grid, P has its own. -/
example : exCall.ListsOfFiles ∧ (exVars.map Prod.fst).Nodup ∧
    ((fromNetcdf exWorld exCall exVars).map fun r => (r.grids.length, (r.view "V").map fun v => (v.times, v.source, v.unit))) =
      some (2, some ([0, 10], ["a0", "a1"], .geographic)) ∧
    ((fromNetcdf exWorld exCall exVars).bind fun r => (r.view "P").map fun v => (v.times, v.source, v.unit)) =
      some ([5, 15], ["b0", "b1"], .none) := by
  refine ⟨Or.inr ⟨_, rfl, ?_⟩, by decide, by decide +kernel, by decide +kernel⟩
  intro v p h
  simp only [List.lookup] at h
  split at h
  · injection h with h; exact ⟨_, h.symm⟩
  · split at h
    · injection h with h; exact ⟨_, h.symm⟩
    · split at h
      · injection h with h; exact ⟨_, h.symm⟩
      · simp at h

/-- C71: `fieldtype={'U': 'U', 'V': 'V'}` (what is the default anyway) gives V the unit converter of U, which divides by the cosine of the
latitude: the loop overwrites its argument. -/
theorem C71_fieldtype_fails :
    let c := { exCall with ftype := .dict [("U", some "U"), ("V", some "V")] }
    ((fromNetcdf exWorld c [("U", "uo"), ("V", "vo")]).bind fun r => (r.view "V").map (·.unit)) = some .geographicPolar ∧
    ((fromNetcdf exWorld c [("V", "vo")]).bind fun r => (r.view "V").map (·.unit)) = some .geographic := by
  refine ⟨?_, ?_⟩ <;> decide +kernel

/-- C71: a dictionary `fieldtype` with an entry for V only is an error on a spherical mesh if another variable comes before V. -/
theorem C71_fieldtype_missing_fails :
    let c := { exCall with ftype := .dict [("V", some "V")] }
    (fromNetcdf exWorld c [("P", "phy"), ("V", "vo")]).isNone = true ∧ (fromNetcdf exWorld c [("V", "vo")]).isSome = true ∧
    (fromNetcdf exWorld exCall [("P", "phy"), ("V", "vo")]).isSome = true := by
  refine ⟨?_, ?_, ?_⟩ <;> decide +kernel

/-- C71: files given per dimension for all variables (`{dim: [files]}`, as documented) work for any one variable, not for two. -/
theorem C71_files_by_dim_fails :
    let c := { exCall with files := .byDim ⟨some ["m"], some ["m"], none, some ["a0", "a1"]⟩ }
    (fromNetcdf exWorld c [("U", "uo")]).isSome = true ∧ (fromNetcdf exWorld c [("V", "vo")]).isSome = true ∧
    (fromNetcdf exWorld c [("U", "uo"), ("V", "vo")]).isNone = true := by
  refine ⟨?_, ?_, ?_⟩ <;> decide +kernel

/-- Coordinates in a file of their own for each variable. -/
def perDim (mask : String) (data : List String) : Paths := .dims ⟨some [mask], some [mask], none, some data⟩

/-- C71: files per variable and dimension, and dimensions per variable (the same for both): V gets the coordinates of U, although its
own are in another file. -/
theorem C71_coordinates_shared_fails :
    let c := { exCall with files := .byVar [("U", perDim "umask" ["a0", "a1"]), ("V", perDim "vmask" ["a0", "a1"])],
                           dims := .each [("U", exDims), ("V", exDims)] }
    ((fromNetcdf exWorld c [("U", "uo"), ("V", "vo")]).bind fun r => (r.view "V").map (·.coords)) = some "umask" ∧
    ((fromNetcdf exWorld c [("V", "vo")]).bind fun r => (r.view "V").map (·.coords)) = some "vmask" := by
  refine ⟨?_, ?_⟩ <;> decide +kernel

/-- C71: files per variable and dimension; P has the same file of coordinates as U, but other times. It gets the times of U. -/
theorem C71_times_shared_fails :
    let c := { exCall with files := .byVar [("U", perDim "mask" ["a0", "a1"]), ("P", perDim "mask" ["b0", "b1"])] }
    ((fromNetcdf exWorld c [("U", "uo"), ("P", "phy")]).bind fun r => (r.view "P").map fun v => (v.times, v.source)) =
      some ([0, 10], ["b0", "b1"]) ∧
    ((fromNetcdf exWorld c [("P", "phy")]).bind fun r => (r.view "P").map fun v => (v.times, v.source)) =
      some ([5, 15], ["b0", "b1"]) := by
  refine ⟨?_, ?_⟩ <;> decide +kernel

/-- C71: two snapshots and a longer period: U is loaded at once and extends the time axis of the grid, so that V, which shares it, is
deferred; alone it is not. -/
theorem C71_deferred_fails :
    let c := { exCall with periodic := some 20 }
    ((fromNetcdf exWorld c [("U", "uo"), ("V", "vo")]).map fun r => (r.later "U", r.later "V")) = some (some false, some true) ∧
    ((fromNetcdf exWorld c [("V", "vo")]).map fun r => r.later "V") = some (some false) := by
  refine ⟨?_, ?_⟩ <;> decide +kernel

/-- The hypotheses of `C71_same_partial` with files per variable and dimension. -/
example : ({ exCall with files := .byVar [("U", perDim "mask" ["a0", "a1"]), ("V", perDim "mask" ["a0", "a1"])] } : Call).FilesPerDim exWorld := by
  refine ⟨_, exDims, rfl, rfl, ?_, ?_⟩
  · intro v p h
    simp only [List.lookup, perDim] at h
    split at h
    · injection h with h; exact ⟨_, h.symm⟩
    · split at h
      · injection h with h; exact ⟨_, h.symm⟩
      · simp at h
  · intro v w x y l k hx hy hl hk _ _ _
    have : ∀ (v : String) (x : DimPaths) (l : List String),
        List.lookup v [("U", perDim "mask" ["a0", "a1"]), ("V", perDim "mask" ["a0", "a1"])] = some (.dims x) → x.data = some l →
        l = ["a0", "a1"] := by
      intro v x l hx hl
      simp only [List.lookup, perDim] at hx
      split at hx
      · simp only [Option.some.injEq, Paths.dims.injEq] at hx
        subst hx
        simpa using hl.symm
      · split at hx
        · simp only [Option.some.injEq, Paths.dims.injEq] at hx
          subst hx
          simpa using hl.symm
        · simp at hx
    rw [this v x l hx hl, this w y k hy hk]

/-! ### FieldSet.from_data -/

/-- C71 for `FieldSet.from_data` and the extrapolation in time: if `allow_time_extrapolation` is given, or all or none of the variables have
times, every field has the flag it has alone. Partial: `C71_from_data_fails`. -/
theorem C71_from_data_partial (e : Option Bool) (vars : List (String × Bool))
    (h : e.isSome = true ∨ ∃ b, ∀ v ∈ vars, v.2 = b) : dataFlags e vars = vars.flatMap fun v => dataFlags e [v] := by
  induction vars generalizing e with
  | nil => rfl
  | cons v rest ih =>
    obtain ⟨name, b⟩ := v
    simp only [dataFlags, List.flatMap_cons, List.singleton_append, List.cons.injEq, true_and]
    rw [ih (some (e.getD !b)) (Or.inl rfl)]
    apply List.flatMap_congr
    intro w hw
    obtain ⟨name', b'⟩ := w
    simp only [dataFlags, Option.getD_some, List.cons.injEq, Prod.mk.injEq, true_and, and_true]
    rcases h with h | ⟨b0, h⟩
    · cases e with
      | none => simp at h
      | some e => rfl
    · have h1 := h _ (List.mem_cons_self ..)
      have h2 := h _ (List.mem_cons_of_mem _ hw)
      simp only at h1 h2
      rw [h1, h2]

example : dataFlags none [("U", true), ("V", true)] = [("U", false), ("V", false)] := by decide

/-- C71: a variable without times before U and V makes U and V extrapolate in time, which they do not do alone. -/
theorem C71_from_data_fails :
    dataFlags none [("P", false), ("U", true), ("V", true)] = [("P", true), ("U", true), ("V", true)] ∧
    dataFlags none [("U", true)] = [("U", false)] := by decide

end Parcels.FromNetcdf
