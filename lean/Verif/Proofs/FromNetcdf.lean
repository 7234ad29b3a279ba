import Verif.Spec.FromNetcdf
import Mathlib.Tactic.Linarith
import Mathlib.Data.List.GetD

/-!
Lemmas for C71: a field that shares the grid of another one has the grid it would have had alone.
-/

namespace Parcels.FromNetcdf
open Parcels.TimeInterp Parcels.Converters

variable {C : Type}

/-- The grid, the data files and the numbers of records of a variable on its own. -/
structure Own (C : Type) where
  g : Gr C
  df : List String
  recs : List Nat

def ownOf (W : World C) (c : Call) (stamps : Option (List (List ℚ))) (p : Paths) (d : Dims) (i : Inds) : Option (Own C) :=
  (parts stamps p d).bind fun q =>
  (W.coords q.lonlat d i).bind fun xy =>
  (depthOf W q d i).bind fun z =>
  (check (q.data.length ≤ 1 ∨ d.time.isSome = true ∨ stamps.isSome = true)).bind fun _ =>
  (collect W stamps d q.data).bind fun t =>
  some ⟨mkGrid W c stamps q d xy z t.1, t.2, (timesOf W stamps d q.data).map List.length⟩

/-- What holds of a field `f` of a FieldSet with these grids: `o` is what the variable has on its own. -/
structure Good (c : Call) (o : Own C) (f : Fld) (g : Gr C) (d : Dims) (i : Inds) (ts : List ℚ) (app : Bool) : Prop where
  axis : axisOf c.periodic o.g.time = some (ts, app)
  grid : ∃ b, g = { o.g with time := ts, appended := app, defer := b } ∧ (b = true → c.deferred = true ∧ 2 < ts.length)
  dims : f.dims = d
  inds : f.inds = i
  unit : unitOf o.g.mesh .none f.name = some f.unit
  extrap : f.extrap = if c.periodic.isSome then false else c.extrap.getD d.time.isNone
  periodic : f.periodic = c.periodic
  interp : interpOf c.interp f.name = some f.interp
  files : (if app then o.df ++ o.df.take 1 else o.df) <+: f.dataFiles
  alone : (c.deferred && decide (2 < o.g.time.length)) = true ∨ (o.recs.take o.g.slices).sum = o.g.tdim
  later : c.periodic = none ∨ c.deferred = false → f.deferred = (c.deferred && decide (2 < o.g.time.length))

theorem check_eq {c : Prop} [Decidable c] {u : Unit} : check c = some u ↔ c := by unfold check; split_ifs with h <;> simp [h]

theorem check_bind {α : Type} {c : Prop} [Decidable c] (f : Unit → Option α) (a : α) : (check c).bind f = some a ↔ c ∧ f () = some a := by
  unfold check; split_ifs with h <;> simp [h]

theorem isclose_self (P : ℚ) : isclose P P = true := by unfold isclose; simp; positivity

theorem axisOf_idem {P : Option ℚ} {T ts : List ℚ} {app : Bool} (hT : T ≠ []) (h : axisOf P T = some (ts, app)) :
    axisOf P ts = some (ts, false) ∧ T.length ≤ ts.length ∧ ts.length = (if app then T.length + 1 else T.length) ∧ (P = none → ts = T) := by
  cases P with
  | none =>
    simp only [axisOf, Option.some.injEq, Prod.mk.injEq] at h
    obtain ⟨rfl, rfl⟩ := h
    simp [axisOf]
  | some P =>
    simp only [axisOf, periodicAxis] at h ⊢
    split_ifs at h with h1 h2
    · simp only [Option.some.injEq, Prod.mk.injEq] at h
      obtain ⟨rfl, rfl⟩ := h
      rw [if_pos h1]
      simp
    · simp only [Option.some.injEq, Prod.mk.injEq] at h
      obtain ⟨rfl, rfl⟩ := h
      obtain ⟨a, l, rfl⟩ := List.exists_cons_of_ne_nil hT
      have e1 : ((a :: l) ++ [(a :: l).headD 0 + P]).getLastD 0 = a + P := by
        rw [List.getLastD_eq_getLast?, List.getLast?_concat]; rfl
      have e2 : ((a :: l) ++ [(a :: l).headD 0 + P]).headD 0 = a := by simp
      rw [e1, e2]
      have e3 : a + P - a = P := by ring
      rw [e3, isclose_self]
      simp

theorem collect_spec {W : World C} {stamps : Option (List (List ℚ))} {d : Dims} {fs : List String} {t : List ℚ × List String}
    (h : collect W stamps d fs = some t) (hl : ∀ s, stamps = some s → fs.length = s.length) : t.1 ≠ [] ∧ t.2.length = t.1.length := by
  unfold collect at h
  simp only at h
  split_ifs at h with h1
  injection h with h
  subst h
  refine ⟨h1.1, ?_⟩
  have hlen : fs.length = (timesOf W stamps d fs).length := by
    unfold timesOf; cases stamps with
    | none => simp
    | some s => exact hl s rfl
  generalize timesOf W stamps d fs = tss at hlen
  clear h1 hl
  induction fs generalizing tss with
  | nil => cases tss with
    | nil => rfl
    | cons => simp at hlen
  | cons f fs ih => cases tss with
    | nil => simp at hlen
    | cons t tss =>
      simp only [List.zip_cons_cons, List.flatMap_cons, List.length_append, List.length_replicate, List.flatten_cons]
      rw [ih tss (by simpa using hlen)]

theorem parts_stamps {stamps : Option (List (List ℚ))} {p : Paths} {d : Dims} {q : Parts} (h : parts stamps p d = some q) :
    ∀ s, stamps = some s → q.data.length = s.length := by
  cases p with
  | list l =>
    simp only [parts, Option.bind_eq_some_iff, check_eq, exists_const] at h
    obtain ⟨h1, f, _, h2⟩ := h
    injection h2 with h2; subst h2; exact h1
  | dims m =>
    simp only [parts, Option.bind_eq_some_iff, check_eq, exists_const] at h
    obtain ⟨l, _, h1, lo, _, la, _, _, f, _, h2⟩ := h
    split_ifs at h2
    · simp only [Option.bind_eq_some_iff, check_eq, exists_const] at h2
      obtain ⟨_, _, _, _, _, h2⟩ := h2
      injection h2 with h2; subst h2; exact h1
    · injection h2 with h2; subst h2; exact h1

theorem ownOf_spec {W : World C} {c : Call} {stamps : Option (List (List ℚ))} {p : Paths} {d : Dims} {i : Inds} {o : Own C}
    (h : ownOf W c stamps p d i = some o) : o.g.time ≠ [] ∧ o.df.length = o.g.time.length ∧ o.g.appended = false ∧ o.g.defer = false := by
  simp only [ownOf, Option.bind_eq_some_iff, check_eq, exists_const] at h
  obtain ⟨q, h1, xy, _, z, _, _, t, h2, h3⟩ := h
  injection h3 with h3; subst h3
  have := collect_spec h2 (parts_stamps h1)
  exact ⟨this.1, this.2, rfl, rfl⟩

/-- `finish` on the grid the variable would have had alone, possibly changed by other fields. -/
theorem finish_good {c : Call} {var nc : String} {d : Dims} {i : Inds} {im : String} {df : List String} {gid : Nat} {gs : List (Gr C)}
    {o : Own C} {g : Gr C} {ts : List ℚ} {app : Bool} {q : Fld × List (Gr C)} {recs : List Nat} (hr : recs = o.recs)
    (h : finish c var nc d i .none im recs df gid gs = some q) (hg : gs[gid]? = some g) (hne : o.g.time ≠ [])
    (hax : axisOf c.periodic o.g.time = some (ts, app))
    (hG : ∃ b, g = { o.g with time := ts, appended := app, defer := b } ∧ (b = true → c.deferred = true ∧ 2 < ts.length))
    (hdf : o.df <+: df) (hdl : app = true → df = o.df ∨ (o.df ++ o.df.take 1) <+: df) (him : interpOf c.interp var = some im)
    (hal : (c.deferred && decide (2 < o.g.time.length)) = true ∨ (o.recs.take o.g.slices).sum = o.g.tdim) :
    q.1.name = var ∧ q.1.nc = nc ∧ q.1.grid = gid ∧ ∃ g', q.2 = gs.set gid g' ∧ Good c o q.1 g' d i ts app := by
  obtain ⟨b, rfl, hb⟩ := hG
  obtain ⟨hid, hle, _, hnone⟩ := axisOf_idem hne hax
  simp only [finish, hg, Option.bind_some, Option.bind_eq_some_iff, check_eq, exists_const] at h
  obtain ⟨h1, h2, u, hu, ax, hax', h3⟩ := h
  rw [hid] at hax'
  injection hax' with hax'
  subst hax'
  injection h3 with h3
  subst h3
  refine ⟨rfl, rfl, rfl, _, rfl, ⟨hax, ?_, rfl, rfl, hu, rfl, rfl, him, ?_, hal, ?_⟩⟩
  · refine ⟨b || (c.deferred && decide (2 < ts.length)), by simp, ?_⟩
    intro hh
    simp only [Bool.or_eq_true, Bool.and_eq_true, decide_eq_true_eq] at hh
    rcases hh with hh | hh
    · exact hb hh
    · exact hh
  · simp only [Bool.or_false]
    cases app with
    | false => simpa using hdf
    | true =>
      simp only [if_true]
      rcases hdl rfl with rfl | hdl
      · exact List.prefix_rfl
      · exact hdl.trans (List.prefix_append _ _)
  · intro hh
    simp only
    rcases hh with hh | hh
    · rw [hnone hh]
    · simp [hh]

theorem Good.regrid {c : Call} {o : Own C} {f : Fld} {g g' : Gr C} {d : Dims} {i : Inds} {ts : List ℚ} {app : Bool} (h : Good c o f g d i ts app)
    (hG : ∃ b, g' = { o.g with time := ts, appended := app, defer := b } ∧ (b = true → c.deferred = true ∧ 2 < ts.length)) :
    Good c o f g' d i ts app := ⟨h.axis, hG, h.dims, h.inds, h.unit, h.extrap, h.periodic, h.interp, h.files, h.alone, h.later⟩

/-- The invariant of the loop: each field is as it would be alone. -/
def Inv (W : World C) (c : Call) (r : Result C) : Prop :=
  ∀ f ∈ r.fields, ∃ p d i o g ts app, pathsOf c.files f.name = some p ∧ dimsOf c.dims f.name = some d ∧ indsOf c.inds f.name = some i ∧
    ownOf W c (stampsOf c) p d i = some o ∧ r.grids[f.grid]? = some g ∧ Good c o f g d i ts app

/-- If the grid of `v` is used for `w`, it is the one `w` would have had alone. -/
def Safe (W : World C) (c : Call) : Prop :=
  ∀ v w p q d i o o', pathsOf c.files v = some p → pathsOf c.files w = some q → dimsOf c.dims v = some d → dimsOf c.dims w = some d →
    indsOf c.inds v = some i → indsOf c.inds w = some i → processed c v w = some true → ownOf W c (stampsOf c) p d i = some o →
    ownOf W c (stampsOf c) q d i = some o' → o'.g = o.g ∧ o'.recs = o.recs

theorem scan_spec {c : Call} {var : String} {d : Dims} {i : Inds} {fs : List Fld} {g : Option Nat} {s : Option Nat × Option (List String)}
    (h : scan c var d i fs g = some s) :
    (s = (g, none) ∨ ∃ f ∈ fs, s.1 = some f.grid ∧ dimsOf c.dims f.name = some d ∧ indsOf c.inds f.name = some i ∧
      processed c f.name var = some true ∧ (s.2 = none ∨ s.2 = some f.dataFiles ∧ samePaths c f.name var = true)) := by
  induction fs generalizing g with
  | nil => simp only [scan, Option.some.injEq] at h; exact Or.inl h.symm
  | cons f rest ih =>
    simp only [scan, Option.bind_eq_some_iff] at h
    obtain ⟨pd, h1, pi, h2, h⟩ := h
    have lift : ∀ g', (scan c var d i rest g' = some s) → (s = (g', none) ∨ ∃ f' ∈ f :: rest, s.1 = some f'.grid ∧ dimsOf c.dims f'.name = some d ∧
        indsOf c.inds f'.name = some i ∧ processed c f'.name var = some true ∧
        (s.2 = none ∨ s.2 = some f'.dataFiles ∧ samePaths c f'.name var = true)) := by
      intro g' h'
      rcases ih h' with h' | ⟨f', hf, h'⟩
      · exact Or.inl h'
      · exact Or.inr ⟨f', List.mem_cons_of_mem _ hf, h'⟩
    by_cases h3 : pd = d ∧ pi = i
    · rw [if_pos h3] at h
      obtain ⟨rfl, rfl⟩ := h3
      by_cases h4 : pd.depth = some "not_yet_set"
      · rw [if_pos h4] at h
        injection h with h
        exact Or.inl h.symm
      rw [if_neg h4] at h
      simp only [Option.bind_eq_some_iff] at h
      obtain ⟨ok, h5, h⟩ := h
      cases ok with
      | false =>
        rw [if_neg (by simp)] at h
        exact lift _ h
      | true =>
        rw [if_pos rfl] at h
        by_cases h7 : samePaths c f.name var = true
        · rw [if_pos h7] at h
          injection h with h
          subst h
          exact Or.inr ⟨f, List.mem_cons_self .., rfl, h1, h2, h5, Or.inr ⟨rfl, h7⟩⟩
        · rw [if_neg h7] at h
          rcases lift _ h with h | h
          · exact Or.inr ⟨f, List.mem_cons_self .., by rw [h], h1, h2, h5, Or.inl (by rw [h])⟩
          · exact Or.inr h
    · rw [if_neg h3] at h
      exact lift _ h

theorem samePaths_eq {c : Call} {v w : String} (h : samePaths c v w = true) (hp : processed c v w = some true) :
    pathsOf c.files v = pathsOf c.files w := by
  unfold samePaths at h
  unfold processed at hp
  unfold pathsOf
  cases hf : c.files with
  | list l => rfl
  | byDim m => rfl
  | byVar m => rw [hf] at h; simpa using h

/-- One variable keeps the invariant. -/
theorem oneVar_inv {W : World C} {c : Call} (hs : Safe W c) {var nc : String} {r r' : Result C} (hr : Inv W c r)
    (h : oneVar W c var nc .none r = some r') : Inv W c r' ∧ ∃ f, r'.fields = r.fields ++ [f] ∧ f.name = var ∧ f.nc = nc := by
  simp only [oneVar, Option.bind_eq_some_iff] at h
  obtain ⟨p, hp, d, hd, i, hi, s, hscan, q, hq, h⟩ := h
  injection h with h
  subst h
  simp only [fieldFromNetcdf, Option.bind_eq_some_iff, check_eq, exists_const] at hq
  obtain ⟨pt, hpt, im, him, xy, hxy, z, hz, hck, hq⟩ := hq
  have own : ∀ t, collect W (stampsOf c) d pt.data = some t → ownOf W c (stampsOf c) p d i =
      some ⟨mkGrid W c (stampsOf c) pt d xy z t.1, t.2, (timesOf W (stampsOf c) d pt.data).map List.length⟩ := by
    intro t ht
    simp only [ownOf, Option.bind_eq_some_iff, check_eq, exists_const]
    exact ⟨pt, hpt, xy, hxy, z, hz, hck, t, ht, rfl⟩
  -- the rest, once the grid has been found
  have rest : ∀ (o : Own C) (g : Gr C) (ts : List ℚ) (app : Bool) (gs : List (Gr C)) (gid : Nat) (df : List String),
      ownOf W c (stampsOf c) p d i = some o → (timesOf W (stampsOf c) d pt.data).map List.length = o.recs → gs[gid]? = some g →
      axisOf c.periodic o.g.time = some (ts, app) →
      (∃ b, g = { o.g with time := ts, appended := app, defer := b } ∧ (b = true → c.deferred = true ∧ 2 < ts.length)) →
      o.df <+: df → (app = true → df = o.df ∨ (o.df ++ o.df.take 1) <+: df) →
      ((c.deferred && decide (2 < o.g.time.length)) = true ∨ (o.recs.take o.g.slices).sum = o.g.tdim) →
      finish c var nc d i .none im ((timesOf W (stampsOf c) d pt.data).map List.length) df gid gs = some q →
      q.1.name = var ∧ q.1.nc = nc ∧ q.1.grid = gid ∧ ∃ g', q.2 = gs.set gid g' ∧ Good c o q.1 g' d i ts app := by
    intro o g ts app gs gid df ho hrec hg hax hG hdf hdl hal hfin
    exact finish_good hrec hfin hg (ownOf_spec ho).1 hax hG hdf hdl him hal
  -- the shared grid
  have shared : ∀ (f : Fld) (df : List String) (o : Own C), f ∈ r.fields → ownOf W c (stampsOf c) p d i = some o →
      (timesOf W (stampsOf c) d pt.data).map List.length = o.recs → dimsOf c.dims f.name = some d → indsOf c.inds f.name = some i →
      processed c f.name var = some true →
      (o.df <+: df ∧ ∀ (of : Own C) (pf : Paths), pathsOf c.files f.name = some pf → ownOf W c (stampsOf c) pf d i = some of →
        ∀ (ts : List ℚ) (app : Bool) (g : Gr C), Good c of f g d i ts app → app = true → df = o.df ∨ (o.df ++ o.df.take 1) <+: df) →
      finish c var nc d i .none im ((timesOf W (stampsOf c) d pt.data).map List.length) df f.grid r.grids = some q →
      Inv W c ⟨r.fields ++ [q.1], q.2⟩ ∧ q.1.name = var ∧ q.1.nc = nc := by
    intro f df o hf ho hrec hfd hfi hpr hdf hfin
    obtain ⟨pf, d', i', of, g, ts, app, h1, h2, h3, h4, h5, h6⟩ := hr f hf
    rw [hfd] at h2; injection h2 with h2; subst h2
    rw [hfi] at h3; injection h3 with h3; subst h3
    obtain ⟨eg, er⟩ := hs f.name var pf p d i of o h1 hp hfd hd hfi hi hpr h4 ho
    have hG := h6.grid
    rw [← eg] at hG
    have := rest o g ts app r.grids f.grid df ho hrec h5 (by rw [eg]; exact h6.axis) hG hdf.1 (hdf.2 of pf h1 h4 ts app g h6)
      (by rw [eg, er]; exact h6.alone) hfin
    obtain ⟨e1, e2, e3, g', e4, hgood⟩ := this
    refine ⟨?_, e1, e2⟩
    intro f' hf'
    simp only [List.mem_append, List.mem_singleton] at hf'
    rcases hf' with hf' | rfl
    · obtain ⟨pf', d', i', of', gg, ts', app', k1, k2, k3, k4, k5, k6⟩ := hr f' hf'
      by_cases hgid : f'.grid = f.grid
      · have : gg = g := by rw [hgid, h5] at k5; injection k5 with k5; exact k5.symm
        subst this
        -- the grid of f' is the grid of f
        obtain ⟨b1, w1, w1'⟩ := k6.grid
        obtain ⟨b2, w2, w2'⟩ := hgood.grid
        obtain ⟨b3, w3, w3'⟩ := h6.grid
        refine ⟨pf', d', i', of', g', ts', app', k1, k2, k3, k4, ?_, k6.regrid ⟨b2, ?_, ?_⟩⟩
        · simp only [e4, hgid]
          rw [List.getElem?_set_self']
          rw [h5]; rfl
        · rw [w2, eg]
          rw [w3] at w1
          simp only [Gr.mk.injEq] at w1 ⊢
          obtain ⟨a1, a2, a3, a4, a5, a6, a7, _⟩ := w1
          exact ⟨a1, a2, a3, a4, a5, a6, a7, trivial⟩
        · intro hb
          have : ts = ts' := by
            rw [w3] at w1
            simp only [Gr.mk.injEq] at w1
            exact w1.2.2.2.1
          rw [← this]; exact w2' hb
      · refine ⟨pf', d', i', of', gg, ts', app', k1, k2, k3, k4, ?_, k6⟩
        simp only [e4]
        rw [List.getElem?_set_ne (fun h => hgid h.symm)]
        exact k5
    · refine ⟨p, d, i, o, g', ts, app, by rw [e1]; exact hp, by rw [e1]; exact hd, by rw [e1]; exact hi, ho, ?_, hgood⟩
      simp only [e3, e4]
      rw [List.getElem?_set_self', h5]
      rfl
  -- cases
  have hsp := scan_spec hscan
  obtain ⟨s1, s2⟩ := s
  suffices hh : Inv W c ⟨r.fields ++ [q.1], q.2⟩ ∧ q.1.name = var ∧ q.1.nc = nc from ⟨hh.1, q.1, rfl, hh.2.1, hh.2.2⟩
  cases s1 with
  | none =>
    simp only [Option.bind_eq_some_iff] at hq
    obtain ⟨t, ht, hfin⟩ := hq
    have ho := own t ht
    have hosp := ownOf_spec ho
    -- a new grid
    have hget : (r.grids ++ [mkGrid W c (stampsOf c) pt d xy z t.1])[r.grids.length]? = some (mkGrid W c (stampsOf c) pt d xy z t.1) := by simp
    have hfin' := hfin
    simp only [finish, hget, Option.bind_some, Option.bind_eq_some_iff, check_eq, exists_const] at hfin'
    obtain ⟨h1, h2, u, hu, ax, hax, h3⟩ := hfin'
    injection h3 with h3
    subst h3
    have hgood : Good c ⟨mkGrid W c (stampsOf c) pt d xy z t.1, t.2, (timesOf W (stampsOf c) d pt.data).map List.length⟩
        ⟨var, nc, r.grids.length, d, i, u, if c.periodic.isSome then false else c.extrap.getD d.time.isNone, c.periodic, im,
          if (mkGrid W c (stampsOf c) pt d xy z t.1).appended || ax.2 then t.2 ++ t.2.take 1 else t.2,
          c.deferred && decide (2 < (mkGrid W c (stampsOf c) pt d xy z t.1).time.length)⟩
        ({ mkGrid W c (stampsOf c) pt d xy z t.1 with time := ax.1, appended := (mkGrid W c (stampsOf c) pt d xy z t.1).appended || ax.2, defer := (mkGrid W c (stampsOf c) pt d xy z t.1).defer || (c.deferred && decide (2 < (mkGrid W c (stampsOf c) pt d xy z t.1).time.length)) } : Gr C)
        d i ax.1 ax.2 := by
      have hle := (axisOf_idem hosp.1 hax).2.1
      refine ⟨hax, ⟨_, rfl, ?_⟩, rfl, rfl, hu, rfl, rfl, him, ?_, ?_, fun _ => rfl⟩
      · intro hb
        simp only [mkGrid, Bool.false_or, Bool.and_eq_true, decide_eq_true_eq] at hb
        exact ⟨hb.1, lt_of_lt_of_le (of_decide_eq_true hb.2) hle⟩
      · simp [mkGrid]
      · simpa using h1
    refine ⟨?_, rfl, rfl⟩
    intro f' hf'
    simp only [List.mem_append, List.mem_singleton] at hf'
    rcases hf' with hf' | rfl
    · obtain ⟨pf', d', i', of', gg, ts', app', k1, k2, k3, k4, k5, k6⟩ := hr f' hf'
      refine ⟨pf', d', i', of', gg, ts', app', k1, k2, k3, k4, ?_, k6⟩
      have hlt : f'.grid < r.grids.length := by
        rw [List.getElem?_eq_some_iff] at k5; exact k5.1
      simp only
      rw [List.getElem?_set_ne (by omega), List.getElem?_append_left hlt]
      exact k5
    · refine ⟨p, d, i, _, _, ax.1, ax.2, hp, hd, hi, ho, ?_, hgood⟩
      simp only
      rw [List.getElem?_set_self (by simp)]
  | some gid =>
    rcases hsp with hsp | ⟨f, hf, e1, e2, e3, e4, e5⟩
    · simp at hsp
    simp only [Option.some.injEq] at e1
    subst e1
    cases s2 with
    | none =>
      simp only [Option.bind_eq_some_iff] at hq
      obtain ⟨t, ht, hfin⟩ := hq
      exact shared f t.2 _ hf (own t ht) rfl e2 e3 e4 ⟨List.prefix_rfl, fun _ _ _ _ _ _ _ _ _ => Or.inl rfl⟩ hfin
    | some df =>
      simp only [reduceCtorEq, false_or, Option.some.injEq] at e5
      obtain ⟨rfl, hsame⟩ := e5
      obtain ⟨pf, d', i', of, g, ts, app, h1, h2, h3, h4, h5, h6⟩ := hr f hf
      rw [e2] at h2; injection h2 with h2; subst h2
      rw [e3] at h3; injection h3 with h3; subst h3
      have hpp := samePaths_eq hsame e4
      rw [h1, hp] at hpp
      injection hpp with hpp
      subst hpp
      have hrec : (timesOf W (stampsOf c) d pt.data).map List.length = of.recs := by
        have h4' := h4
        simp only [ownOf, Option.bind_eq_some_iff, check_eq, exists_const] at h4'
        obtain ⟨pt', w1, xy', w2, z', w3, _, t, w4, w5⟩ := h4'
        rw [hpt] at w1; injection w1 with w1; subst w1
        injection w5 with w5
        rw [← w5]
      have hfiles := h6.files
      refine shared f f.dataFiles of hf h4 hrec e2 e3 e4 ⟨?_, ?_⟩ hq
      · cases app with
        | false => simpa using hfiles
        | true => exact (List.prefix_append _ _).trans (by simpa using hfiles)
      · intro of' pf' k1 k2 ts' app' g' k3 happ
        rw [h1] at k1; injection k1 with k1; subst k1
        rw [h4] at k2; injection k2 with k2; subst k2
        right
        have := k3.files
        rw [happ] at this
        simpa using this

/-- The loop keeps the invariant. -/
theorem loopVars_inv {W : World C} {c : Call} (hs : Safe W c) {vars : List (String × String)} {r r' : Result C} (hr : Inv W c r)
    (h : loopVars W c vars .none r = some r') :
    Inv W c r' ∧ ∃ fs, r'.fields = r.fields ++ fs ∧ fs.map (fun f => (f.name, f.nc)) = vars := by
  induction vars generalizing r with
  | nil =>
    simp only [loopVars, Option.some.injEq] at h
    subst h
    exact ⟨hr, [], by simp, rfl⟩
  | cons v rest ih =>
    obtain ⟨var, nc⟩ := v
    simp only [loopVars, nextType, Option.bind_some, Option.bind_eq_some_iff] at h
    obtain ⟨r1, h1, h2⟩ := h
    obtain ⟨hr1, f, e1, e2, e3⟩ := oneVar_inv hs hr h1
    obtain ⟨hr', fs, e4, e5⟩ := ih hr1 h2
    refine ⟨hr', f :: fs, ?_, ?_⟩
    · rw [e4, e1]; simp
    · simp [e2, e3, e5]

/-- The files of the times, for a field that is as it would be alone. -/
theorem Good.source {W : World C} {c : Call} {stamps : Option (List (List ℚ))} {p : Paths} {o : Own C} {f : Fld} {g : Gr C} {d : Dims} {i : Inds} {ts : List ℚ} {app : Bool}
    (h : Good c o f g d i ts app) (ho : ownOf W c stamps p d i = some o) :
    f.dataFiles.take ts.length = if app then o.df ++ o.df.take 1 else o.df := by
  obtain ⟨h1, h2, _⟩ := ownOf_spec ho
  obtain ⟨_, _, h3, _⟩ := axisOf_idem h1 h.axis
  have hl : (if app then o.df ++ o.df.take 1 else o.df).length = ts.length := by
    rw [h3]
    have : 1 ≤ o.df.length := by rw [h2]; exact List.length_pos_of_ne_nil h1
    cases app <;> simp <;> omega
  rw [← hl]
  exact (List.prefix_iff_eq_take.mp h.files).symm

/-- The view of a field that is as it would be alone. -/
def Own.view (o : Own C) (f : Fld) (c : Call) (d : Dims) (i : Inds) (ts : List ℚ) (app : Bool) : View C where
  name := f.name
  nc := f.nc
  coords := o.g.coords
  depth := o.g.depth
  mesh := o.g.mesh
  times := ts
  dims := d
  inds := i
  unit := f.unit
  extrap := if c.periodic.isSome then false else c.extrap.getD d.time.isNone
  periodic := c.periodic
  interp := f.interp
  source := if app then o.df ++ o.df.take 1 else o.df

theorem Good.view {W : World C} {c : Call} {stamps : Option (List (List ℚ))} {p : Paths} {o : Own C} {f : Fld} {g : Gr C} {d : Dims} {i : Inds} {ts : List ℚ} {app : Bool}
    (h : Good c o f g d i ts app) (ho : ownOf W c stamps p d i = some o) {r : Result C} (hf : r.fields.find? (fun x => decide (x.name = f.name)) = some f)
    (hg : r.grids[f.grid]? = some g) : r.view f.name = some (o.view f c d i ts app) := by
  unfold Result.view
  rw [hf]
  simp only [Option.bind_some, hg, Option.map_some, Option.some.injEq]
  obtain ⟨b, rfl, _⟩ := h.grid
  simp only [Own.view, h.source ho, h.dims, h.inds, h.extrap, h.periodic]

/-- Alone, a variable gives the field it is in the invariant. -/
theorem alone_of_good {W : World C} {c : Call} (hft : c.ftype = .none) {p : Paths} {o : Own C} {f : Fld} {g : Gr C} {d : Dims} {i : Inds} {ts : List ℚ} {app : Bool}
    (hp : pathsOf c.files f.name = some p) (hd : dimsOf c.dims f.name = some d) (hi : indsOf c.inds f.name = some i)
    (ho : ownOf W c (stampsOf c) p d i = some o) (h : Good c o f g d i ts app) :
    ∃ s, fromNetcdf W c [(f.name, f.nc)] = some s ∧ s.view f.name = some (o.view f c d i ts app) ∧
      s.later f.name = some (c.deferred && decide (2 < o.g.time.length)) := by
  have hosp := ownOf_spec ho
  have hax := h.axis
  have hal := h.alone
  have hun := h.unit
  have him := h.interp
  have ho' := ho
  simp only [ownOf, Option.bind_eq_some_iff, check_eq, exists_const] at ho'
  obtain ⟨pt, hpt, xy, hxy, z, hz, hck, t, ht, e⟩ := ho'
  injection e with e
  have hfin : finish c f.name f.nc d i .none f.interp ((timesOf W (stampsOf c) d pt.data).map List.length) t.2 0 [mkGrid W c (stampsOf c) pt d xy z t.1] =
      some (⟨f.name, f.nc, 0, d, i, f.unit, if c.periodic.isSome then false else c.extrap.getD d.time.isNone, c.periodic, f.interp,
        if app then t.2 ++ t.2.take 1 else t.2, c.deferred && decide (2 < o.g.time.length)⟩,
        [{ o.g with time := ts, appended := app, defer := c.deferred && decide (2 < o.g.time.length) }]) := by
    subst e
    simp only [finish, List.getElem?_cons_zero, Option.bind_some, Option.bind_eq_some_iff, check_eq, exists_const]
    refine ⟨hal, fun hh => by simp [mkGrid] at hh, f.unit, hun, (ts, app), hax, ?_⟩
    simp [mkGrid]
  refine ⟨⟨[⟨f.name, f.nc, 0, d, i, f.unit, if c.periodic.isSome then false else c.extrap.getD d.time.isNone, c.periodic, f.interp,
        if app then t.2 ++ t.2.take 1 else t.2, c.deferred && decide (2 < o.g.time.length)⟩],
        [{ o.g with time := ts, appended := app, defer := c.deferred && decide (2 < o.g.time.length) }]⟩, ?_, ?_, ?_⟩
  · unfold fromNetcdf
    rw [hft]
    simp only [loopVars, nextType, oneVar, Option.bind_some, hp, hd, hi, scan, fieldFromNetcdf, hpt, him, hxy, hz, ht, List.length_nil]
    rw [show check (pt.data.length ≤ 1 ∨ d.time.isSome = true ∨ (stampsOf c).isSome = true) = some () from check_eq.mpr hck]
    simp only [Option.bind_some, List.nil_append]
    rw [hfin]
    rfl
  · unfold Result.view
    simp only [decide_true, List.find?_cons_of_pos, Option.bind_some, List.getElem?_cons_zero, Option.map_some, Option.some.injEq, Own.view]
    have hsrc := h.source ho
    have : (if app then t.2 ++ t.2.take 1 else t.2).length = ts.length := by
      obtain ⟨_, _, h3, _⟩ := axisOf_idem hosp.1 hax
      have h2 := hosp.2.1
      have h1 : 1 ≤ o.g.time.length := List.length_pos_of_ne_nil hosp.1
      rw [← e] at h3 h2 h1
      simp only at h3 h2 h1
      rw [h3]
      cases app <;> simp <;> omega
    rw [← this, List.take_length, ← e]
  · simp [Result.later]

/-- The search for a grid does not fail. -/
def Scans (W : World C) (c : Call) : Prop :=
  ∀ v w p q d i o o', pathsOf c.files v = some p → pathsOf c.files w = some q → dimsOf c.dims v = some d → dimsOf c.dims w = some d →
    indsOf c.inds v = some i → indsOf c.inds w = some i → ownOf W c (stampsOf c) p d i = some o →
    ownOf W c (stampsOf c) q d i = some o' → ∃ ok, processed c v w = some ok

theorem scan_ok {W : World C} {c : Call} (hs : Scans W c) {var : String} {p : Paths} {d : Dims} {i : Inds} {o : Own C}
    (hp : pathsOf c.files var = some p) (hd : dimsOf c.dims var = some d) (hi : indsOf c.inds var = some i)
    (ho : ownOf W c (stampsOf c) p d i = some o) (fs : List Fld) (g : Option Nat)
    (hfs : ∀ f ∈ fs, ∃ p d i o, pathsOf c.files f.name = some p ∧ dimsOf c.dims f.name = some d ∧ indsOf c.inds f.name = some i ∧
      ownOf W c (stampsOf c) p d i = some o) : ∃ s, scan c var d i fs g = some s := by
  induction fs generalizing g with
  | nil => exact ⟨_, rfl⟩
  | cons f rest ih =>
    have hrest := fun g => ih g (fun f' hf' => hfs f' (List.mem_cons_of_mem _ hf'))
    obtain ⟨pf, df, i', of, h1, h2, h3, h4⟩ := hfs f (List.mem_cons_self ..)
    simp only [scan, h2, h3, Option.bind_some]
    by_cases e : df = d ∧ i' = i
    · rw [if_pos e]
      obtain ⟨rfl, rfl⟩ := e
      by_cases e1 : df.depth = some "not_yet_set"
      · rw [if_pos e1]; exact ⟨_, rfl⟩
      · rw [if_neg e1]
        obtain ⟨ok, hok⟩ := hs f.name var pf p df i' of o h1 hp h2 hd h3 hi h4 ho
        rw [hok]
        simp only [Option.bind_some]
        split_ifs
        · exact ⟨_, rfl⟩
        · exact hrest _
        · exact hrest _
    · rw [if_neg e]
      exact hrest _

theorem finish_ok {c : Call} {var nc : String} {d : Dims} {i : Inds} {im : String} {df : List String} {gid : Nat} {gs : List (Gr C)}
    {o : Own C} {g : Gr C} {ts : List ℚ} {app : Bool} {u : Unit'} (hg : gs[gid]? = some g) (hne : o.g.time ≠ [])
    (hax : axisOf c.periodic o.g.time = some (ts, app))
    (hG : ∃ b, g = { o.g with time := ts, appended := app, defer := b } ∧ (b = true → c.deferred = true ∧ 2 < ts.length))
    (hu : unitOf o.g.mesh .none var = some u)
    (hal : (c.deferred && decide (2 < o.g.time.length)) = true ∨ (o.recs.take o.g.slices).sum = o.g.tdim) :
    ∃ q, finish c var nc d i .none im o.recs df gid gs = some q := by
  obtain ⟨b, rfl, hb⟩ := hG
  obtain ⟨hid, hle, _, _⟩ := axisOf_idem hne hax
  · simp only [finish, hg, Option.bind_some, Option.bind_eq_some_iff, check_eq, exists_const]
    refine ⟨_, ?_, ?_, u, hu, (ts, false), hid, rfl⟩
    · rcases hal with hal | hal
      · left
        simp only [Bool.and_eq_true, decide_eq_true_eq] at hal ⊢
        exact ⟨hal.1, lt_of_lt_of_le hal.2 hle⟩
      · exact Or.inr hal
    · intro hh
      have := hb hh
      simp [this.1, this.2]

/-- If a variable works alone, it works after others. -/
theorem oneVar_ok {W : World C} {c : Call} (hs : Safe W c) (hsc : Scans W c) {var nc : String} {r s : Result C} (hr : Inv W c r)
    (hft : c.ftype = .none) (h : fromNetcdf W c [(var, nc)] = some s) : ∃ r', oneVar W c var nc .none r = some r' := by
  have hinv : Inv W c (⟨[], []⟩ : Result C) := by intro f hf; simp at hf
  unfold fromNetcdf at h
  rw [hft] at h
  obtain ⟨hs', fs, e1, e2⟩ := loopVars_inv hs hinv h
  obtain ⟨f, rfl⟩ : ∃ f, fs = [f] := by
    cases fs with
    | nil => simp at e2
    | cons f rest => cases rest with
      | nil => exact ⟨f, rfl⟩
      | cons => simp at e2
  simp only [List.map_cons, List.map_nil, List.cons.injEq, Prod.mk.injEq, and_true] at e2
  obtain ⟨p, d, i, o, g, ts, app, hp, hd, hi, ho, _, hgood⟩ := hs' f (by rw [e1]; simp)
  rw [e2.1] at hp hd hi
  obtain ⟨sc, hscan⟩ := scan_ok hsc hp hd hi ho r.fields none (by
    intro f' hf'
    obtain ⟨p, d, i, o, _, _, _, k1, k2, k3, k4, _⟩ := hr f' hf'
    exact ⟨p, d, i, o, k1, k2, k3, k4⟩)
  have hosp := ownOf_spec ho
  have ho' := ho
  simp only [ownOf, Option.bind_eq_some_iff, check_eq, exists_const] at ho'
  obtain ⟨pt, hpt, xy, hxy, z, hz, hck, t, ht, e⟩ := ho'
  injection e with e
  have hun := hgood.unit
  have him := hgood.interp
  rw [e2.1] at hun him
  suffices hh : ∃ q, fieldFromNetcdf W c (stampsOf c) var nc p d i .none sc.1 sc.2 r.grids = some q by
    obtain ⟨q, hq⟩ := hh
    refine ⟨⟨r.fields ++ [q.1], q.2⟩, ?_⟩
    simp only [oneVar, hp, hd, hi, hscan, hq, Option.bind_some]
  simp only [fieldFromNetcdf, hpt, him, hxy, hz, Option.bind_some]
  rw [show check (pt.data.length ≤ 1 ∨ d.time.isSome = true ∨ (stampsOf c).isSome = true) = some () from check_eq.mpr hck]
  simp only [Option.bind_some]
  have hrec : (timesOf W (stampsOf c) d pt.data).map List.length = o.recs := by rw [← e]
  rw [hrec]
  have shared : ∀ (f' : Fld) (df : List String), f' ∈ r.fields → dimsOf c.dims f'.name = some d → indsOf c.inds f'.name = some i →
      processed c f'.name var = some true → ∃ q, finish c var nc d i .none f.interp o.recs df f'.grid r.grids = some q := by
    intro f' df hf' k1 k2 k3
    obtain ⟨pf, d', i', of, g', ts', app', h1, h2, h3, h4, h5, h6⟩ := hr f' hf'
    rw [k1] at h2; injection h2 with h2; subst h2
    rw [k2] at h3; injection h3 with h3; subst h3
    obtain ⟨eg, er⟩ := hs f'.name var pf p d i of o h1 hp k1 hd k2 hi k3 h4 ho
    have hG := h6.grid
    rw [← eg] at hG
    exact finish_ok h5 hosp.1 (by rw [eg]; exact h6.axis) hG hun hgood.alone
  have hsp := scan_spec hscan
  obtain ⟨s1, s2⟩ := sc
  cases s1 with
  | none =>
    simp only [ht, Option.bind_some]
    have hax := hgood.axis
    have hal := hgood.alone
    subst e
    · simp only [finish, List.getElem?_concat_length, Option.bind_some, Option.bind_eq_some_iff, check_eq, exists_const]
      exact ⟨_, hal, fun hh => by simp [mkGrid] at hh, f.unit, hun, (ts, app), hax, rfl⟩
  | some gid =>
    rcases hsp with hsp | ⟨f', hf', k1, k2, k3, k4, k5⟩
    · simp at hsp
    simp only [Option.some.injEq] at k1
    subst k1
    cases s2 with
    | none =>
      simp only [ht, Option.bind_some]
      exact shared f' t.2 hf' k2 k3 k4
    | some df => exact shared f' df hf' k2 k3 k4

theorem loopVars_ok {W : World C} {c : Call} (hs : Safe W c) (hsc : Scans W c) (hft : c.ftype = .none) {vars : List (String × String)}
    {r : Result C} (hr : Inv W c r) (h : ∀ v ∈ vars, ∃ s, fromNetcdf W c [v] = some s) : ∃ r', loopVars W c vars .none r = some r' := by
  induction vars generalizing r with
  | nil => exact ⟨r, rfl⟩
  | cons v rest ih =>
    obtain ⟨var, nc⟩ := v
    obtain ⟨s, hs1⟩ := h (var, nc) (List.mem_cons_self ..)
    obtain ⟨r1, h1⟩ := oneVar_ok hs hsc hr hft hs1
    obtain ⟨r', h2⟩ := ih (oneVar_inv hs hr h1).1 (fun v hv => h v (List.mem_cons_of_mem _ hv))
    exact ⟨r', by simp only [loopVars, nextType, Option.bind_some, h1, h2]⟩

/-! ### The two classes of calls -/

theorem safe_lists {W : World C} {c : Call} (h : c.ListsOfFiles) : Safe W c ∧ Scans W c := by
  refine ⟨?_, ?_⟩
  · intro v w p q d i o o' hp hq _ _ _ _ hpr ho ho'
    suffices e : p = q by subst e; rw [ho] at ho'; injection ho' with ho'; subst ho'; exact ⟨rfl, rfl⟩
    rcases h with ⟨l, hl⟩ | ⟨m, hm, hml⟩
    · rw [hl] at hp hq
      simp only [pathsOf, Option.some.injEq] at hp hq
      rw [← hp, ← hq]
    · rw [hm] at hp hq
      simp only [pathsOf] at hp hq
      simp only [processed, hm, hp, hq, Option.bind_some] at hpr
      by_cases e : p = q
      · exact e
      · rw [if_neg e] at hpr
        obtain ⟨l, rfl⟩ := hml v p hp
        simp at hpr
  · intro v w p q d i o o' hp hq _ _ _ _ _ _
    rcases h with ⟨l, hl⟩ | ⟨m, hm, hml⟩
    · exact ⟨true, by simp [processed, hl]⟩
    · rw [hm] at hp hq
      simp only [pathsOf] at hp hq
      obtain ⟨l, rfl⟩ := hml v p hp
      simp only [processed, hm, hp, hq, Option.bind_some]
      split_ifs
      · exact ⟨_, rfl⟩
      · exact ⟨_, rfl⟩

theorem parts_dims {stamps : Option (List (List ℚ))} {m : DimPaths} {d : Dims} {q : Parts} (h : parts stamps (.dims m) d = some q) :
    m.data = some q.data ∧ (∃ lo, m.lon = some lo ∧ m.lat = some lo ∧ lo.head? = some q.lonlat) ∧
    (if d.depth.isSome then ∃ z, m.depth = some z ∧ z.head? = q.depth else q.depth = none) := by
  simp only [parts, Option.bind_eq_some_iff, check_eq, exists_const] at h
  obtain ⟨l, h1, _, lo, h2, la, h3, h4, f, h5, h6⟩ := h
  split_ifs at h6 ⊢ with h7
  · simp only [Option.bind_eq_some_iff, check_eq, exists_const] at h6
    obtain ⟨z, k1, _, fz, k2, k3⟩ := h6
    injection k3 with k3
    subst k3
    exact ⟨h1, ⟨lo, h2, by rw [h3, h4.2], h5⟩, z, k1, k2⟩
  · injection h6 with h6
    subst h6
    exact ⟨h1, ⟨lo, h2, by rw [h3, h4.2], h5⟩, rfl⟩

theorem dimsOf_all {d d' : Dims} {v : String} (h : dimsOf (.all d) v = some d') : d' = d := by
  simp only [dimsOf] at h
  split_ifs at h
  injection h with h
  exact h.symm

theorem sameDim_all {d : Dims} {dim : String} {x y : Option (List String)} (h : sameDim (.all d) dim x y = some true)
    (hd : dimInArg (.all d) dim = true) : x = y := by
  simp only [sameDim, hd, if_true, Option.bind_eq_some_iff] at h
  obtain ⟨u, rfl, w, rfl, h⟩ := h
  simp only [Option.some.injEq, decide_eq_true_eq] at h
  rw [h]

theorem safe_perDim {W : World C} {c : Call} (h : c.FilesPerDim W) : Safe W c ∧ Scans W c := by
  obtain ⟨m, d, hm, hcd, hml, htimes⟩ := h
  have inLon : dimInArg (.all d) "lon" = true := by simp [dimInArg]
  have inLat : dimInArg (.all d) "lat" = true := by simp [dimInArg]
  have inDep : dimInArg (.all d) "depth" = d.depth.isSome := by simp [dimInArg]
  refine ⟨?_, ?_⟩
  · intro v w p q d' i o o' hp hq hd _ _ _ hpr ho ho'
    by_cases e : p = q
    · subst e; rw [ho] at ho'; injection ho' with ho'; subst ho'; exact ⟨rfl, rfl⟩
    rw [hcd] at hd
    obtain rfl := dimsOf_all hd
    rw [hm] at hp hq
    simp only [pathsOf] at hp hq
    obtain ⟨x, rfl⟩ := hml v p hp
    obtain ⟨y, rfl⟩ := hml w q hq
    simp only [processed, hm, hp, hq, Option.bind_some] at hpr
    rw [if_neg e] at hpr
    simp only [Option.bind_eq_some_iff, hcd, Option.some.injEq] at hpr
    obtain ⟨s1, k1, s2, k2, s3, k3, hs⟩ := hpr
    simp only [Bool.and_eq_true] at hs
    obtain ⟨⟨rfl, rfl⟩, rfl⟩ := hs
    have e1 := sameDim_all k1 inLon
    have e2 := sameDim_all k2 inLat
    have e3 : d'.depth.isSome = true → x.depth = y.depth := fun hz => sameDim_all k3 (by rw [inDep]; exact hz)
    simp only [ownOf, Option.bind_eq_some_iff, check_eq, exists_const] at ho ho'
    obtain ⟨pt, a1, xy, a2, z, a3, _, t, a4, a5⟩ := ho
    obtain ⟨pt', b1, xy', b2, z', b3, _, t', b4, b5⟩ := ho'
    obtain ⟨c1, ⟨lo, c2, _, c4⟩, c5⟩ := parts_dims a1
    obtain ⟨f1, ⟨lo', f2, _, f4⟩, f5⟩ := parts_dims b1
    have hlo : lo = lo' := by rw [e1, f2] at c2; injection c2 with c2; exact c2.symm
    subst hlo
    have hll : pt.lonlat = pt'.lonlat := by rw [c4] at f4; injection f4
    have hdp : pt.depth = pt'.depth := by
      split_ifs at c5 f5 with hz
      · obtain ⟨z1, g1, g2⟩ := c5
        obtain ⟨z2, g3, g4⟩ := f5
        rw [e3 hz, g3] at g1
        injection g1 with g1
        rw [← g2, ← g4, g1]
      · rw [c5, f5]
    have hT := htimes v w x y pt.data pt'.data hp hq c1 f1 e1 e2 e3
    have hlen : pt.data.length = pt'.data.length := by simpa using congrArg List.length hT
    have hF : pt.data.map (fileTimes W d') = pt'.data.map (fileTimes W d') := by
      unfold fileTimes
      by_cases hz : d'.time.isNone = true
      · simp only [hz, if_true]
        rw [List.map_const', List.map_const', hlen]
      · simp only [if_neg hz]
        exact hT
    have hTT : timesOf W (stampsOf c) d' pt.data = timesOf W (stampsOf c) d' pt'.data := by
      unfold timesOf
      cases stampsOf c with
      | none => exact hF
      | some s => rfl
    have hxy : xy = xy' := by rw [hll, b2] at a2; injection a2 with a2; exact a2.symm
    have hz : z = z' := by
      unfold depthOf at a3 b3
      rw [hdp] at a3
      rw [a3] at b3
      injection b3
    have ht : t.1 = t'.1 := by
      unfold collect at a4 b4
      simp only at a4 b4
      split_ifs at a4 b4
      injection a4 with a4
      injection b4 with b4
      rw [← a4, ← b4]
      simp only [hTT]
    injection a5 with a5
    injection b5 with b5
    rw [← a5, ← b5]
    simp only
    refine ⟨?_, by rw [hTT]⟩
    simp only [mkGrid, hll, hxy, hz, ht, hlen]
  · intro v w p q d' i o o' hp hq hd _ _ _ ho ho'
    rw [hcd] at hd
    obtain rfl := dimsOf_all hd
    rw [hm] at hp hq
    simp only [pathsOf] at hp hq
    obtain ⟨x, rfl⟩ := hml v p hp
    obtain ⟨y, rfl⟩ := hml w q hq
    simp only [processed, hm, hp, hq, Option.bind_some, hcd]
    simp only [ownOf, Option.bind_eq_some_iff, check_eq, exists_const] at ho ho'
    obtain ⟨pt, a1, _⟩ := ho
    obtain ⟨pt', b1, _⟩ := ho'
    obtain ⟨c1, ⟨lo, c2, c3, _⟩, c5⟩ := parts_dims a1
    obtain ⟨f1, ⟨lo', f2, f3, _⟩, f5⟩ := parts_dims b1
    split_ifs
    · exact ⟨_, rfl⟩
    · simp only [sameDim, inLon, inLat, inDep, c2, c3, f2, f3, if_true, Option.bind_some]
      by_cases hz : d'.depth.isSome = true
      · rw [if_pos hz] at c5 f5
        obtain ⟨z1, g1, _⟩ := c5
        obtain ⟨z2, g3, _⟩ := f5
        simp [hz, g1, g3]
      · simp [hz]

/-- One variable from a list of files. -/
theorem loads_one (W : World C) (c : Call) (fs : List String) (f0 : String) (d : Dims) (i : Inds) (im : String) (xy : C) (z : Option C)
    (hf : c.files = .list fs) (h0 : fs.head? = some f0) (hd : c.dims = .all d) (ht : d.time.isSome = true) (hi : c.inds = .all i) (hft : c.ftype = .none)
    (hp : c.periodic = none) (hm : c.interp = .all im) (hxy : W.coords f0 d i = some xy)
    (hz : (d.depth = none ∧ z = none) ∨ (d.depth.isSome = true ∧ ∃ z', z = some z' ∧ W.depth f0 d i = some z'))
    (hne : fs.flatMap (fun f => W.times f d) ≠ []) (hinc : (fs.flatMap fun f => W.times f d).Pairwise (· < ·))
    (hmesh : (W.mesh f0).getD c.mesh = "flat" ∨ (W.mesh f0).getD c.mesh = "spherical")
    (var nc : String) (hv : var ∉ ["lon", "lat", "depth", "time"]) :
    ∃ s u, fromNetcdf W c [(var, nc)] = some s ∧ chooseUnit ((W.mesh f0).getD c.mesh) var = some u ∧
      s.view var = some { name := var, nc := nc, coords := xy, depth := z, mesh := (W.mesh f0).getD c.mesh, times := fs.flatMap (fun f => W.times f d), dims := d, inds := i, unit := u, extrap := c.extrap.getD false, periodic := none, interp := im, source := fs.flatMap (fun f => List.replicate (W.times f d).length f) } := by
  simp only [List.mem_cons, List.not_mem_nil, or_false, not_or] at hv
  obtain ⟨u, hu⟩ : ∃ u, chooseUnit ((W.mesh f0).getD c.mesh) var = some u := by
    unfold chooseUnit
    rcases hmesh with h | h
    · exact ⟨.none, by rw [h]; rfl⟩
    · rw [h]
      simp only
      split_ifs with h1
      · exact ⟨_, rfl⟩
      · rw [not_or] at h1
        cases hl : ([("U", Unit'.geographicPolar), ("V", .geographic), ("Kh_zonal", .geographicPolarSquare), ("Kh_meridional", .geographicSquare)] : List (String × Unit')).lookup var with
        | none => exact absurd (by rw [hl]; rfl) h1.2
        | some u => exact ⟨u, rfl⟩
  have hst : stampsOf c = none := by
    unfold stampsOf dimInArg
    rw [hd]
    simp [ht]
  have hnn : d.time.isNone = false := by cases hdt : d.time <;> simp_all
  have hto : timesOf W none d fs = fs.map fun f => W.times f d := by
    unfold timesOf
    refine List.map_congr_left fun f _ => ?_
    unfold fileTimes
    rw [hnn]
    rfl
  have hflat : (timesOf W none d fs).flatten = fs.flatMap fun f => W.times f d := by rw [hto, List.flatMap_def]
  have hcol : collect W none d fs = some (fs.flatMap (fun f => W.times f d), fs.flatMap fun f => List.replicate (W.times f d).length f) := by
    unfold collect
    simp only
    rw [hflat, if_pos]
    · rw [hto]
      congr 2
      clear h0 hf hinc hne hto hflat
      induction fs with
      | nil => rfl
      | cons f rest ih =>
        simp only [List.map_cons, List.zip_cons_cons, List.flatMap_cons]
        rw [ih]
    · refine ⟨hne, ?_⟩
      rw [List.all_eq_true]
      intro k hk
      rw [List.mem_range] at hk
      rw [decide_eq_true_iff, List.getD_eq_getElem _ _ (by omega), List.getD_eq_getElem _ _ (by omega)]
      exact List.pairwise_iff_getElem.mp hinc _ _ _ _ (by omega)
  have hsum : ((List.map List.length (timesOf W none d fs)).take fs.length).sum = (fs.flatMap fun f => W.times f d).length := by
    rw [hto, List.take_of_length_le (by simp), List.length_flatMap, List.map_map]
    rfl
  have hdim : dimsOf (.all d) var = some d := by
    unfold dimsOf
    simp [hv]
  have hind : indsOf (.all i) var = some i := by
    unfold indsOf
    simp [hv]
  have hparts : parts none (.list fs) d = some ⟨fs, f0, d.depth.map fun _ => f0⟩ := by
    unfold parts check
    simp [h0]
  have hdep : depthOf W ⟨fs, f0, d.depth.map fun _ => f0⟩ d i = some z := by
    unfold depthOf
    rcases hz with ⟨h1, h2⟩ | ⟨h1, z', h2, h3⟩
    · rw [h1, h2]; rfl
    · obtain ⟨q, hq⟩ := Option.isSome_iff_exists.mp h1
      simp only [hq, Option.map_some, h3, h2]
  have hfin : ∃ q, finish c var nc d i .none im (List.map List.length (timesOf W none d fs)) (fs.flatMap fun f => List.replicate (W.times f d).length f) 0
      [mkGrid W c none ⟨fs, f0, d.depth.map fun _ => f0⟩ d xy z (fs.flatMap fun f => W.times f d)] = some q ∧
      (⟨[q.1], q.2⟩ : Result C).view var = some { name := var, nc := nc, coords := xy, depth := z, mesh := (W.mesh f0).getD c.mesh, times := fs.flatMap (fun f => W.times f d), dims := d, inds := i, unit := u, extrap := c.extrap.getD false, periodic := none, interp := im, source := fs.flatMap (fun f => List.replicate (W.times f d).length f) } := by
    unfold finish
    simp only [List.getElem?_cons_zero, Option.bind_some]
    rw [check, if_pos (Or.inr (by exact hsum))]
    simp only [Option.bind_some]
    rw [check, if_pos (by intro h; simp [mkGrid] at h)]
    simp only [Option.bind_some, unitOf, mkGrid, hu, axisOf, hp, hnn]
    refine ⟨_, rfl, ?_⟩
    unfold Result.view
    simp
  obtain ⟨q, hq, hview⟩ := hfin
  refine ⟨⟨[q.1], q.2⟩, u, ?_, hu, hview⟩
  unfold fromNetcdf loopVars loopVars oneVar
  rw [hft, hf, hd, hi]
  simp only [nextType, pathsOf, Option.bind_some, hdim, hind, scan, fieldFromNetcdf, hst, hparts, interpOf, hm, hxy, hdep]
  rw [check, if_pos (by right; left; exact ht)]
  simp only [Option.bind_some, hcol]
  have e : ([] : List (Gr C)).length = 0 := rfl
  rw [e, List.nil_append, hq]
  rfl

end Parcels.FromNetcdf
