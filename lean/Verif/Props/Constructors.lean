import Verif.Proofs.Constructors

/-!
C85: the constructors for the output of ocean models choose methods, indexing, units and signs as documented, read the files that are
meant, and leave the caller's arguments alone.
-/

namespace Parcels.Constructors
open Parcels.FromNetcdf Parcels.Scaling

variable {C : Type}

/-- The call of `from_netcdf` with the documented method for each variable. -/
def Source.plain (s : Source) (a : Args) (vars : List (String × String)) : Call :=
  { a.base with interp := .each (vars.map fun v => (v.1, s.method a.tracer v.1)) }

theorem c_methods (s : Source) (hs : s = .nemo ∨ s = .mitgcm) (t : String) (vars : List (String × String)) :
    cMethods t vars = vars.map fun v => (v.1, s.method t v.1) := by
  unfold cMethods
  refine List.map_congr_left fun v _ => ?_
  rcases hs with rfl | rfl <;> simp [Source.method]

theorem b_methods (s : Source) (hs : s ≠ .nemo ∧ s ≠ .mitgcm) (t : String) (vars : List (String × String)) :
    bMethods t vars = vars.map fun v => (v.1, s.method t v.1) := by
  unfold bMethods
  refine List.map_congr_left fun v _ => ?_
  cases s <;> simp_all [Source.method]

/-- The checks of the dimensions. -/
def SameDims (a : DimArg) : Prop := dimsDiffer a "U" "V" = false ∧ dimsDiffer a "U" "W" = false

theorem cgrid_spec {W : World C} {raw : String → Option ℚ} {a : Args} {vars : List (String × String)} {fs : FS C} :
    fromCGrid W raw a vars = some fs ↔ SameDims a.base.dims ∧ a.kwInterp = none ∧
      netcdfFS W raw a.base vars (.each (cMethods a.tracer vars)) (a.kwIndexing.getD "nemo") = some fs := by
  unfold fromCGrid SameDims
  cases dimsDiffer a.base.dims "U" "V" <;> cases dimsDiffer a.base.dims "U" "W" <;> cases a.kwInterp <;> simp

theorem bgrid_spec {W : World C} {raw : String → Option ℚ} {a : Args} {vars : List (String × String)} {fs : FS C} :
    fromBGrid W raw a vars = some fs ↔ SameDims a.base.dims ∧ a.kwInterp = none ∧
      netcdfFS W raw a.base vars (.each (bMethods a.tracer vars)) (a.kwIndexing.getD "nemo") = some fs := by
  unfold fromBGrid SameDims
  cases dimsDiffer a.base.dims "U" "V" <;> cases dimsDiffer a.base.dims "U" "W" <;> cases a.kwInterp <;> simp

theorem names_of {W : World C} {c : Call} {vars : List (String × String)} {r : Result C} (hn : (vars.map Prod.fst).Nodup)
    (h : fromNetcdf W c vars = some r) : (r.fields.map Fld.name).Nodup := by
  have e := (fromNetcdf_ok h).2
  have : r.fields.map Fld.name = vars.map Prod.fst := by rw [← e, List.map_map]; rfl
  rw [this]; exact hn

/-- What a constructor makes: the FieldSet of `from_netcdf`, scaled. -/
theorem make_scaled (s : Source) {W : World C} {raw : String → Option ℚ} {a : Args} {vars : List (String × String)} (hn : (vars.map Prod.fst).Nodup)
    {fs : FS C} (h : s.make W raw a vars = some fs) :
    SameDims a.base.dims ∧ a.kwInterp = none ∧ ∃ r q, fromNetcdf W (s.plain a vars) vars = some r ∧ Scaled raw r s.indexing q fs ∧
      (∀ v, q v ≠ some 0) ∧ ∀ v ∈ r.fields.map Fld.name, (q v).getD 1 = s.factor v := by
  cases s with
  | nemo =>
    simp only [Source.make, fromNemo] at h
    split_ifs at h with hk
    obtain ⟨f1, h1, h⟩ := Option.bind_eq_some_iff.mp h
    obtain ⟨hd, hi, h1⟩ := cgrid_spec.mp h1
    obtain ⟨r, hr, hs⟩ := scaled_init h1
    obtain ⟨f2, h2, hs2⟩ := scaled_step (names_of hn hr) hs (var := "W") rfl (-1)
    rw [h2] at h; injection h with h; subst h
    rw [c_methods .nemo (Or.inl rfl)] at hr
    refine ⟨hd, hi, r, _, hr, hs2, ?_, ?_⟩
    · intro v; by_cases e : v = "W" <;> simp [e]
    · intro v _; by_cases e : v = "W" <;> simp [e, Source.factor]
  | mitgcm =>
    simp only [Source.make, fromMitgcm] at h
    split_ifs at h with hk
    obtain ⟨hd, hi, h1⟩ := cgrid_spec.mp h
    obtain ⟨r, hr, hs⟩ := scaled_init h1
    rw [c_methods .mitgcm (Or.inr rfl)] at hr
    exact ⟨hd, hi, r, _, hr, hs, by simp, by simp [Source.factor]⟩
  | mom5 =>
    simp only [Source.make, fromMom5] at h
    split_ifs at h with hk
    obtain ⟨f1, h1, h⟩ := Option.bind_eq_some_iff.mp h
    obtain ⟨hd, hi, h1⟩ := bgrid_spec.mp h1
    obtain ⟨r, hr, hs⟩ := scaled_init h1
    obtain ⟨f2, h2, hs2⟩ := scaled_step (names_of hn hr) hs (var := "W") rfl (-1)
    rw [h2] at h; injection h with h; subst h
    rw [b_methods .mom5 (by simp)] at hr
    refine ⟨hd, hi, r, _, hr, hs2, ?_, ?_⟩
    · intro v; by_cases e : v = "W" <;> simp [e]
    · intro v _; by_cases e : v = "W" <;> simp [e, Source.factor]
  | popMetres =>
    simp only [Source.make, fromPop] at h
    split_ifs at h with hk
    obtain ⟨f1, h1, h⟩ := Option.bind_eq_some_iff.mp h
    obtain ⟨hd, hi, h1⟩ := bgrid_spec.mp h1
    obtain ⟨r, hr, hs⟩ := scaled_init h1
    have hnd := names_of hn hr
    obtain ⟨f2, h2, hs2⟩ := scaled_step hnd hs (var := "U") rfl (1 / 100)
    rw [h2, Option.bind_some] at h
    obtain ⟨f3, h3, hs3⟩ := scaled_step hnd hs2 (var := "V") (by simp) (1 / 100)
    rw [h3, Option.bind_some] at h
    rw [b_methods .popMetres (by simp)] at hr
    by_cases hW : hasField f3 "W" = true
    · rw [if_pos hW] at h
      obtain ⟨f4, h4, hs4⟩ := scaled_step hnd hs3 (var := "W") (by simp) (-1 / 100)
      rw [h4] at h; injection h with h; subst h
      refine ⟨hd, hi, r, _, hr, hs4, ?_, ?_⟩
      · intro v; by_cases e : v = "W" <;> by_cases e2 : v = "V" <;> by_cases e3 : v = "U" <;> simp [e, e2, e3]
      · intro v _
        by_cases e : v = "W" <;> by_cases e2 : v = "V" <;> by_cases e3 : v = "U" <;> simp [e, e2, e3, Source.factor]
    · rw [if_neg hW] at h
      injection h with h; subst h
      refine ⟨hd, hi, r, _, hr, hs3, ?_, ?_⟩
      · intro v; by_cases e2 : v = "V" <;> by_cases e3 : v = "U" <;> simp [e2, e3]
      · intro v hv
        have e : ¬ v = "W" := fun e => hW ((scaled_has hs3 "W").mpr (e ▸ hv))
        by_cases e2 : v = "V" <;> by_cases e3 : v = "U" <;> simp [e, e2, e3, Source.factor]
  | popCentimetres =>
    simp only [Source.make, fromPop] at h
    by_cases hk : a.kwIndexing.isSome = true
    · rw [if_pos hk] at h; simp at h
    rw [if_neg hk] at h
    obtain ⟨f1, h1, h⟩ := Option.bind_eq_some_iff.mp h
    obtain ⟨hd, hi, h1⟩ := bgrid_spec.mp h1
    obtain ⟨r, hr, hs⟩ := scaled_init h1
    have hnd := names_of hn hr
    obtain ⟨f2, h2, hs2⟩ := scaled_step hnd hs (var := "U") rfl (1 / 100)
    rw [h2, Option.bind_some] at h
    obtain ⟨f3, h3, hs3⟩ := scaled_step hnd hs2 (var := "V") (by simp) (1 / 100)
    rw [h3, Option.bind_some] at h
    rw [b_methods .popCentimetres (by simp)] at hr
    rw [if_neg (by decide : ¬ ("cm" : String) = "m"), if_pos trivial] at h
    by_cases hW : hasField f3 "W" = true
    · rw [if_pos hW] at h
      obtain ⟨f4, h4, hs4⟩ := scaled_step hnd hs3 (var := "W") (by simp) (-1)
      rw [h4] at h; injection h with h; subst h
      refine ⟨hd, hi, r, _, hr, hs4, ?_, ?_⟩
      · intro v; by_cases e : v = "W" <;> by_cases e2 : v = "V" <;> by_cases e3 : v = "U" <;> simp [e, e2, e3]
      · intro v _
        by_cases e : v = "W" <;> by_cases e2 : v = "V" <;> by_cases e3 : v = "U" <;> simp [e, e2, e3, Source.factor]
    · rw [if_neg hW] at h
      injection h with h; subst h
      refine ⟨hd, hi, r, _, hr, hs3, ?_, ?_⟩
      · intro v; by_cases e2 : v = "V" <;> by_cases e3 : v = "U" <;> simp [e2, e3]
      · intro v hv
        have e : ¬ v = "W" := fun e => hW ((scaled_has hs3 "W").mpr (e ▸ hv))
        by_cases e2 : v = "V" <;> by_cases e3 : v = "U" <;> simp [e, e2, e3, Source.factor]

/-- C85, for NEMO, MITgcm, POP and MOM5, whatever the files contain and whatever the other arguments are: the FieldSet is the one of
`from_netcdf`. Its fields have the documented indexing. The field of each variable has the method of the documentation: the one of
velocities on a C-grid (B-grid) for U, V and W, and `tracer_interp_method` for every other. Sampling reads the value of the file (0
for NaN) times the factor of the documentation, with deferred loading and without. -/
theorem C85_fields (s : Source) (W : World C) (raw : String → Option ℚ) (a : Args) (vars : List (String × String))
    (hn : (vars.map Prod.fst).Nodup) (fs : FS C) (h : s.make W raw a vars = some fs) :
    fromNetcdf W (s.plain a vars) vars = some fs.res ∧ fs.indexing = s.indexing ∧
    ∀ var nc, (var, nc) ∈ vars → ∃ f, fs.field var = some f ∧ f.name = var ∧ f.nc = nc ∧ f.interp = s.method a.tracer var ∧
      memory raw fs var = some (s.factor var * (raw var).getD 0) := by
  obtain ⟨_, _, r, q, hr, hs, hq0, hq⟩ := make_scaled s hn h
  obtain ⟨hok, hv⟩ := fromNetcdf_ok hr
  have hnd := names_of hn hr
  refine ⟨hs.1 ▸ hr, hs.2.1, ?_⟩
  intro var nc hvar
  rw [← hv] at hvar
  obtain ⟨f, hf, e⟩ := List.mem_map.mp hvar
  injection e with e1 e2
  subst e1 e2
  refine ⟨f, ?_, rfl, rfl, ?_, ?_⟩
  · unfold FS.field; rw [hs.1]; exact find_name hnd hf
  · have hi := (hok f hf).1
    simp only [Source.plain, interpOf] at hi
    rw [lookup_methods _ _ _ (by rw [← hv]; simpa using ⟨f, hf, rfl⟩)] at hi
    injection hi with hi; exact hi.symm
  · rw [scaled_memory hnd hs hq0 hok hf, hq _ (List.mem_map_of_mem hf)]

/-- C85: if there is a FieldSet, U and V have the same dimensions, and U and W. -/
theorem C85_dimensions (s : Source) (W : World C) (raw : String → Option ℚ) (a : Args) (vars : List (String × String))
    (hn : (vars.map Prod.fst).Nodup) (fs : FS C) (h : s.make W raw a vars = some fs) (u : Fld) (hu : fs.field "U" = some u) (v : String)
    (hv : v = "V" ∨ v = "W") (f : Fld) (hf : fs.field v = some f) : u.dims = f.dims := by
  obtain ⟨hd, _, r, q, hr, hs, _⟩ := make_scaled s hn h
  obtain ⟨hok, _⟩ := fromNetcdf_ok hr
  unfold FS.field at hu hf
  rw [hs.1] at hu hf
  have nu : u.name = "U" := by simpa using List.find?_some hu
  have nf : f.name = v := by simpa using List.find?_some hf
  have du := (hok u (List.mem_of_find?_eq_some hu)).2.1
  have df := (hok f (List.mem_of_find?_eq_some hf)).2.1
  rw [nu] at du
  rw [nf] at df
  have e : (s.plain a vars).dims = a.base.dims := rfl
  rw [e] at du df
  have hd' : dimsDiffer a.base.dims "U" v = false := by rcases hv with rfl | rfl; exacts [hd.1, hd.2]
  cases hda : a.base.dims with
  | all d =>
    rw [hda] at du df
    unfold dimsOf at du df
    simp only at du df
    split_ifs at du df
    injection du with du; injection df with df
    rw [← du, ← df]
  | each m =>
    rw [hda] at du df hd'
    simp only [dimsOf] at du df
    simp only [dimsDiffer, entry, du, df, decide_eq_false_iff_not, ne_eq, not_not] at hd'
    exact hd'

/-- C85: nothing else is refused. If `from_netcdf` with the documented methods makes a FieldSet, if dimensions are given once or are the
same for U, V and W, and if `interp_method` and `gridindexingtype` are not given, then the constructor makes one. -/
theorem C85_accepts (s : Source) (W : World C) (raw : String → Option ℚ) (a : Args) (vars : List (String × String))
    (hn : (vars.map Prod.fst).Nodup) (r : Result C) (h : fromNetcdf W (s.plain a vars) vars = some r)
    (hd : ∀ m, a.base.dims = .each m → ∀ v ∈ ["V", "W"], ∀ x y, m.lookup "U" = some x → m.lookup v = some y → x = y)
    (hi : a.kwInterp = none) (hg : a.kwIndexing = none) : ∃ fs, s.make W raw a vars = some fs := by
  have hsame : SameDims a.base.dims := by
    have key : ∀ v ∈ ["V", "W"], dimsDiffer a.base.dims "U" v = false := by
      intro v hv
      cases hda : a.base.dims with
      | all d => rfl
      | each m =>
        unfold dimsDiffer
        simp only [entry]
        cases h1 : m.lookup "U" with
        | none => rfl
        | some x =>
          cases h2 : m.lookup v with
          | none => rfl
          | some y => simpa using hd m hda v hv x y h1 h2
    exact ⟨key "V" (by simp), key "W" (by simp)⟩
  have hnd := names_of hn h
  have hnet : ∀ gi, ∃ f, netcdfFS W raw a.base vars (.each (vars.map fun v => (v.1, s.method a.tracer v.1))) gi = some f ∧
      Scaled raw r gi (fun _ => none) f := by
    intro gi
    have e : fromNetcdf W { a.base with interp := .each (vars.map fun v => (v.1, s.method a.tracer v.1)) } vars = some r := h
    refine ⟨_, by unfold netcdfFS; rw [e]; rfl, rfl, rfl, List.map_congr_left fun f _ => ?_⟩
    unfold initState
    split <;> simp
  cases s with
  | nemo =>
    simp only [Source.make, fromNemo, hg, Option.getD_none, ne_eq, not_true_eq_false, if_false]
    obtain ⟨f, hf, hs⟩ := hnet "nemo"
    have : fromCGrid W raw { a with kwIndexing := some "nemo" } vars = some f :=
      cgrid_spec.mpr ⟨hsame, hi, by rw [c_methods .nemo (Or.inl rfl)]; exact hf⟩
    rw [this, Option.bind_some]
    obtain ⟨f2, h2, _⟩ := scaled_step hnd hs (var := "W") rfl (-1)
    exact ⟨f2, h2⟩
  | mitgcm =>
    simp only [Source.make, fromMitgcm, hg, Option.getD_none, ne_eq, not_true_eq_false, if_false]
    obtain ⟨f, hf, hs⟩ := hnet "mitgcm"
    exact ⟨f, cgrid_spec.mpr ⟨hsame, hi, by rw [c_methods .mitgcm (Or.inr rfl)]; exact hf⟩⟩
  | mom5 =>
    simp only [Source.make, fromMom5, hg, Option.isSome_none, Bool.false_eq_true, if_false]
    obtain ⟨f, hf, hs⟩ := hnet "mom5"
    have : fromBGrid W raw { a with kwIndexing := some "mom5" } vars = some f :=
      bgrid_spec.mpr ⟨hsame, hi, by rw [b_methods .mom5 (by simp)]; exact hf⟩
    rw [this, Option.bind_some]
    obtain ⟨f2, h2, _⟩ := scaled_step hnd hs (var := "W") rfl (-1)
    exact ⟨f2, h2⟩
  | popMetres =>
    simp only [Source.make, fromPop, hg, Option.isSome_none, Bool.false_eq_true, if_false]
    obtain ⟨f, hf, hs⟩ := hnet "pop"
    have : fromBGrid W raw { a with kwIndexing := some "pop" } vars = some f :=
      bgrid_spec.mpr ⟨hsame, hi, by rw [b_methods .popMetres (by simp)]; exact hf⟩
    rw [this, Option.bind_some]
    obtain ⟨f2, h2, hs2⟩ := scaled_step hnd hs (var := "U") rfl (1 / 100)
    rw [h2, Option.bind_some]
    obtain ⟨f3, h3, hs3⟩ := scaled_step hnd hs2 (var := "V") (by simp) (1 / 100)
    rw [h3, Option.bind_some]
    obtain ⟨f4, h4, _⟩ := scaled_step hnd hs3 (var := "W") (by simp) (-1 / 100)
    by_cases hW : hasField f3 "W" = true
    · rw [if_pos hW, if_pos trivial]; exact ⟨f4, h4⟩
    · rw [if_neg hW]; exact ⟨f3, rfl⟩
  | popCentimetres =>
    simp only [Source.make, fromPop, hg, Option.isSome_none, Bool.false_eq_true, if_false]
    obtain ⟨f, hf, hs⟩ := hnet "pop"
    have : fromBGrid W raw { a with kwIndexing := some "pop" } vars = some f :=
      bgrid_spec.mpr ⟨hsame, hi, by rw [b_methods .popCentimetres (by simp)]; exact hf⟩
    rw [this, Option.bind_some]
    obtain ⟨f2, h2, hs2⟩ := scaled_step hnd hs (var := "U") rfl (1 / 100)
    rw [h2, Option.bind_some]
    obtain ⟨f3, h3, hs3⟩ := scaled_step hnd hs2 (var := "V") (by simp) (1 / 100)
    rw [h3, Option.bind_some]
    obtain ⟨f4, h4, _⟩ := scaled_step hnd hs3 (var := "W") (by simp) (-1)
    by_cases hW : hasField f3 "W" = true
    · rw [if_pos hW, if_neg (by decide), if_pos trivial]; exact ⟨f4, h4⟩
    · rw [if_neg hW]; exact ⟨f3, rfl⟩

/-- C85: a method or an indexing that contradicts the constructor is refused, not ignored; so is another unit of depths than 'm' or 'cm'
if there is a W. -/
theorem C85_refuses (s : Source) (W : World C) (raw : String → Option ℚ) (a : Args) (vars : List (String × String))
    (hn : (vars.map Prod.fst).Nodup) :
    (a.kwInterp.isSome = true → s.make W raw a vars = none) ∧
    (∀ gi, a.kwIndexing = some gi → gi ≠ s.indexing → s.make W raw a vars = none) ∧
    (∀ units, "W" ∈ vars.map Prod.fst → units ≠ "m" → units ≠ "cm" → fromPop W raw a units vars = none) := by
  refine ⟨?_, ?_, ?_⟩
  · intro hi
    rw [Option.eq_none_iff_forall_ne_some]
    intro fs h
    obtain ⟨_, h2, _⟩ := make_scaled s hn h
    rw [h2] at hi; simp at hi
  · intro gi hg hne
    cases s with
    | nemo => simp only [Source.make, fromNemo, hg, Option.getD_some]; exact if_pos hne
    | mitgcm => simp only [Source.make, fromMitgcm, hg, Option.getD_some]; exact if_pos hne
    | popMetres => simp [Source.make, fromPop, hg]
    | popCentimetres => simp [Source.make, fromPop, hg]
    | mom5 => simp [Source.make, fromMom5, hg]
  · intro units hW h1 h2
    rw [Option.eq_none_iff_forall_ne_some]
    intro fs h
    unfold fromPop at h
    split_ifs at h with hk
    obtain ⟨f1, e1, h⟩ := Option.bind_eq_some_iff.mp h
    obtain ⟨_, _, e1⟩ := bgrid_spec.mp e1
    obtain ⟨r, hr, hs⟩ := scaled_init e1
    have hnd := names_of hn hr
    obtain ⟨f2, e2, hs2⟩ := scaled_step hnd hs (var := "U") rfl (1 / 100)
    rw [e2, Option.bind_some] at h
    obtain ⟨f3, e3, hs3⟩ := scaled_step hnd hs2 (var := "V") (by simp) (1 / 100)
    rw [e3, Option.bind_some] at h
    have hn' : "W" ∈ r.fields.map Fld.name := by
      have e := (fromNetcdf_ok hr).2
      have : r.fields.map Fld.name = vars.map Prod.fst := by rw [← e, List.map_map]; rfl
      rw [this]; exact hW
    rw [if_pos ((scaled_has hs3 "W").mpr hn')] at h
    simp at h

/-! ### Examples of the constructors -/

/-- Two files with three times. -/
def exW : World String where
  coords f _ _ := some f
  depth f _ _ := some f
  times f _ := if f = "a0" then [0, 5] else [10]
  mesh _ := none

def exRaw (v : String) : Option ℚ := if v = "U" then some 30 else if v = "W" then some 7 else if v = "T" then some 4 else none

def exArgs (deferred : Bool) : Args where
  base := { files := .list ["a0", "a1"], dims := .all ⟨"x", "y", some "z", some "t"⟩, inds := .all ⟨none, none, none⟩, ftype := .none,
            mesh := "spherical", stamps := none, extrap := none, periodic := none, deferred := deferred, interp := .all "" }
  tracer := "cgrid_tracer"
  kwInterp := none
  kwIndexing := none

def exVs : List (String × String) := [("U", "uo"), ("V", "vo"), ("W", "wo"), ("T", "temp")]

/-- NEMO output, loaded later, and POP output, loaded directly. -/
example : (exVs.map Prod.fst).Nodup ∧
    ((Source.nemo.make exW exRaw (exArgs true) exVs).map fun fs => (fs.indexing, memory exRaw fs "W", memory exRaw fs "T")) =
      some ("nemo", some (-7), some 4) ∧
    ((Source.nemo.make exW exRaw (exArgs true) exVs).bind fun fs => (fs.field "T").map fun f => (f.interp, f.deferred)) = some ("cgrid_tracer", true) ∧
    ((Source.popMetres.make exW exRaw (exArgs false) exVs).map fun fs => (memory exRaw fs "U", memory exRaw fs "V", memory exRaw fs "W")) =
      some (some (3 / 10), some 0, some (-7 / 100)) ∧
    ((Source.popMetres.make exW exRaw (exArgs false) exVs).bind fun fs => (fs.field "W").map fun f => (f.interp, f.deferred)) =
      some ("bgrid_w_velocity", false) := by
  refine ⟨by decide, by decide +kernel, by decide +kernel, by decide +kernel, by decide +kernel⟩

/-- Different dimensions of U and W are refused. -/
example : (Source.mom5.make exW exRaw { exArgs true with base := { (exArgs true).base with
    dims := .each [("U", ⟨"x", "y", some "z", some "t"⟩), ("V", ⟨"x", "y", some "z", some "t"⟩), ("W", ⟨"x", "y", some "zw", some "t"⟩), ("T", ⟨"x", "y", some "z", some "t"⟩)] } } exVs).isNone := by
  decide +kernel

/-! ### Files -/

/-- C85: the files of each variable are those that its patterns match when the FieldSet is made. -/
theorem C85_files (D : Disk) (a a' : FArg) (vars : List String) (m : Dict Files) (h : resolveAll D vars a = some (m, a')) :
    m.map Prod.fst = vars ∧ ∀ v f, (v, f) ∈ m → ∃ p, a.given v = some p ∧ MeansFor D p f :=
  resolveAll_files vars h

/-- C85: `filenames` is not changed. Partial: there is no pattern in a dictionary with an entry for each dimension
(`C85_filenames_changed_fails`). -/
theorem C85_filenames_kept_partial (D : Disk) (a a' : FArg) (vars : List String) (m : Dict Files) (hp : ∀ w p, a.given w = some p → p.NoNestedPattern)
    (hd : ∀ d, a = .each d → (d.map Prod.fst).Nodup) (h : resolveAll D vars a = some (m, a')) : a' = a :=
  resolveAll_keep vars hp hd h

def exDisk (files : List String) : Disk where
  glob p := if p = "u*.nc" then files else [p]
  there _ := true

def exFiles : FArg := .each [("U", .byDim [("lon", .one "mesh.nc"), ("lat", .one "mesh.nc"), ("data", .one "u*.nc")]), ("V", .pats (.one "v.nc"))]

example : (∀ w p, (FArg.each [("U", .pats (.one "u*.nc")), ("V", .byDim [("data", .many ["v.nc"])])]).given w = some p → p.NoNestedPattern) ∧
    resolveAll (exDisk ["u1.nc", "u2.nc"]) ["U", "V"] (.each [("U", .pats (.one "u*.nc")), ("V", .byDim [("data", .many ["v.nc"])])]) =
      some ([("U", .list ["u1.nc", "u2.nc"]), ("V", .byDim [("data", ["v.nc"])])],
        .each [("U", .pats (.one "u*.nc")), ("V", .byDim [("data", .many ["v.nc"])])]) := by
  refine ⟨?_, by decide +kernel⟩
  intro w p h
  simp only [FArg.given, List.lookup] at h
  split at h
  · injection h with h; subst h; trivial
  · split at h
    · injection h with h; subst h
      intro e he
      simp only [List.mem_singleton] at he
      subst he; exact ⟨_, rfl⟩
    · simp at h

/-- C85 fails: `from_netcdf` (and every constructor that calls it) writes the files it found into the caller's `filenames`. Called again
with the same dictionary when there is one file more, it does not see that file, as it does if the dictionary is built anew. -/
theorem C85_filenames_changed_fails :
    ∃ m a', resolveAll (exDisk ["u1.nc", "u2.nc"]) ["U", "V"] exFiles = some (m, a') ∧ a' ≠ exFiles ∧
      ((resolveAll (exDisk ["u1.nc", "u2.nc", "u3.nc"]) ["U", "V"] a').map fun r => r.1.lookup "U") =
        some (some (.byDim [("lon", ["mesh.nc"]), ("lat", ["mesh.nc"]), ("data", ["u1.nc", "u2.nc"])])) ∧
      ((resolveAll (exDisk ["u1.nc", "u2.nc", "u3.nc"]) ["U", "V"] exFiles).map fun r => r.1.lookup "U") =
        some (some (.byDim [("lon", ["mesh.nc"]), ("lat", ["mesh.nc"]), ("data", ["u1.nc", "u2.nc", "u3.nc"])])) := by
  refine ⟨[("U", .byDim [("lon", ["mesh.nc"]), ("lat", ["mesh.nc"]), ("data", ["u1.nc", "u2.nc"])]), ("V", .list ["v.nc"])],
    .each [("U", .byDim [("lon", .many ["mesh.nc"]), ("lat", .many ["mesh.nc"]), ("data", .many ["u1.nc", "u2.nc"])]), ("V", .pats (.one "v.nc"))],
    by decide +kernel, by decide +kernel, by decide +kernel, by decide +kernel⟩

/-! ### Writing a FieldSet and reading it back -/

theorem lookup_notin {α : Type} {d : Dict α} {k : String} (h : k ∉ d.map Prod.fst) : d.lookup k = none := by
  induction d with
  | nil => rfl
  | cons e r ih =>
    simp only [List.map_cons, List.mem_cons, not_or] at h
    rw [List.lookup_cons]
    have : (k == e.1) = false := by simpa using h.1
    simp only [this]
    exact ih h.2

theorem lookup_same {α : Type} (f : String → α) (l : List String) (n : String) : (l.map fun n => (n, f n)).lookup n = if n ∈ l then some (f n) else none := by
  induction l with
  | nil => rfl
  | cons e r ih =>
    rw [List.map_cons, List.lookup_cons]
    by_cases h : n = e
    · subst h; simp
    · have : (n == e) = false := by simpa using h
      simp only [this]
      rw [ih]
      simp [h]

theorem lookup_append' {α : Type} (d e : Dict α) (n : String) : (d ++ e).lookup n = (d.lookup n).or (e.lookup n) := by
  induction d with
  | nil => simp
  | cons x r ih =>
    rw [List.cons_append, List.lookup_cons, List.lookup_cons]
    cases n == x.1 <;> simp [ih]

/-- C85: `FieldSet.from_parcels` looks for each field in the file, variable and coordinates that `FieldSet.write` used, for every list of
names of fields with U and V, if the other fields are asked for by name. -/
theorem C85_from_parcels_names (basename : String) (others : List String) (hU : "U" ∉ others) (hV : "V" ∉ others)
    (n : String) (hn : n ∈ "U" :: "V" :: others) :
    ∃ s, (fsWrite basename ("U" :: "V" :: others)).lookup n = some s ∧
      (parcelsAsks basename (others.map fun n => (n, n)) "vozocrtx" "vomecrty").lookup n = some s := by
  have hf : ("U" :: "V" :: others).filter (fun n => n ≠ "U" ∧ n ≠ "V") = others := by
    simp only [ne_eq, List.filter_cons]
    simp only [not_true_eq_false, false_and, decide_false, Bool.false_eq_true, if_false, and_false]
    rw [List.filter_eq_self]
    intro a ha
    simp only [decide_eq_true_eq]
    exact ⟨fun e => hU (e ▸ ha), fun e => hV (e ▸ ha)⟩
  have hw : fsWrite basename ("U" :: "V" :: others) = [("U", fieldWrite basename "U" (some "vozocrtx")), ("V", fieldWrite basename "V" (some "vomecrty"))] ++
      others.map fun n => (n, fieldWrite basename n none) := by
    unfold fsWrite
    rw [hf]
    simp
  have he : extraAfter (others.map fun n => (n, n)) "vozocrtx" "vomecrty" = (others.map fun n => (n, n)) ++ [("U", "vozocrtx"), ("V", "vomecrty")] := by
    have h1 : (others.map fun n => (n, n)).lookup "U" = none := lookup_notin (by simpa [List.map_map, Function.comp_def] using hU)
    have h2 : ((others.map fun n => (n, n)) ++ [("U", "vozocrtx")]).lookup "V" = none := lookup_notin (by simpa [List.map_map, Function.comp_def] using hV)
    unfold extraAfter update
    rw [h1]
    simp only [Option.isSome_none, Bool.false_eq_true, if_false]
    rw [h2]
    simp
  have ha : parcelsAsks basename (others.map fun n => (n, n)) "vozocrtx" "vomecrty" =
      (others.map fun n => (n, fieldWrite basename n none)) ++ [("U", fieldWrite basename "U" (some "vozocrtx")), ("V", fieldWrite basename "V" (some "vomecrty"))] := by
    unfold parcelsAsks
    rw [he]
    simp [fieldWrite, List.map_map, Function.comp_def]
  rw [hw, ha, lookup_append', lookup_append', lookup_same]
  rcases List.mem_cons.mp hn with rfl | hn
  · exact ⟨fieldWrite basename "U" (some "vozocrtx"), by simp [List.lookup_cons], by simp [hU]⟩
  · rcases List.mem_cons.mp hn with rfl | hn
    · exact ⟨fieldWrite basename "V" (some "vomecrty"), by simp [List.lookup_cons], by simp [hV, List.lookup_cons]⟩
    · have n1 : (n == "U") = false := by simpa using fun e : n = "U" => hU (e ▸ hn)
      have n2 : (n == "V") = false := by simpa using fun e : n = "V" => hV (e ▸ hn)
      exact ⟨fieldWrite basename n none, by simp [List.lookup_cons, n1, n2, hn], by simp [hn]⟩

example : (parcelsAsks "out" [("P", "P")] "vozocrtx" "vomecrty").lookup "P" = some ⟨"outP.nc", "P", "nav_lon", "nav_lat", "depthp", "time_counter"⟩ := by
  decide +kernel

/-- C85 fails: `from_parcels` writes U and V into the dictionary that the caller passed as `extra_fields`. -/
theorem C85_extra_fields_changed_fails :
    extraAfter [("P", "P")] "vozocrtx" "vomecrty" = [("P", "P"), ("U", "vozocrtx"), ("V", "vomecrty")] ∧
    extraAfter [("P", "P")] "vozocrtx" "vomecrty" ≠ [("P", "P")] := by
  refine ⟨by decide +kernel, by decide +kernel⟩

end Parcels.Constructors
