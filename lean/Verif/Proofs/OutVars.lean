import Verif.Spec.OutVars
import Mathlib.Data.List.Nodup
import Mathlib.Tactic.SplitIfs

/-!
Lemmas for C81.
-/

namespace Parcels.OutVars

variable {V : Type}

/-- The built-in names that `open_netcdf_file` treats apart. -/
def special : List String := ["time", "lat", "lon", "depth", "id"]

/-- `self.dataset` is an open NetCDF file. -/
def Ready (f : PFile V) : Prop := f.atts "dataset" = .own ∧ f.opened = true

theorem create_spec {f : PFile V} {attr name : String} {b : Bool} {t : NcType} (h : Ready f) (hn : f.file name = none) (ha : attr ≠ "dataset") :
    ∃ f', f.create attr name b t = some f' ∧ f'.names = f.names ∧ f'.once = f.once ∧ Ready f' ∧
      (∀ a, f'.atts a = if a = attr then .nc name else f.atts a) ∧
      (∀ n, f'.file n = if n = name then some ⟨b, t, none⟩ else f.file n) := by
  refine ⟨_, if_pos ⟨h.1, h.2, hn⟩, rfl, rfl, ⟨?_, h.2⟩, fun _ => rfl, fun _ => rfl⟩
  show (if "dataset" = attr then _ else _) = _
  rw [if_neg (Ne.symm ha)]; exact h.1

theorem createIf_spec {c : Prop} [Decidable c] {f : PFile V} {attr : String} {t : NcType} (h : Ready f) (hn : c → f.file attr = none)
    (ha : attr ≠ "dataset") :
    ∃ f', createIf c f attr t = some f' ∧ f'.names = f.names ∧ f'.once = f.once ∧ Ready f' ∧
      (∀ a, f'.atts a = if c ∧ a = attr then .nc attr else f.atts a) ∧
      (∀ n, f'.file n = if c ∧ n = attr then some ⟨true, t, none⟩ else f.file n) := by
  unfold createIf
  by_cases hc : c
  · obtain ⟨f', e, h1, h2, h3, h4, h5⟩ := create_spec (b := true) (t := t) h (hn hc) ha
    refine ⟨f', by rw [if_pos hc, e], h1, h2, h3, ?_, ?_⟩
    · intro a; rw [h4]; simp [hc]
    · intro n; rw [h5]; simp [hc]
  · exact ⟨f, if_neg hc, rfl, rfl, h, fun a => by simp [hc], fun n => by simp [hc]⟩

theorem createObs_spec (vs : List String) : ∀ {f : PFile V}, Ready f → vs.Nodup → "dataset" ∉ vs → (∀ v ∈ vs, v ∉ special → f.file v = none) →
    ∃ f', createObs f vs = some f' ∧ f'.names = f.names ∧ f'.once = f.once ∧ Ready f' ∧
      (∀ a, f'.atts a = if a ∈ vs ∧ a ∉ special then .nc a else f.atts a) ∧
      (∀ n, f'.file n = if n ∈ vs ∧ n ∉ special then some ⟨true, .f4, none⟩ else f.file n) := by
  induction vs with
  | nil => intro f h _ _ _; exact ⟨f, rfl, rfl, rfl, h, fun a => by simp, fun n => by simp⟩
  | cons v vs ih =>
    intro f h nd hd hf
    rw [List.nodup_cons] at nd
    rw [List.mem_cons, not_or] at hd
    by_cases hv : v ∈ special
    · obtain ⟨f', e, h1, h2, h3, h4, h5⟩ := ih h nd.2 hd.2 fun w hw => hf w (List.mem_cons_of_mem _ hw)
      refine ⟨f', by rw [createObs, if_pos (show v ∈ ["time", "lat", "lon", "depth", "id"] from hv), e], h1, h2, h3, ?_, ?_⟩
      · intro a; rw [h4]
        by_cases ha : a = v
        · subst ha; simp [hv]
        · simp [ha]
      · intro a; rw [h5]
        by_cases ha : a = v
        · subst ha; simp [hv]
        · simp [ha]
    · obtain ⟨g, e, g1, g2, g3, g4, g5⟩ := create_spec (b := true) (t := .f4) h (hf v List.mem_cons_self hv) (Ne.symm hd.1)
      obtain ⟨f', e', h1, h2, h3, h4, h5⟩ := ih g3 nd.2 hd.2 (by
        intro w hw hs
        rw [g5, if_neg (by rintro rfl; exact nd.1 hw)]
        exact hf w (List.mem_cons_of_mem _ hw) hs)
      refine ⟨f', by rw [createObs, if_neg (show ¬ v ∈ ["time", "lat", "lon", "depth", "id"] from hv), e, Option.bind_some, e'],
        h1.trans g1, h2.trans g2, h3, ?_, ?_⟩
      · intro a; rw [h4, g4]
        by_cases ha : a = v
        · subst ha; simp [hv]
        · simp [ha]
      · intro a; rw [h5, g5]
        by_cases ha : a = v
        · subst ha; simp [hv]
        · simp [ha]

theorem createOnce_spec (vs : List String) : ∀ {f : PFile V}, Ready f → vs.Nodup → "dataset" ∉ vs → (∀ v ∈ vs, f.file v = none) →
    ∃ f', createOnce f vs = some f' ∧ f'.names = f.names ∧ f'.once = f.once ∧ Ready f' ∧
      (∀ a, f'.atts a = if a ∈ vs then .nc a else f.atts a) ∧
      (∀ n, f'.file n = if n ∈ vs then some ⟨false, .f4, none⟩ else f.file n) := by
  induction vs with
  | nil => intro f h _ _ _; exact ⟨f, rfl, rfl, rfl, h, fun a => by simp, fun n => by simp⟩
  | cons v vs ih =>
    intro f h nd hd hf
    rw [List.nodup_cons] at nd
    rw [List.mem_cons, not_or] at hd
    obtain ⟨g, e, g1, g2, g3, g4, g5⟩ := create_spec (b := false) (t := .f4) h (hf v List.mem_cons_self) (Ne.symm hd.1)
    obtain ⟨f', e', h1, h2, h3, h4, h5⟩ := ih g3 nd.2 hd.2 (by
      intro w hw
      rw [g5, if_neg (by rintro rfl; exact nd.1 hw)]
      exact hf w (List.mem_cons_of_mem _ hw))
    refine ⟨f', by rw [createOnce, e, Option.bind_some, e'], h1.trans g1, h2.trans g2, h3, ?_, ?_⟩
    · intro a; rw [h4, g4]
      by_cases ha : a = v
      · subst ha; simp
      · simp [ha]
    · intro a; rw [h5, g5]
      by_cases ha : a = v
      · subst ha; simp
      · simp [ha]

/-- The names a class may write. -/
structure Fine (names onces : List String) : Prop where
  nd : names.Nodup
  ndOnce : onces.Nodup
  disjoint : ∀ v ∈ names, v ∉ onces
  id : "id" ∈ names
  time : "time" ∉ onces
  z : "z" ∉ names ∧ "z" ∉ onces
  free : ∀ v ∈ reserved, v ∉ names ∧ v ∉ onces

/-- The attribute through which the values of a variable are assigned. -/
def attr (v : String) : String := if v = "depth" then "z" else v

theorem openFile_spec (prec : NcType) {f : PFile V} (h : Fine f.names f.once) (hown : ∀ r ∈ reserved, f.atts r = .own) :
    ∃ f', openFile prec f = some f' ∧ f'.names = f.names ∧ f'.once = f.once ∧ Ready f' ∧ (∀ r ∈ reserved, f'.atts r = .own) ∧
      (∀ v ∈ f.names, f'.atts (attr v) = .nc (outName v)) ∧ (∀ v ∈ f.once, f'.atts v = .nc v) ∧
      (∀ v ∈ f.names, f'.file (outName v) = some ⟨true, outType prec v, none⟩) ∧ (∀ v ∈ f.once, f'.file v = some ⟨false, .f4, none⟩) ∧
      (∀ n, f'.file n ≠ none → n = "time" ∨ (∃ v ∈ f.names, n = outName v) ∨ n ∈ f.once) := by
  unfold openFile
  dsimp only
  set f0 : PFile V := { f with atts := fun a => if a = "dataset" then .own else f.atts a, opened := true, file := fun _ => none } with hf0
  have r0 : Ready f0 := ⟨by rw [hf0]; simp, rfl⟩
  obtain ⟨f1, e1, n1, o1, r1, a1, v1⟩ := create_spec (attr := "id") (name := "trajectory") (b := true) (t := .i8) r0 rfl (by decide)
  rw [e1, Option.bind_some]
  obtain ⟨f2, e2, n2, o2, r2, a2, v2⟩ := create_spec (attr := "time") (name := "time") (b := true) (t := .f8) r1
    (by rw [v1]; rfl) (by decide)
  rw [e2, Option.bind_some]
  obtain ⟨f3, e3, n3, o3, r3, a3, v3⟩ := createIf_spec (c := "lat" ∈ f2.names) (attr := "lat") (t := prec) r2
    (by intro _; rw [v2, v1]; rfl) (by decide)
  rw [e3, Option.bind_some]
  obtain ⟨f4, e4, n4, o4, r4, a4, v4⟩ := createIf_spec (c := "lon" ∈ f3.names) (attr := "lon") (t := prec) r3
    (by intro _; rw [v3, v2, v1]; simp; rfl) (by decide)
  rw [e4, Option.bind_some]
  obtain ⟨f5, e5, n5, o5, r5, a5, v5⟩ := createIf_spec (c := "depth" ∈ f4.names ∨ "z" ∈ f4.names) (attr := "z") (t := prec) r4
    (by intro _; rw [v4, v3, v2, v1]; simp; rfl) (by decide)
  rw [e5, Option.bind_some]
  have hN2 : f2.names = f.names := n2.trans n1
  have hN3 : f3.names = f.names := n3.trans hN2
  have hN4 : f4.names = f.names := n4.trans hN3
  have hN : f5.names = f.names := n5.trans hN4
  have hO : f5.once = f.once := by rw [o5, o4, o3, o2, o1]
  have ds := h.free "dataset" (by decide)
  rw [hN]
  have file5 : ∀ n, f5.file n = if ("depth" ∈ f.names) ∧ n = "z" then some ⟨true, prec, none⟩ else if "lon" ∈ f.names ∧ n = "lon" then some ⟨true, prec, none⟩
      else if "lat" ∈ f.names ∧ n = "lat" then some ⟨true, prec, none⟩ else if n = "time" then some ⟨true, .f8, none⟩
      else if n = "trajectory" then some ⟨true, .i8, none⟩ else none := by
    intro n
    rw [v5, v4, v3, v2, v1, hN4, hN3, hN2]
    simp only [h.z.1, or_false]
    rfl
  have atts5 : ∀ a, a ≠ "dataset" → f5.atts a = if ("depth" ∈ f.names) ∧ a = "z" then .nc "z" else if "lon" ∈ f.names ∧ a = "lon" then .nc "lon"
      else if "lat" ∈ f.names ∧ a = "lat" then .nc "lat" else if a = "time" then .nc "time" else if a = "id" then .nc "trajectory" else f.atts a := by
    intro a ha
    rw [a5, a4, a3, a2, a1, hN4, hN3, hN2]
    simp only [h.z.1, or_false]
    rw [show f0.atts a = f.atts a from if_neg ha]
  have tr := h.free "trajectory" (by decide)
  have hdis := h.disjoint
  obtain ⟨f6, e6, n6, o6, r6, a6, v6⟩ := createObs_spec f.names r5 h.nd ds.1 (by
    intro v hv hs
    rw [file5]
    have h1 : v ≠ "z" := by rintro rfl; exact h.z.1 hv
    have h2 : v ≠ "trajectory" := by rintro rfl; exact tr.1 hv
    simp only [special, List.mem_cons, List.not_mem_nil, or_false, not_or] at hs
    obtain ⟨s1, s2, s3, s4, s5⟩ := hs
    simp [h1, h2, s1, s2, s3])
  rw [e6, Option.bind_some]
  have rn : ∀ r ∈ reserved, f6.atts r = .own := by
    intro r hr
    rw [a6, if_neg (fun hh => (h.free r hr).1 hh.1)]
    by_cases hd : r = "dataset"
    · rw [hd]; exact r5.1
    · rw [atts5 r hd]
      simp only [reserved, List.mem_cons, List.not_mem_nil, or_false] at hr
      rcases hr with rfl | rfl | rfl | rfl | rfl | rfl | rfl | rfl | rfl | rfl <;> simp <;> apply hown <;> decide
  rw [if_neg (by rw [rn _ (by decide)]; simp), o6, hO]
  obtain ⟨f7, e7, n7, o7, r7, a7, v7⟩ := createOnce_spec f.once r6 h.ndOnce ds.2 (by
    intro v hv
    have hn : v ∉ f.names := fun hh => hdis v hh hv
    rw [v6, if_neg (fun hh => hn hh.1), file5]
    have h1 : v ≠ "z" := by rintro rfl; exact h.z.2 hv
    have h2 : v ≠ "trajectory" := by rintro rfl; exact tr.2 hv
    have h3 : v ≠ "time" := by rintro rfl; exact h.time hv
    have h4 : ¬ ("lon" ∈ f.names ∧ v = "lon") := by rintro ⟨hl, rfl⟩; exact hn hl
    have h5 : ¬ ("lat" ∈ f.names ∧ v = "lat") := by rintro ⟨hl, rfl⟩; exact hn hl
    simp [h1, h2, h3, h4, h5])
  rw [e7, Option.bind_some]
  have rn7 : ∀ r ∈ reserved, f7.atts r = .own := by
    intro r hr; rw [a7, if_neg (h.free r hr).2]; exact rn r hr
  rw [if_neg (by rw [rn7 _ (by decide)]; simp)]
  refine ⟨f7, rfl, by rw [n7, n6, hN], by rw [o7, o6, hO], r7, rn7, ?_, ?_, ?_, ?_, ?_⟩
  · intro v hv
    have hvO := hdis v hv
    have hvd : v ≠ "dataset" := by rintro rfl; exact ds.1 hv
    have hvz : v ≠ "z" := by rintro rfl; exact h.z.1 hv
    unfold attr outName
    by_cases hd : v = "depth"
    · subst hd
      rw [if_pos rfl, if_neg (by decide), a7, if_neg h.z.2, a6, if_neg (fun hh => h.z.1 hh.1), atts5 _ (by decide), if_pos ⟨hv, rfl⟩]
    · rw [if_neg hd, a7, if_neg hvO, a6]
      by_cases hs : v ∈ special
      · rw [if_neg (fun hh => hh.2 hs), atts5 v hvd]
        simp only [special, List.mem_cons, List.not_mem_nil, or_false] at hs
        rcases hs with rfl | rfl | rfl | rfl | rfl <;> first | exact absurd rfl hd | simp [hv]
      · have : v ≠ "id" := by rintro rfl; exact hs (by decide)
        rw [if_pos ⟨hv, hs⟩, if_neg this]
  · intro v hv; rw [a7, if_pos hv]
  · intro v hv
    have hvO := hdis v hv
    have hvz : v ≠ "z" := by rintro rfl; exact h.z.1 hv
    unfold outName outType
    by_cases hd : v = "depth"
    · subst hd
      rw [if_neg (by decide), if_pos rfl, v7, if_neg h.z.2, v6, if_neg (fun hh => h.z.1 hh.1), file5, if_pos ⟨hv, rfl⟩,
        if_neg (by decide), if_neg (by decide), if_pos (by decide)]
    · by_cases hi : v = "id"
      · subst hi
        rw [if_pos rfl, if_pos rfl, v7, if_neg tr.2, v6, if_neg (fun hh => tr.1 hh.1), file5]
        simp
      · rw [if_neg hi, if_neg hd, if_neg hi, v7, if_neg hvO, v6]
        by_cases hs : v ∈ special
        · rw [if_neg (fun hh => hh.2 hs), file5]
          simp only [special, List.mem_cons, List.not_mem_nil, or_false] at hs
          rcases hs with rfl | rfl | rfl | rfl | rfl <;> first | exact absurd rfl hd | exact absurd rfl hi | simp [hv]
        · rw [if_pos ⟨hv, hs⟩]
          simp only [special, List.mem_cons, List.not_mem_nil, or_false, not_or] at hs
          obtain ⟨s1, s2, s3, s4, s5⟩ := hs
          simp [s1, s2, s3, s4]
  · intro v hv; rw [v7, if_pos hv]
  · intro n hn
    rw [v7] at hn
    by_cases hO' : n ∈ f.once
    · exact Or.inr (Or.inr hO')
    · rw [if_neg hO', v6] at hn
      by_cases hs : n ∈ f.names ∧ n ∉ special
      · refine Or.inr (Or.inl ⟨n, hs.1, ?_⟩)
        have : n ≠ "id" ∧ n ≠ "depth" := ⟨by rintro rfl; exact hs.2 (by decide), by rintro rfl; exact hs.2 (by decide)⟩
        rw [outName, if_neg this.1, if_neg this.2]
      · rw [if_neg hs, file5] at hn
        split_ifs at hn with c1 c2 c3 c4 c5
        · exact Or.inr (Or.inl ⟨"depth", c1.1, c1.2⟩)
        · exact Or.inr (Or.inl ⟨"lon", c2.1, c2.2⟩)
        · exact Or.inr (Or.inl ⟨"lat", c3.1, c3.2⟩)
        · exact Or.inl c4
        · exact Or.inr (Or.inl ⟨"id", h.id, c5⟩)
        · exact absurd rfl hn

/-- `f` with one NetCDF variable replaced. -/
def PFile.put (f : PFile V) (n : String) (x : NcVar V) : PFile V := { f with file := fun m => if m = n then some x else f.file m }

theorem assign_spec (r32 : V → V) {f : PFile V} {a n : String} {x : NcVar V} (d : List (List V)) (ha : f.atts a = .nc n) (hx : f.file n = some x) :
    f.assign r32 a d = some (f.put n { x with vals := some (store r32 x.type d) }) := by
  unfold PFile.assign
  rw [ha]
  dsimp only
  rw [hx, Option.map_some]; rfl

theorem outName_inj {names onces : List String} (h : Fine names onces) {v w : String} (hv : v ∈ names) (hw : w ∈ names) (e : outName v = outName w) : v = w := by
  have tr := (h.free "trajectory" (by decide)).1
  have z := h.z.1
  have v1 : v ≠ "trajectory" := by rintro rfl; exact tr hv
  have v2 : v ≠ "z" := by rintro rfl; exact z hv
  have w1 : w ≠ "trajectory" := by rintro rfl; exact tr hw
  have w2 : w ≠ "z" := by rintro rfl; exact z hw
  unfold outName at e
  split_ifs at e <;> simp_all

theorem exportRest (prec : NcType) (r32 : V → V) (data : String → List (List V)) (vs : List String) : ∀ {f : PFile V}, Fine f.names f.once →
    (∀ v ∈ vs, v ∈ f.names ∧ f.names.head? ≠ some v) → vs.Nodup → (∀ r ∈ reserved, f.atts r = .own) →
    (∀ v ∈ f.names, f.atts (attr v) = .nc (outName v)) →
    (∀ v ∈ vs, f.file (outName v) = some ⟨true, outType prec v, none⟩) →
    ∃ f', exportLoop prec r32 data f vs = some f' ∧ f'.names = f.names ∧ f'.once = f.once ∧ f'.opened = f.opened ∧ f'.atts = f.atts ∧
      (∀ v ∈ vs, f'.file (outName v) = some ⟨true, outType prec v, some (store r32 (outType prec v) (data v))⟩) ∧
      (∀ n, (∀ v ∈ vs, n ≠ outName v) → f'.file n = f.file n) := by
  induction vs with
  | nil => intro f _ _ _ _ _ _; exact ⟨f, rfl, rfl, rfl, rfl, rfl, by simp, by simp⟩
  | cons v vs ih =>
    intro f hF hh nd hown hat hfile
    rw [List.nodup_cons] at nd
    have hv := hh v List.mem_cons_self
    have hr : readVar f data v = some (data v) := if_pos ⟨hown _ (by decide), hown _ (by decide), hown _ (by decide)⟩
    have e1 : exportOne prec r32 data f v = some (f.put (outName v) ⟨true, outType prec v, some (store r32 (outType prec v) (data v))⟩) := by
      unfold exportOne
      rw [hr, Option.bind_some, if_neg (by rw [hown _ (by decide)]; simp), if_neg hv.2, Option.bind_some]
      exact assign_spec r32 (data v) (hat v hv.1) (hfile v List.mem_cons_self)
    obtain ⟨f', e, h1, h2, h3, h4, h5, h6⟩ := ih (f := (f.put (outName v) ⟨true, outType prec v, some (store r32 (outType prec v) (data v))⟩)) hF
      (fun w hw => hh w (List.mem_cons_of_mem _ hw)) nd.2 hown hat (by
        intro w hw
        have hne : outName w ≠ outName v := by
          intro e
          have := outName_inj hF (hh w (List.mem_cons_of_mem _ hw)).1 hv.1 e
          subst this; exact nd.1 hw
        show (if _ then _ else _) = _
        rw [if_neg hne]
        exact hfile w (List.mem_cons_of_mem _ hw))
    refine ⟨f', by rw [exportLoop, e1, Option.bind_some, e], h1, h2, h3, h4, ?_, ?_⟩
    · intro w hw
      rcases List.mem_cons.mp hw with rfl | hw
      · rw [h6]
        · exact if_pos rfl
        · intro u hu e
          have := outName_inj hF hv.1 (hh u (List.mem_cons_of_mem _ hu)).1 e
          subst this; exact nd.1 hu
      · exact h5 w hw
    · intro n hn
      rw [h6 n fun u hu => hn u (List.mem_cons_of_mem _ hu)]
      exact if_neg (hn v List.mem_cons_self)

theorem onceRest (r32 : V → V) (data : String → List (List V)) (vs : List String) : ∀ {f : PFile V}, vs.Nodup → (∀ r ∈ reserved, f.atts r = .own) →
    (∀ v ∈ vs, f.atts v = .nc v) → (∀ v ∈ vs, f.file v = some ⟨false, .f4, none⟩) →
    ∃ f', onceLoop r32 data f vs = some f' ∧ f'.opened = f.opened ∧ f'.atts = f.atts ∧
      (∀ v ∈ vs, f'.file v = some ⟨false, .f4, some (store r32 .f4 (data v))⟩) ∧ (∀ n, n ∉ vs → f'.file n = f.file n) := by
  induction vs with
  | nil => intro f _ _ _ _; exact ⟨f, rfl, rfl, rfl, by simp, by simp⟩
  | cons v vs ih =>
    intro f nd hown hat hfile
    rw [List.nodup_cons] at nd
    have hr : readOnce f data v = some (data v) := if_pos ⟨hown _ (by decide), hown _ (by decide)⟩
    have e1 := assign_spec r32 (data v) (hat v List.mem_cons_self) (hfile v List.mem_cons_self)
    obtain ⟨f', e, h3, h4, h5, h6⟩ := ih (f := (f.put v ⟨false, .f4, some (store r32 .f4 (data v))⟩)) nd.2 hown
      (fun w hw => hat w (List.mem_cons_of_mem _ hw)) (by
        intro w hw
        show (if _ then _ else _) = _
        rw [if_neg (by rintro rfl; exact nd.1 hw)]
        exact hfile w (List.mem_cons_of_mem _ hw))
    refine ⟨f', by rw [onceLoop, hr, Option.bind_some, e1, Option.bind_some, e], h3, h4, ?_, ?_⟩
    · intro w hw
      rcases List.mem_cons.mp hw with rfl | hw
      · rw [h6 _ nd.1]; exact if_pos rfl
      · exact h5 w hw
    · intro n hn
      rw [List.mem_cons, not_or] at hn
      rw [h6 n hn.2]; exact if_neg hn.1

end Parcels.OutVars
