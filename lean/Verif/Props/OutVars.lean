import Verif.Proofs.OutVars

/-!
C81: the variables in the output file.
-/

namespace Parcels.OutVars

variable {V : Type}

theorem mem_varNames {h : Heap} {vars : List Nat} {n : String} : n ∈ varNames h vars ↔ ∃ a ∈ vars, (h a).status = .yes ∧ n = (h a).name := by
  simp only [varNames, List.mem_map, List.mem_filter, decide_eq_true_eq]
  constructor
  · rintro ⟨a, ⟨h1, h2⟩, h3⟩; exact ⟨a, h1, h2, h3.symm⟩
  · rintro ⟨a, h1, h2, h3⟩; exact ⟨a, ⟨h1, h2⟩, h3.symm⟩

theorem mem_varNamesOnce {h : Heap} {vars : List Nat} {n : String} : n ∈ varNamesOnce h vars ↔ ∃ a ∈ vars, (h a).status = .once ∧ n = (h a).name := by
  simp only [varNamesOnce, List.mem_map, List.mem_filter, decide_eq_true_eq]
  constructor
  · rintro ⟨a, ⟨h1, h2⟩, h3⟩; exact ⟨a, h1, h2, h3.symm⟩
  · rintro ⟨a, h1, h2, h3⟩; exact ⟨a, ⟨h1, h2⟩, h3.symm⟩

theorem close_spec (prec : NcType) (r32 : V → V) (data once : String → List (List V)) {names onces : List String} (h : Fine names onces) :
    ∃ file, close prec r32 data once names onces = some file ∧
      (∀ v ∈ names, file (outName v) = some ⟨true, outType prec v, some (store r32 (outType prec v) (data v))⟩) ∧
      (∀ v ∈ onces, file v = some ⟨false, .f4, some (store r32 .f4 (once v))⟩) ∧
      (∀ n, file n ≠ none → n = "time" ∨ (∃ v ∈ names, n = outName v) ∨ n ∈ onces) := by
  unfold close
  dsimp only
  set f0 : PFile V := { names := names, once := onces, atts := fun _ => .own, opened := false, file := fun _ => none } with hf0
  obtain ⟨v, vs, hvs⟩ : ∃ v vs, names = v :: vs := by
    cases hn : names with
    | nil => have := h.id; rw [hn] at this; cases this
    | cons v vs => exact ⟨v, vs, rfl⟩
  have hvm : v ∈ names := by rw [hvs]; exact List.mem_cons_self
  have nd := h.nd
  rw [hvs, List.nodup_cons] at nd
  obtain ⟨f1, e1, n1, o1, r1, w1, at1, ao1, fi1, fo1, only1⟩ := openFile_spec prec (f := f0) h (fun _ _ => rfl)
  have hN1 : f1.names = names := n1
  have hO1 : f1.once = onces := o1
  have e2 := assign_spec r32 (data v) (at1 v hvm) (fi1 v hvm)
  have eOne : exportOne prec r32 data f0 v = some (f1.put (outName v) ⟨true, outType prec v, some (store r32 (outType prec v) (data v))⟩) := by
    unfold exportOne
    rw [show readVar f0 data v = some (data v) from if_pos ⟨rfl, rfl, rfl⟩, Option.bind_some, if_neg (by simp [hf0]),
      if_pos (by rw [hf0, hvs]; rfl), e1, Option.bind_some]
    exact e2
  have hne : ∀ w ∈ vs, outName w ≠ outName v := by
    intro w hw e
    have := outName_inj h (by rw [hvs]; exact List.mem_cons_of_mem _ hw) hvm e
    subst this; exact nd.1 hw
  obtain ⟨f2, e3, n2, o2, p2, a2, f2v, f2o⟩ := exportRest prec r32 data vs
    (f := f1.put (outName v) ⟨true, outType prec v, some (store r32 (outType prec v) (data v))⟩)
    (by show Fine f1.names f1.once; rw [hN1, hO1]; exact h)
    (by
      intro w hw
      show w ∈ f1.names ∧ f1.names.head? ≠ some w
      rw [hN1, hvs]
      refine ⟨List.mem_cons_of_mem _ hw, ?_⟩
      rintro ⟨⟩
      exact nd.1 hw)
    nd.2 w1
    (by
      intro w hw
      exact at1 w (by rw [← n1]; exact hw))
    (by
      intro w hw
      show (if _ then _ else _) = _
      rw [if_neg (hne w hw)]
      exact fi1 w (by show w ∈ names; rw [hvs]; exact List.mem_cons_of_mem _ hw))
  rw [show exportLoop prec r32 data f0 names = some f2 by rw [hvs, exportLoop, eOne, Option.bind_some, e3], Option.bind_some]
  have a2' : f2.atts = f1.atts := a2
  have p2' : f2.opened = true := by rw [p2]; exact r1.2
  rw [a2', if_neg (by rw [w1 _ (by decide)]; simp), show f2.once = onces by rw [o2]; exact hO1]
  have keep : ∀ n, n ∉ names.map outName → f2.file n = f1.file n := by
    intro n hn
    rw [f2o]
    · show (if _ then _ else _) = _
      rw [if_neg]
      rintro rfl
      exact hn (List.mem_map_of_mem hvm)
    · intro w hw e
      exact hn (by rw [hvs, e]; exact List.mem_map_of_mem (List.mem_cons_of_mem _ hw))
  have onceNot : ∀ w ∈ onces, w ∉ names.map outName := by
    intro w hw hm
    obtain ⟨u, hu, e⟩ := List.mem_map.mp hm
    unfold outName at e
    split_ifs at e with c1 c2
    · subst e; exact (h.free "trajectory" (by decide)).2 hw
    · subst e; exact h.z.2 hw
    · subst e; exact h.disjoint u hu hw
  obtain ⟨f3, e4, p3, a3, f3v, f3o⟩ := onceRest r32 once onces (f := f2) h.ndOnce (by rw [a2']; exact w1)
    (by intro w hw; rw [a2']; exact ao1 w hw) (by intro w hw; rw [keep w (onceNot w hw)]; exact fo1 w hw)
  rw [e4, Option.bind_some, a3, a2', if_neg (by rw [r1.1, p3, p2']; simp), if_neg (by rw [w1 _ (by decide), w1 _ (by decide)]; simp)]
  refine ⟨f3.file, rfl, ?_, f3v, ?_⟩
  · intro w hw
    have hwO : outName w ∉ onces := fun hh => onceNot _ hh (List.mem_map_of_mem hw)
    rw [f3o _ hwO]
    rw [hvs] at hw
    rcases List.mem_cons.mp hw with rfl | hw
    · rw [f2o _ fun u hu e => hne u hu e.symm]
      exact if_pos rfl
    · exact f2v w hw
  · intro n hn
    by_cases hnO : n ∈ onces
    · exact Or.inr (Or.inr hnO)
    · rw [f3o n hnO] at hn
      by_cases hm : n ∈ names.map outName
      · obtain ⟨u, hu, e⟩ := List.mem_map.mp hm
        exact Or.inr (Or.inl ⟨u, hu, e.symm⟩)
      · rw [keep n hm] at hn
        exact only1 n hn

/-- C81: closing an output file gives a NetCDF file with the variables that were to be written when the `ParticleFile` was made, with the recorded values: the IDs as `trajectory`,
depth as `z`, time in double precision, coordinates in their precision and everything else in single precision. Hypotheses: the variables have different names, none called
`z`; IDs are written each time, and time is not a variable written once; no variable that is written has one of the reserved names. Missing: these cases (they fail, see below). -/
theorem C81_file_partial (prec : NcType) (r32 : V → V) (data once : String → List (List V)) (h : Heap) (vars : List Nat)
    (distinct : (vars.map fun a => (h a).name).Nodup) (hz : ∀ a ∈ vars, (h a).name ≠ "z")
    (hid : ∃ a ∈ vars, (h a).name = "id" ∧ (h a).status = .yes) (htime : ∀ a ∈ vars, (h a).name = "time" → (h a).status ≠ .once)
    (hfree : ∀ a ∈ vars, (h a).status ≠ .no → (h a).name ∉ reserved) :
    ∃ file, close prec r32 data once (varNames h vars) (varNamesOnce h vars) = some file ∧ Holds r32 prec data once (vars.map h) file := by
  have inj : ∀ a ∈ vars, ∀ b ∈ vars, (h a).name = (h b).name → a = b := fun a ha b hb e => List.inj_on_of_nodup_map distinct ha hb e
  have fine : Fine (varNames h vars) (varNamesOnce h vars) := by
    refine ⟨?_, ?_, ?_, ?_, ?_, ⟨?_, ?_⟩, ?_⟩
    · exact distinct.sublist ((List.filter_sublist).map _)
    · exact distinct.sublist ((List.filter_sublist).map _)
    · intro v hv hv'
      obtain ⟨a, ha, sa, na⟩ := mem_varNames.mp hv
      obtain ⟨b, hb, sb, nb⟩ := mem_varNamesOnce.mp hv'
      have := inj a ha b hb (na.symm.trans nb)
      subst this
      rw [sa] at sb; cases sb
    · obtain ⟨a, ha, na, sa⟩ := hid
      exact mem_varNames.mpr ⟨a, ha, sa, na.symm⟩
    · intro hm
      obtain ⟨a, ha, sa, na⟩ := mem_varNamesOnce.mp hm
      exact htime a ha na.symm sa
    · intro hm
      obtain ⟨a, ha, sa, na⟩ := mem_varNames.mp hm
      exact hz a ha na.symm
    · intro hm
      obtain ⟨a, ha, sa, na⟩ := mem_varNamesOnce.mp hm
      exact hz a ha na.symm
    · intro r hr
      constructor
      · intro hm
        obtain ⟨a, ha, sa, na⟩ := mem_varNames.mp hm
        exact hfree a ha (by rw [sa]; simp) (na ▸ hr)
      · intro hm
        obtain ⟨a, ha, sa, na⟩ := mem_varNamesOnce.mp hm
        exact hfree a ha (by rw [sa]; simp) (na ▸ hr)
  obtain ⟨file, e, h1, h2, h3⟩ := close_spec prec r32 data once fine
  refine ⟨file, e, ?_, ?_, ?_⟩
  · intro v hv hs
    obtain ⟨a, ha, rfl⟩ := List.mem_map.mp hv
    exact h1 _ (mem_varNames.mpr ⟨a, ha, hs, rfl⟩)
  · intro v hv hs
    obtain ⟨a, ha, rfl⟩ := List.mem_map.mp hv
    rw [h2 _ (mem_varNamesOnce.mpr ⟨a, ha, hs, rfl⟩), store, if_pos rfl]
  · intro n hn
    rcases h3 n hn with h | ⟨v, hv, e⟩ | hv
    · exact Or.inl h
    · obtain ⟨a, ha, sa, na⟩ := mem_varNames.mp hv
      exact Or.inr (Or.inl ⟨h a, List.mem_map_of_mem ha, sa, by rw [e, na]⟩)
    · obtain ⟨a, ha, sa, na⟩ := mem_varNamesOnce.mp hv
      exact Or.inr (Or.inr ⟨h a, List.mem_map_of_mem ha, sa, na⟩)

/-- The variables of a particle class with two variables of the user: `p` and `r`. -/
def someHeap (user : String) (us : Status) : Heap
  | 0 => ⟨"time", .yes⟩
  | 1 => ⟨"id", .yes⟩
  | 2 => ⟨"lon", .yes⟩
  | 3 => ⟨"lat", .yes⟩
  | 4 => ⟨"depth", .yes⟩
  | 5 => ⟨"state", .no⟩
  | _ => ⟨user, us⟩

/-- The hypotheses of `C81_file_partial` for such a class. -/
example : let h := someHeap "p" .once; let vars := [0, 1, 2, 3, 4, 5, 6]
    (vars.map fun a => (h a).name).Nodup ∧ (∀ a ∈ vars, (h a).name ≠ "z") ∧ (∃ a ∈ vars, (h a).name = "id" ∧ (h a).status = .yes) ∧
    (∀ a ∈ vars, (h a).name = "time" → (h a).status ≠ .once) ∧ (∀ a ∈ vars, (h a).status ≠ .no → (h a).name ∉ reserved) := by
  decide

/-- C81: changing the write status changes it for the named variable and for no other variable of the set, nor for variables the set does not have; an unknown
name is an error. -/
theorem C81_status (h : Heap) (vars : List Nat) (name : String) (st : Status) :
    (setStatus h vars name st = none ↔ ∀ a ∈ vars, (h a).name ≠ name) ∧
    ∀ h', setStatus h vars name st = some h' →
      (∀ a ∈ vars, (h' a).name = (h a).name ∧ (h' a).status = if (h a).name = name then st else (h a).status) ∧ ∀ a, a ∉ vars → h' a = h a := by
  unfold setStatus
  constructor
  · split_ifs with hc
    · simp only [false_iff, not_forall, reduceCtorEq]
      obtain ⟨a, ha, hn⟩ := List.any_eq_true.mp hc
      exact ⟨a, ha, not_not.mpr (of_decide_eq_true hn)⟩
    · simp only [true_iff]
      intro a ha hn
      exact hc (List.any_eq_true.mpr ⟨a, ha, decide_eq_true hn⟩)
  · intro h' e
    split_ifs at e with hc
    cases e
    refine ⟨?_, fun a ha => if_neg fun hh => ha hh.1⟩
    intro a ha
    dsimp only
    by_cases hn : (h a).name = name
    · rw [if_pos ⟨ha, hn⟩, if_pos hn]; exact ⟨rfl, rfl⟩
    · rw [if_neg (fun hh => hn hh.2), if_neg hn]; exact ⟨rfl, rfl⟩

/-- C81 fails between sets: the variables are objects of the class, so the status changes for every other set with the same variable (the built-in ones are shared by all
sets): files made afterwards for those sets do not have what was asked for. -/
theorem C81_status_shared_fails (h : Heap) (vars other : List Nat) (name : String) (st : Status) (a : Nat) (ha : a ∈ vars) (hb : a ∈ other)
    (distinct : (other.map fun a => (h a).name).Nodup) (hn : (h a).name = name) (hyes : (h a).status = .yes) (hst : st ≠ .yes) :
    ∃ h', setStatus h vars name st = some h' ∧ name ∈ varNames h other ∧ name ∉ varNames h' other := by
  refine ⟨_, if_pos (List.any_eq_true.mpr ⟨a, ha, decide_eq_true hn⟩), mem_varNames.mpr ⟨a, hb, hyes, hn.symm⟩, ?_⟩
  intro hm
  obtain ⟨b, hb', sb, nb⟩ := mem_varNames.mp hm
  by_cases hc : b ∈ vars ∧ (h b).name = name
  · rw [if_pos hc] at sb; exact hst sb
  · rw [if_neg hc] at nb
    have := List.inj_on_of_nodup_map distinct hb' hb (nb.symm.trans hn.symm)
    subst this
    exact hc ⟨ha, hn⟩

/-- The shared `lon` of two sets with different classes. -/
example : (varNames (someHeap "p" .yes) [0, 1, 2, 3, 4, 5]) = ["time", "id", "lon", "lat", "depth"] ∧
    ((setStatus (someHeap "p" .yes) [0, 1, 2, 3, 4, 5, 6] "lon" .no).map fun h => varNames h [0, 1, 2, 3, 4, 5]) =
      some ["time", "id", "lat", "depth"] := by decide

/-- C81 fails for variables named like something the export uses: closing the file raises an exception, whatever the data. -/
theorem C81_names_fails (prec : NcType) (r32 : V → V) (data once : String → List (List V)) :
    ∀ v ∈ ["dataset", "metadata", "maxid_written", "read_from_npy", "trajectory", "delete_tempwritedir", "tempwritedir_base"],
      close prec r32 data once (varNames (someHeap v .yes) [0, 1, 2, 3, 4, 5, 6]) (varNamesOnce (someHeap v .yes) [0, 1, 2, 3, 4, 5, 6]) = none := by
  intro v hv
  simp only [List.mem_cons, List.not_mem_nil, or_false] at hv
  rcases hv with rfl | rfl | rfl | rfl | rfl | rfl | rfl <;> rfl

/-- C81 fails if time is to be written once (two NetCDF variables with one name), or if no IDs are written: nothing can be written at all. -/
theorem C81_time_id_fails (prec : NcType) (r32 : V → V) (data once : String → List (List V)) (names onces : List String) (hid : "id" ∉ names) :
    close prec r32 data once ["id", "lon", "lat", "depth"] ["time"] = none ∧ writes names true = none := by
  constructor
  · rfl
  · simp [writes, hid]

/-- C81 fails for variables of the user with 64 bits: the file has their values in single precision only. -/
theorem C81_precision_fails (prec : NcType) (r32 : V → V) (data once : String → List (List V)) (x : V) (hx : r32 x ≠ x) (hd : data "p" = [[x]]) :
    ∃ file y, close prec r32 data once ["time", "id", "p"] [] = some file ∧ file "p" = some ⟨true, .f4, some [[y]]⟩ ∧ y ≠ x := by
  have fine : Fine ["time", "id", "p"] [] := ⟨by decide, by decide, by decide, by decide, by decide, by decide, by decide⟩
  obtain ⟨file, e, h1, -, -⟩ := close_spec prec r32 data once fine
  refine ⟨file, r32 x, e, ?_, hx⟩
  have := h1 "p" (by decide)
  rw [hd] at this
  exact this

/-- Single precision has 24 bits: the integer 2^24 + 1 is not kept. -/
example : ∃ r : Int → Int, r 16777217 ≠ 16777217 := ⟨fun n => n / 2 * 2, by decide⟩

end Parcels.OutVars
