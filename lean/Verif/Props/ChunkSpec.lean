import Verif.Proofs.ChunkSpec

/-!
C86: the block sizes given as `chunksize` are those with which the files of every field are opened.
-/

namespace Parcels.ChunkSpec

/-- C86: a file is opened with blocks of the requested size, or of the whole dimension if that is smaller, along every dimension of the field that
has an entry with a size larger than one and is in the file, and with no other blocks.

Partial: one file. An entry of size one is not passed on (`C86_size_one_fails`), and is taken out of the caller's dictionary
(`C86_argument_fails`), which other fields use (`C86_order_fails`). -/
theorem C86_sizes_partial (m : Maps) (p : Nat) (h h' : Heap) (f : File) (dims : List String) (id : Nat) (b : Option Blocks)
    (hok : openFile m p h f dims (.dict id) = .ok (h', b)) (hap : Apart m f dims (h id)) :
    ∃ b', b = some b' ∧ ∀ n v, b'.lookup n = some v ↔ ∃ d, Wanted m f dims (h id) d n v := by
  unfold openFile at hok
  dsimp only at hok
  by_cases he : (byDict m f dims (h id)).2.isEmpty = true
  · rw [if_pos he] at hok; exact absurd hok (by simp)
  · rw [if_neg he] at hok
    simp only [Except.ok.injEq, Prod.mk.injEq] at hok
    exact ⟨_, hok.2.symm, (byDict_spec m f dims (h id)).2.2.2.1 hap⟩

/-- C86: exactly which requests are refused: values of another type, dictionaries without an entry for the variable, and dictionaries that ask for no
blocks of this file. -/
theorem C86_refused (m : Maps) (p : Nat) (h : Heap) (f : File) (dims : List String) (r : Ref) (e : Err) :
    openFile m p h f dims r = .error e ↔
      (r = .other ∧ e = .attribute) ∨ (r = .nested ∧ e = .chunking) ∨
      (∃ id, r = .dict id ∧ e = .chunking ∧ ∀ d n v, ¬ Wanted m f dims (h id) d n v) := by
  cases r with
  | off => simp [openFile]
  | auto => simp [openFile]
  | other => simp [openFile, eq_comm]
  | nested => simp [openFile, eq_comm]
  | dict id =>
    have h5 := (byDict_spec m f dims (h id)).2.2.2.2.1
    unfold openFile
    dsimp only
    by_cases he : (byDict m f dims (h id)).2.isEmpty = true
    · rw [if_pos he]
      rw [List.isEmpty_iff] at he
      have := h5.mp he
      constructor
      · intro hx
        simp only [Except.error.injEq] at hx
        exact Or.inr (Or.inr ⟨id, rfl, hx.symm, this⟩)
      · rintro (⟨hx, _⟩ | ⟨hx, _⟩ | ⟨_, _, rfl, _⟩)
        · cases hx
        · cases hx
        · rfl
    · rw [if_neg he]
      rw [List.isEmpty_iff] at he
      constructor
      · intro hx; cases hx
      · rintro (⟨hx, _⟩ | ⟨hx, _⟩ | ⟨id', hx, _, hno⟩)
        · cases hx
        · cases hx
        · cases hx
          exact absurd (h5.mpr hno) he

/-- C86: what opening a file does to the dictionary of the caller: the entries that ask for blocks of this file stay, the other entries for the four
dimensions go, and no other dictionary changes. -/
theorem C86_argument_after (m : Maps) (p : Nat) (h h' : Heap) (f : File) (dims : List String) (id : Nat) (b : Option Blocks)
    (hok : openFile m p h f dims (.dict id) = .ok (h', b)) :
    (∀ j, j ≠ id → h' j = h j) ∧
    (∀ d, (∃ n v, Wanted m f dims (h id) d n v) → (h' id).lookup d = (h id).lookup d) ∧
    (∀ d, (d = "time" ∨ d = "depth" ∨ d = "lat" ∨ d = "lon") → (∀ n v, ¬ Wanted m f dims (h id) d n v) → (h' id).lookup d = none) := by
  unfold openFile at hok
  dsimp only at hok
  by_cases he : (byDict m f dims (h id)).2.isEmpty = true
  · rw [if_pos he] at hok; exact absurd hok (by simp)
  · rw [if_neg he] at hok
    simp only [Except.ok.injEq, Prod.mk.injEq] at hok
    obtain ⟨rfl, _⟩ := hok
    have hs := byDict_spec m f dims (h id)
    refine ⟨fun j hj => Function.update_of_ne hj _ _, ?_, ?_⟩
    · intro d hd; rw [Function.update_self]; exact hs.2.1 d hd
    · intro d h1 h2; rw [Function.update_self]; exact hs.2.2.1 d h1 h2

/-- A file with three dimensions of space and time. -/
def sample : File := [("time_counter", 30), ("depthu", 75), ("y", 200), ("x", 100)]

/-- A dictionary for it; the name given for the depth is not in the file. -/
def asked : Dict := [("time", "time_counter", 1), ("depth", "deptht", 25), ("lat", "y", 50), ("lon", "x", 128)]

example : (match openFile stdMaps 4096 (fun _ => asked) sample ["time", "depth", "lat", "lon"] (.dict 0) with
    | .ok (h, b) => (h 0, b)
    | .error _ => ([], none)) =
    ([("depth", "deptht", 25), ("lat", "y", 50), ("lon", "x", 128)], some [("x", 100), ("y", 50), ("depthu", 25)]) := by decide +kernel

example : Wanted stdMaps sample ["time", "depth", "lat", "lon"] asked "depth" "depthu" 25 := by
  refine ⟨by simp, by simp, "deptht", 25, 75, by decide, by decide, ⟨by decide, Or.inr ⟨by decide, ["depth"],
    ["depthv", "depthw", "depths", "deptht", "depthx", "depthy", "depthz", "z", "z_u", "z_v", "z_w",
    "d", "k", "w_dep", "w_deps", "Z", "Zp1", "Zl", "Zu", "level"], by decide, by decide⟩⟩, by decide⟩

theorem inDataset_usual (m : Maps) (f : File) (dims : List String) (d n : String) (len : Nat) (hd : d ∈ order)
    (hu : Usual m f dims d n len) : present (inDataset m f dims none d none).1 = true ∧ (inDataset m f dims none d none).2 = (n, len) := by
  obtain ⟨h1, h2, h3⟩ := hu
  have hi : inDataset m f dims none d none = (avail dims none d, n, len) := by
    simp only [inDataset, Option.bind_none]
    rw [find_usual m f d n len h2 h3]
    simp [h2]
  rw [hi]
  refine ⟨?_, rfl⟩
  rw [avail_present dims none d hd]
  simp [h1, whole]

theorem inDataset_unusual (m : Maps) (f : File) (dims : List String) (d : String) (hd : d ∈ order)
    (hu : ∀ n len, ¬ Usual m f dims d n len) : present (inDataset m f dims none d none).1 = false := by
  by_cases h1 : d ∈ dims
  · simp only [inDataset, Option.bind_none]
    cases hf : (m d).find? fun n => (f.lookup n).isSome with
    | none => rfl
    | some n =>
      exfalso
      rw [List.find?_eq_some_iff_append] at hf
      obtain ⟨hs, a, b, hm, hx⟩ := hf
      obtain ⟨len, hlen⟩ := Option.isSome_iff_exists.mp hs
      exact hu n len ⟨h1, hlen, a, b, hm, fun x hxa => by simpa using hx x hxa⟩
  · simp only [inDataset, Option.bind_none]
    have hp := avail_present dims none d hd
    simp only [h1, false_and, decide_false] at hp
    cases hf : (m d).find? fun n => (f.lookup n).isSome with
    | none => rfl
    | some n => exact hp

theorem usual_step (m : Maps) (f : File) (dims : List String) (d : String) (hd : d ∈ order) (g : Nat → Int) (b : Blocks) :
    (∀ n len, Usual m f dims d n len →
      (if present (inDataset m f dims none d none).1 then put b (inDataset m f dims none d none).2.1 (g (inDataset m f dims none d none).2.2)
        else b).lookup n = some (g len)) ∧
    (∀ n, (∀ len, ¬ Usual m f dims d n len) →
      (if present (inDataset m f dims none d none).1 then put b (inDataset m f dims none d none).2.1 (g (inDataset m f dims none d none).2.2)
        else b).lookup n = b.lookup n) := by
  constructor
  · intro n len hu
    obtain ⟨h1, h2⟩ := inDataset_usual m f dims d n len hd hu
    rw [if_pos h1, h2, put_lookup, if_pos rfl]
  · intro n hn
    by_cases hx : ∃ k len, Usual m f dims d k len
    · obtain ⟨k, len, hk⟩ := hx
      obtain ⟨h1, h2⟩ := inDataset_usual m f dims d k len hd hk
      rw [if_pos h1, h2, put_lookup, if_neg]
      rintro rfl
      exact hn len hk
    · rw [inDataset_unusual m f dims d hd (fun k len q => hx ⟨k, len, q⟩)]
      simp

/-- C86: `chunksize='auto'` is never refused and changes nothing of the caller. If no two dimensions of the field are the same in the file, time
comes in blocks of one, depth in one block, latitude and longitude, if both are found, in blocks of at most `p` points along each, and nothing
else is chunked. -/
theorem C86_auto (m : Maps) (p : Nat) (h : Heap) (f : File) (dims : List String)
    (hap : ∀ d d' n len len', Usual m f dims d n len → Usual m f dims d' n len' → d = d') :
    ∃ b, openFile m p h f dims .auto = .ok (h, some b) ∧
      (∀ n len, Usual m f dims "time" n len → b.lookup n = some (min 1 (len : Int))) ∧
      (∀ n len, Usual m f dims "depth" n len → b.lookup n = some (max 1 (len : Int))) ∧
      (∀ n len n' len', Usual m f dims "lat" n len → Usual m f dims "lon" n' len' →
        b.lookup n = some (min (len : Int) p) ∧ b.lookup n' = some (min (len' : Int) p)) ∧
      (∀ n v, b.lookup n = some v → ∃ d len, (d = "time" ∨ d = "depth" ∨ d = "lat" ∨ d = "lon") ∧ Usual m f dims d n len) := by
  refine ⟨_, rfl, ?_⟩
  have ho : "time" ∈ order ∧ "depth" ∈ order ∧ "lat" ∈ order ∧ "lon" ∈ order := by decide
  unfold byAuto
  dsimp only
  generalize hb : (if present (inDataset m f dims none "lat" none).1 = true ∧ present (inDataset m f dims none "lon" none).1 = true then
    put (put [] (inDataset m f dims none "lat" none).2.1 (min ((inDataset m f dims none "lat" none).2.2 : Int) p))
      (inDataset m f dims none "lon" none).2.1 (min ((inDataset m f dims none "lon" none).2.2 : Int) p) else ([] : Blocks)) = b
  have hb1 : ∀ n len n' len', Usual m f dims "lat" n len → Usual m f dims "lon" n' len' →
        b.lookup n = some (min (len : Int) p) ∧ b.lookup n' = some (min (len' : Int) p) := by
    intro n len n' len' h1 h2
    obtain ⟨a1, a2⟩ := inDataset_usual m f dims "lat" n len ho.2.2.1 h1
    obtain ⟨b1, b2⟩ := inDataset_usual m f dims "lon" n' len' ho.2.2.2 h2
    have hne : n ≠ n' := by
      rintro rfl
      have := hap _ _ _ _ _ h1 h2
      simp at this
    rw [if_pos ⟨a1, b1⟩, a2, b2] at hb
    subst hb
    simp [put_lookup, hne]
  have hb2 : ∀ n, (∀ len, ¬ Usual m f dims "lat" n len) → (∀ len, ¬ Usual m f dims "lon" n len) → b.lookup n = none := by
    intro n h1 h2
    by_cases hx : ∃ k len, Usual m f dims "lat" k len
    · obtain ⟨k, len, hk⟩ := hx
      obtain ⟨a1, a2⟩ := inDataset_usual m f dims "lat" k len ho.2.2.1 hk
      by_cases hy : ∃ k len, Usual m f dims "lon" k len
      · obtain ⟨k', len', hk'⟩ := hy
        obtain ⟨b1, b2⟩ := inDataset_usual m f dims "lon" k' len' ho.2.2.2 hk'
        rw [if_pos ⟨a1, b1⟩, a2, b2] at hb
        subst hb
        rw [put_lookup, if_neg (by rintro rfl; exact h2 _ hk'), put_lookup, if_neg (by rintro rfl; exact h1 _ hk)]
        rfl
      · rw [inDataset_unusual m f dims "lon" ho.2.2.2 (fun k len q => hy ⟨k, len, q⟩)] at hb
        simp at hb
        subst hb; rfl
    · rw [inDataset_unusual m f dims "lat" ho.2.2.1 (fun k len q => hx ⟨k, len, q⟩)] at hb
      simp at hb
      subst hb; rfl
  clear hb
  have t := usual_step m f dims "time" ho.1 (fun len => min 1 (len : Int)) b
  generalize (if present (inDataset m f dims none "time" none).1 = true then
    put b (inDataset m f dims none "time" none).2.1 (min 1 ((inDataset m f dims none "time" none).2.2 : Int)) else b) = bt at t
  have z := usual_step m f dims "depth" ho.2.1 (fun len => max 1 (len : Int)) bt
  generalize (if present (inDataset m f dims none "depth" none).1 = true then
    put bt (inDataset m f dims none "depth" none).2.1 (max 1 ((inDataset m f dims none "depth" none).2.2 : Int)) else bt) = bz at z
  have off : ∀ d d' n len, Usual m f dims d n len → d ≠ d' → ∀ len', ¬ Usual m f dims d' n len' :=
    fun d d' n len h1 hne len' h2 => hne (hap _ _ _ _ _ h1 h2)
  refine ⟨?_, fun n len hn => z.1 n len hn, ?_, ?_⟩
  · intro n len hn
    rw [z.2 n (off _ "depth" n len hn (by simp))]
    exact t.1 n len hn
  · intro n len n' len' h1 h2
    rw [z.2 n (off _ "depth" n len h1 (by simp)), z.2 n' (off _ "depth" n' len' h2 (by simp)),
      t.2 n (off _ "time" n len h1 (by simp)), t.2 n' (off _ "time" n' len' h2 (by simp))]
    exact hb1 n len n' len' h1 h2
  · intro n v hn
    by_contra hno
    have hq : ∀ d, (d = "time" ∨ d = "depth" ∨ d = "lat" ∨ d = "lon") → ∀ len, ¬ Usual m f dims d n len :=
      fun d hd len hu => hno ⟨d, len, hd, hu⟩
    rw [z.2 n (hq "depth" (by simp)), t.2 n (hq "time" (by simp)), hb2 n (hq "lat" (by simp)) (hq "lon" (by simp))] at hn
    simp at hn

example : (match openFile stdMaps 64 (fun _ => []) sample ["time", "depth", "lat", "lon"] .auto with
    | .ok (_, b) => b
    | .error _ => none) = some [("depthu", 75), ("time_counter", 1), ("x", 64), ("y", 64)] := by decide +kernel

/-! ### Several fields -/

theorem openFile_kept {m : Maps} {p : Nat} {h : Heap} {f : File} {dims : List String} {id : Nat} (hall : AllWanted m f dims (h id))
    (hsome : ∃ d n v, Wanted m f dims (h id) d n v) :
    openFile m p h f dims (.dict id) = .ok (h, some (byDict m f dims (h id)).2) := by
  have hs := byDict_spec m f dims (h id)
  unfold openFile
  dsimp only
  have : ¬ (byDict m f dims (h id)).2.isEmpty = true := by
    rw [List.isEmpty_iff]
    intro hx
    obtain ⟨d, n, v, hw⟩ := hsome
    exact hs.2.2.2.2.1.mp hx d n v hw
  rw [if_neg this, hs.2.2.2.2.2 hall, Function.update_eq_self]

theorem openFiles_kept {m : Maps} {p : Nat} {h : Heap} {dims : List String} {id : Nat} (fs : List File)
    (hall : ∀ f ∈ fs, AllWanted m f dims (h id)) (hsome : ∀ f ∈ fs, ∃ d n v, Wanted m f dims (h id) d n v) :
    openFiles m p dims (.dict id) fs h = .ok (h, fs.map fun f => some (byDict m f dims (h id)).2) := by
  induction fs with
  | nil => rfl
  | cons f fs ih =>
    unfold openFiles
    rw [openFile_kept (hall f (by simp)) (hsome f (by simp))]
    have := ih (fun f hf => hall f (by simp [hf])) (fun f hf => hsome f (by simp [hf]))
    simp only [bind, Except.bind, this, pure, Except.pure, List.map_cons]

theorem compareSizes_ok (h : Heap) (a : Nat) (c : Dict) (hk : ∀ e ∈ c, ((h a).lookup e.1).isSome) : ∃ t, compareSizes h (.dict a) c = .ok t := by
  induction c with
  | nil => exact ⟨true, rfl⟩
  | cons e es ih =>
    obtain ⟨d, nc, v⟩ := e
    obtain ⟨t, ht⟩ := ih (fun e he => hk e (by simp [he]))
    have := hk (d, nc, v) (by simp)
    obtain ⟨w, hw⟩ := Option.isSome_iff_exists.mp this
    unfold compareSizes
    simp only [hw, ht, bind, Except.bind, pure, Except.pure]
    exact ⟨_, rfl⟩

theorem lookup_of_mem (c : Dict) (e : String × String × Int) (he : e ∈ c) : (c.lookup e.1).isSome := by
  induction c with
  | nil => simp at he
  | cons x xs ih =>
    obtain ⟨k, y⟩ := x
    by_cases hk : e.1 = k
    · simp [List.lookup, hk]
    · rw [List.lookup, beq_eq_false_iff_ne.mpr hk]
      rcases List.mem_cons.mp he with rfl | he
      · exact absurd rfl hk
      · exact ih he

theorem sameChunks_ok (h : Heap) (a b : Nat) (hk : ∀ d, ((h a).lookup d).isSome = ((h b).lookup d).isSome) :
    ∃ t, sameChunks h (.dict a) (.dict b) = .ok t := by
  unfold sameChunks
  split_ifs
  · exact ⟨true, rfl⟩
  · exact compareSizes_ok h a (h b) (fun e he => by rw [hk]; exact lookup_of_mem _ e he)

theorem findGrid_ok (h : Heap) (r : Req) (done : List Req) (b : Nat) (hr : r.chunk = .dict b)
    (hq : ∀ q ∈ done, ∃ a, q.chunk = .dict a ∧ (q.dimensions = r.dimensions → ∀ d, ((h a).lookup d).isSome = ((h b).lookup d).isSome))
    (k : Nat) : ∃ x, findGrid h r done k = .ok x := by
  induction done generalizing k with
  | nil => exact ⟨none, rfl⟩
  | cons q qs ih =>
    have ih' := ih (fun q hq' => hq q (by simp [hq']))
    obtain ⟨a, ha, hk⟩ := hq q (by simp)
    unfold findGrid
    by_cases hd : q.dimensions = r.dimensions
    · rw [if_pos hd, ha, hr]
      obtain ⟨t, ht⟩ := sameChunks_ok h a b (hk hd)
      rw [ht]
      simp only [bind, Except.bind, pure, Except.pure]
      cases t with
      | false => exact ⟨none, rfl⟩
      | true =>
        by_cases h2 : r.dimensions.lookup "depth" = some "not_yet_set"
        · exact ⟨none, by simp [h2]⟩
        · by_cases h3 : q.paths = r.paths
          · exact ⟨some k, by simp [h2, h3]⟩
          · obtain ⟨x, hx⟩ := ih' (k + 1)
            exact ⟨x, by simp [h2, h3, hx]⟩
    · rw [if_neg hd]; exact ih' (k + 1)

theorem construct_ok {m : Maps} {p : Nat} {h : Heap} (rs done : List Req) (hkeys : SameKeys h (done ++ rs))
    (hdict : ∀ r ∈ done ++ rs, ∃ id, r.chunk = .dict id)
    (hall : ∀ r ∈ rs, ∀ id, r.chunk = .dict id → ∀ f ∈ r.files, AllWanted m f r.dims (h id) ∧ ∃ d n v, Wanted m f r.dims (h id) d n v) :
    ∃ bs, construct m p done rs h = .ok (h, bs) ∧ List.Forall₂ (fun r l => ∀ id, r.chunk = .dict id →
      l = if r.deferred then [] else r.files.map fun f => some (byDict m f r.dims (h id)).2) rs bs := by
  induction rs generalizing done with
  | nil => exact ⟨[], rfl, .nil⟩
  | cons r rs ih =>
    obtain ⟨id, hid⟩ := hdict r (by simp)
    obtain ⟨x, hx⟩ := findGrid_ok h r done id hid (fun q hq => by
      obtain ⟨a, ha⟩ := hdict q (by simp [hq])
      exact ⟨a, ha, fun hd => hkeys q (by simp [hq]) r (by simp) hd a id ha hid⟩) 0
    obtain ⟨bs, hbs, hf⟩ := ih (done ++ [r]) (by simpa using hkeys) (by simpa using hdict) (fun r' hr' => hall r' (by simp [hr']))
    have hw := hall r (by simp) id hid
    have ho : openFiles m p r.dims (.dict id) r.files h = _ := openFiles_kept r.files (fun f hf => (hw f hf).1) (fun f hf => (hw f hf).2)
    unfold construct
    rw [hx, hid, ho]
    cases hdef : r.deferred with
    | false =>
      refine ⟨(r.files.map fun f => some (byDict m f r.dims (h id)).2) :: bs, by simp [bind, Except.bind, hbs, pure, Except.pure], .cons ?_ hf⟩
      intro id' hid'
      rw [hid] at hid'
      cases hid'
      simp [hdef]
    | true =>
      refine ⟨[] :: bs, by simp [bind, Except.bind, hbs, pure, Except.pure], .cons ?_ hf⟩
      intro id' _
      simp [hdef]

theorem loadDeferred_ok {m : Maps} {p : Nat} {h : Heap} (rs : List Req) (hdict : ∀ r ∈ rs, ∃ id, r.chunk = .dict id)
    (hall : ∀ r ∈ rs, ∀ id, r.chunk = .dict id → ∀ f ∈ r.files, AllWanted m f r.dims (h id) ∧ ∃ d n v, Wanted m f r.dims (h id) d n v) :
    ∃ bs, loadDeferred m p rs h = .ok (h, bs) ∧ List.Forall₂ (fun r l => ∀ id, r.chunk = .dict id →
      l = if r.deferred then r.files.map fun f => some (byDict m f r.dims (h id)).2 else []) rs bs := by
  induction rs with
  | nil => exact ⟨[], rfl, .nil⟩
  | cons r rs ih =>
    obtain ⟨id, hid⟩ := hdict r (by simp)
    obtain ⟨bs, hbs, hf⟩ := ih (fun r' hr' => hdict r' (by simp [hr'])) (fun r' hr' => hall r' (by simp [hr']))
    have hw := hall r (by simp) id hid
    have ho : openFiles m p r.dims (.dict id) r.files h = _ := openFiles_kept r.files (fun f hf => (hw f hf).1) (fun f hf => (hw f hf).2)
    unfold loadDeferred
    rw [hid, ho]
    cases hdef : r.deferred with
    | true =>
      refine ⟨(r.files.map fun f => some (byDict m f r.dims (h id)).2) :: bs, by simp [bind, Except.bind, hbs, pure, Except.pure], .cons ?_ hf⟩
      intro id' hid'
      rw [hid] at hid'
      cases hid'
      simp [hdef]
    | false =>
      refine ⟨[] :: bs, by simp [bind, Except.bind, hbs, pure, Except.pure], .cons ?_ hf⟩
      intro id' _
      simp [hdef]

/-- C86: several fields, loaded at once or later, with one dictionary for all or one for each: loading succeeds, every file of every field is
opened with exactly the blocks its dictionary asks for, whatever the other fields are, and the caller's dictionaries are as they were.

Partial: every entry of a dictionary asks for blocks of every file it is used for (all sizes larger than one, all dimensions in all fields;
otherwise `C86_argument_fails`, `C86_order_fails`, `C86_per_variable_fails`), and fields with the same dimensions have entries for the same ones. -/
theorem C86_fields_partial (m : Maps) (p : Nat) (h : Heap) (rs : List Req) (hdict : ∀ r ∈ rs, ∃ id, r.chunk = .dict id) (hkeys : SameKeys h rs)
    (hall : ∀ r ∈ rs, ∀ id, r.chunk = .dict id → ∀ f ∈ r.files,
      AllWanted m f r.dims (h id) ∧ (∃ d n v, Wanted m f r.dims (h id) d n v) ∧ Apart m f r.dims (h id)) :
    ∃ bs, load m p rs h = .ok (h, bs) ∧
      List.Forall₂ (fun r l => ∀ id, r.chunk = .dict id →
        List.Forall₂ (fun f b => ∃ b', b = some b' ∧ ∀ n v, b'.lookup n = some v ↔ ∃ d, Wanted m f r.dims (h id) d n v) r.files l) rs bs := by
  have hall' : ∀ r ∈ rs, ∀ id, r.chunk = .dict id → ∀ f ∈ r.files, AllWanted m f r.dims (h id) ∧ ∃ d n v, Wanted m f r.dims (h id) d n v :=
    fun r hr id hid f hf => ⟨(hall r hr id hid f hf).1, (hall r hr id hid f hf).2.1⟩
  obtain ⟨as, ha, hfa⟩ := construct_ok (m := m) (p := p) rs [] (by simpa using hkeys) (by simpa using hdict) hall'
  obtain ⟨ls, hl, hfl⟩ := loadDeferred_ok (m := m) (p := p) rs hdict hall'
  refine ⟨List.zipWith (· ++ ·) as ls, ?_, ?_⟩
  · unfold load
    simp [bind, Except.bind, ha, hl, pure, Except.pure]
  · clear ha hl hall' hkeys
    induction rs generalizing as ls with
    | nil =>
      cases hfa; cases hfl
      exact .nil
    | cons r rs ih =>
      cases hfa with
      | cons ha hfa =>
      cases hfl with
      | cons hl hfl =>
      refine .cons ?_ (ih (fun r hr => hdict r (by simp [hr])) (fun r hr => hall r (by simp [hr])) _ hfa _ hfl)
      intro id hid
      rw [ha id hid, hl id hid]
      have hx : ((if r.deferred then [] else r.files.map fun f => some (byDict m f r.dims (h id)).2) ++
          (if r.deferred then r.files.map fun f => some (byDict m f r.dims (h id)).2 else [])) =
          r.files.map fun f => some (byDict m f r.dims (h id)).2 := by
        cases r.deferred <;> simp
      beta_reduce
      rw [hx]
      have hw := hall r (by simp) id hid
      clear hx ha hl ih hall
      generalize r.files = fs at hw
      induction fs with
      | nil => exact .nil
      | cons f fs ihf =>
        refine .cons ⟨_, rfl, (byDict_spec m f r.dims (h id)).2.2.2.1 (hw f (by simp)).2.2⟩ (ihf (fun f hf => hw f (by simp [hf])))

theorem mem_of_lookup (c : Dict) (d : String) (e : String × Int) (h : c.lookup d = some e) : (d, e) ∈ c := by
  induction c with
  | nil => simp at h
  | cons x xs ih =>
    obtain ⟨k, y⟩ := x
    by_cases hk : d = k
    · subst hk
      simp [List.lookup] at h
      simp [h]
    · rw [List.lookup, beq_eq_false_iff_ne.mpr hk] at h
      simp [ih h]

theorem compareSizes_true (h : Heap) (a : Nat) (c : Dict) (hc : compareSizes h (.dict a) c = .ok true) (e : String × String × Int) (he : e ∈ c) :
    ∃ nc, (h a).lookup e.1 = some (nc, e.2.2) := by
  induction c with
  | nil => simp at he
  | cons x xs ih =>
    obtain ⟨d, nc, v⟩ := x
    unfold compareSizes at hc
    dsimp only at hc
    cases hl : (h a).lookup d with
    | none => simp [hl] at hc
    | some w =>
      rw [hl] at hc
      obtain ⟨nc', w⟩ := w
      cases ht : compareSizes h (.dict a) xs with
      | error e => simp [ht, bind, Except.bind] at hc
      | ok t =>
        simp only [ht, bind, Except.bind, pure, Except.pure, Except.ok.injEq, Bool.and_eq_true, decide_eq_true_eq] at hc
        rcases List.mem_cons.mp he with rfl | he
        · exact ⟨nc', by rw [hl, hc.1]⟩
        · exact ih (by rw [ht, hc.2]) he

theorem sameChunks_true (h : Heap) (a b : Nat) (hc : sameChunks h (.dict a) (.dict b) = .ok true) (d nc : String) (v : Int)
    (hl : (h b).lookup d = some (nc, v)) : ∃ nc', (h a).lookup d = some (nc', v) := by
  unfold sameChunks at hc
  by_cases he : refEq h (.dict a) (.dict b) = true
  · simp only [refEq, dictEq, Bool.and_eq_true, List.all_eq_true] at he
    have := he.2 (d, nc, v) (mem_of_lookup _ _ _ hl)
    refine ⟨nc, ?_⟩
    rw [← hl]
    simpa using this
  · rw [if_neg he] at hc
    exact compareSizes_true h a (h b) hc (d, nc, v) (mem_of_lookup _ _ _ hl)

theorem findGrid_some (h : Heap) (r : Req) (done : List Req) (k j : Nat) (hf : findGrid h r done k = .ok (some j)) :
    k ≤ j ∧ ∃ q, done[j - k]? = some q ∧ q.dimensions = r.dimensions ∧ q.paths = r.paths ∧ r.chunk ≠ .auto ∧
      sameChunks h q.chunk r.chunk = .ok true := by
  induction done generalizing k with
  | nil => simp [findGrid] at hf
  | cons q qs ih =>
    have rest : findGrid h r qs (k + 1) = .ok (some j) → k ≤ j ∧ ∃ q', (q :: qs)[j - k]? = some q' ∧ q'.dimensions = r.dimensions ∧ q'.paths = r.paths ∧
        r.chunk ≠ .auto ∧ sameChunks h q'.chunk r.chunk = .ok true := by
      intro hx
      obtain ⟨h1, q', h2, h3⟩ := ih (k + 1) hx
      refine ⟨by omega, q', ?_, h3⟩
      have : j - k = (j - (k + 1)) + 1 := by omega
      rw [this, List.getElem?_cons_succ]; exact h2
    unfold findGrid at hf
    by_cases hd : q.dimensions = r.dimensions
    · rw [if_pos hd] at hf
      cases hs : sameChunks h q.chunk r.chunk with
      | error e => simp [hs, bind, Except.bind] at hf
      | ok t =>
        simp only [hs, bind, Except.bind, pure, Except.pure] at hf
        cases t with
        | false => simp at hf
        | true =>
          by_cases h1 : r.chunk = .auto
          · simp [h1] at hf
          · by_cases h2 : r.dimensions.lookup "depth" = some "not_yet_set"
            · simp [h1, h2] at hf
            · by_cases h3 : q.paths = r.paths
              · simp [h1, h2, h3] at hf
                subst hf
                exact ⟨le_refl _, q, by simp, hd, h3, h1, hs⟩
              · simp [h1, h2, h3] at hf
                exact rest hf
    · rw [if_neg hd] at hf
      exact rest hf

/-- C86: a field uses the grid of one constructed before only if it has the same dimensions and files and is not chunked automatically, and if both have
dictionaries, then only if the one before has the same size for every dimension for which this one has a size. -/
theorem C86_shared_grid (h : Heap) (r : Req) (done : List Req) (j : Nat) (hf : findGrid h r done 0 = .ok (some j)) :
    ∃ q, done[j]? = some q ∧ q.dimensions = r.dimensions ∧ q.paths = r.paths ∧ r.chunk ≠ .auto ∧
      ∀ a b, q.chunk = .dict a → r.chunk = .dict b → ∀ d nc v, (h b).lookup d = some (nc, v) → ∃ nc', (h a).lookup d = some (nc', v) := by
  obtain ⟨_, q, h1, h2, h3, h4, h5⟩ := findGrid_some h r done 0 j hf
  refine ⟨q, by simpa using h1, h2, h3, h4, ?_⟩
  intro a b ha hb d nc v hl
  rw [ha, hb] at h5
  exact sameChunks_true h a b h5 d nc v hl

/-- U, V on four dimensions, P at the surface. -/
def dims4 : List (String × String) := [("time", "time_counter"), ("depth", "depthu"), ("lat", "nav_lat"), ("lon", "nav_lon")]

/-- Without depth. -/
def dims3 : List (String × String) := [("time", "time_counter"), ("lat", "nav_lat"), ("lon", "nav_lon")]

/-- A field of four dimensions. -/
def reqU (r : Ref) (deferred : Bool) : Req := ⟨dims4, "U.nc", [sample], r, deferred⟩

/-- Another one on the same grid. -/
def reqV (r : Ref) (deferred : Bool) : Req := ⟨dims4, "V.nc", [sample], r, deferred⟩

/-- A field at the surface, from the same files. -/
def reqP (r : Ref) (deferred : Bool) : Req := ⟨dims3, "U.nc", [sample], r, deferred⟩

/-- The blocks after loading. -/
def blocks (rs : List Req) (c : Nat → Dict) : Option (List (List (Option Blocks))) :=
  match load stdMaps 4096 rs c with
  | .ok (_, b) => some b
  | .error _ => none

/-- The exception. -/
def failure (rs : List Req) (c : Nat → Dict) : Option Err :=
  match load stdMaps 4096 rs c with
  | .ok _ => none
  | .error e => some e

/-- The dictionaries 0 and 1 afterwards. -/
def after (rs : List Req) (c : Nat → Dict) : Option (Dict × Dict) :=
  match load stdMaps 4096 rs c with
  | .ok (h, _) => some (h 0, h 1)
  | .error _ => none

/-- All sizes larger than one: U and V with a dictionary each. -/
def two (k : Nat) : Dict := if k = 0 then [("depth", "depthu", 25), ("lat", "y", 50), ("lon", "x", 50)] else [("lat", "y", 50), ("depth", "depthu", 5), ("lon", "x", 20)]

example : blocks [reqU (.dict 0) true, reqV (.dict 1) false] two =
    some [[some [("x", 50), ("y", 50), ("depthu", 25)]], [some [("x", 20), ("y", 50), ("depthu", 5)]]] := by decide +kernel
example : after [reqU (.dict 0) true, reqV (.dict 1) false] two = some (two 0, two 1) := by decide +kernel

example : SameKeys two [reqU (.dict 0) true, reqV (.dict 1) false] := by
  have h1 : ∀ d, ((two 0).lookup d).isSome = ((two 1).lookup d).isSome := by
    intro d
    by_cases a : d = "depth"
    · subst a; decide
    · by_cases b : d = "lat"
      · subst b; decide
      · by_cases c : d = "lon"
        · subst c; decide
        · simp [two, List.lookup, beq_eq_false_iff_ne.mpr a, beq_eq_false_iff_ne.mpr b, beq_eq_false_iff_ne.mpr c]
  intro q hq r hr _ a b ha hb d
  simp only [List.mem_cons, List.not_mem_nil, or_false] at hq hr
  rcases hq with rfl | rfl <;> rcases hr with rfl | rfl <;> cases ha <;> cases hb
  · rfl
  · exact h1 d
  · exact (h1 d).symm
  · rfl

example : AllWanted stdMaps sample (dims4.map (·.1)) (two 0) := by
  rintro d e (rfl | rfl | rfl | rfl) he
  · exact absurd (show (two 0).lookup "time" = none by decide) (by rw [he]; simp)
  · exact ⟨"depthu", 25, by simp, by decide, "depthu", 25, 75, by decide, by decide, ⟨by decide, Or.inl rfl⟩, by decide⟩
  · exact ⟨"y", 50, by simp, by decide, "y", 50, 200, by decide, by decide, ⟨by decide, Or.inl rfl⟩, by decide⟩
  · exact ⟨"x", 50, by simp, by decide, "x", 50, 100, by decide, by decide, ⟨by decide, Or.inl rfl⟩, by decide⟩

example : (match findGrid two (reqU (.dict 1) true) [reqV (.dict 0) true, reqU (.dict 1) false] 0 with
    | .ok x => x
    | .error _ => none) = none := by decide +kernel
example : (match findGrid two (reqU (.dict 0) true) [reqV (.dict 0) true, reqU (.dict 0) false] 0 with
    | .ok x => x
    | .error _ => none) = some 1 := by decide +kernel

/-- C86: the dictionary of the caller is changed: entries of size one are gone afterwards. -/
theorem C86_argument_fails : after [reqU (.dict 0) true] (fun _ => asked) =
    some ([("depth", "deptht", 25), ("lat", "y", 50), ("lon", "x", 128)], asked) := by decide +kernel

/-- C86: with one dictionary for all fields, the blocks of U depend on whether a field without depth is loaded before it, and the dictionary loses its
entry for the depth. -/
theorem C86_order_fails (deferred : Bool) :
    blocks [reqU (.dict 0) deferred, reqP (.dict 0) deferred] (fun _ => asked) =
      some [[some [("x", 100), ("y", 50), ("depthu", 25)]], [some [("x", 100), ("y", 50)]]] ∧
    blocks [reqP (.dict 0) deferred, reqU (.dict 0) deferred] (fun _ => asked) =
      some [[some [("x", 100), ("y", 50)]], [some [("x", 100), ("y", 50)]]] := by
  cases deferred <;> refine ⟨?_, ?_⟩ <;> decide +kernel

/-- C86: equal dictionaries for U and V, with an entry of size one. Loading U takes the entry out of the dictionary of U, and the constructor fails for V
with a KeyError; with deferred loading it does not. -/
theorem C86_per_variable_fails :
    failure [reqU (.dict 0) false, reqV (.dict 1) false] (fun _ => asked) = some .key ∧
    failure [reqU (.dict 0) true, reqV (.dict 1) true] (fun _ => asked) = none := by decide +kernel

/-- C86: a request for blocks of one point in every dimension is an error. -/
theorem C86_size_one_fails : failure [reqU (.dict 0) true] (fun _ => [("time", "time_counter", 1), ("lat", "y", 1), ("lon", "x", 1)]) = some .chunking := by
  decide +kernel

/-- C86: chunks for U and none for V on the same dimensions is an error, as is 'auto' for one of them, in either order. -/
theorem C86_mixed_fails (deferred : Bool) (r : Ref) (hr : r = .off ∨ r = .auto) :
    failure [reqU (.dict 0) deferred, reqV r deferred] two = some .type ∧ failure [reqU r deferred, reqV (.dict 0) deferred] two = some .type := by
  rcases hr with rfl | rfl <;> cases deferred <;> decide +kernel

/-- C86: a variable without entry in a dictionary by variable is an error, whatever its file: it is not read without chunks. -/
theorem C86_missing_variable_fails (m : Maps) (p : Nat) (h : Heap) (f : File) (dims : List String) (vars : List (String × Ref)) (var : String)
    (hv : vars.lookup var = none) : openFile m p h f dims ((Arg.each vars).of var) = .error .chunking := by
  simp [Arg.of, hv, openFile]

/-- C86: the format that the documentation gives, {netCDF name: (parcels name, size)}, is refused for every file whose dimensions have other names. -/
theorem C86_documented_format_fails (m : Maps) (p : Nat) (h : Heap) (f : File) (dims : List String) (id : Nat)
    (hk : ∀ e ∈ h id, e.1 ≠ "time" ∧ e.1 ≠ "depth" ∧ e.1 ≠ "lat" ∧ e.1 ≠ "lon") :
    openFile m p h f dims (.dict id) = .error .chunking := by
  rw [C86_refused]
  refine Or.inr (Or.inr ⟨id, rfl, rfl, ?_⟩)
  rintro d n v ⟨hd, _, nc, s, len, hl, _⟩
  have : ∃ e ∈ h id, e.1 = d := by
    generalize h id = c at hl
    induction c with
    | nil => simp at hl
    | cons x xs ih =>
      obtain ⟨k, y⟩ := x
      by_cases hkd : d = k
      · exact ⟨(k, y), by simp, hkd.symm⟩
      · rw [List.lookup, beq_eq_false_iff_ne.mpr hkd] at hl
        obtain ⟨e, he, hed⟩ := ih hl
        exact ⟨e, by simp [he], hed⟩
  obtain ⟨e, he, rfl⟩ := this
  obtain ⟨h1, h2, h3, h4⟩ := hk e he
  rcases hd with hd | hd | hd | hd <;> contradiction

example : failure [reqU (.dict 0) true] (fun _ => [("y", "lat", 50), ("x", "lon", 50)]) = some .chunking := by decide +kernel

end Parcels.ChunkSpec
