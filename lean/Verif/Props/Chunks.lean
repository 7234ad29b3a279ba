import Verif.Proofs.ChunksExec

/-!
C47: chunked field access reads the right datum; C48: a particle waiting for a chunk is not lost.

Full C47: the value read for grid indices is the datum at those indices of the full field, for every chunk layout; an access
to a chunk that is not loaded requests it and repeats instead of reading. It is false for some layouts; witnesses are below.
Proved for the others (`Copes`, Spec/Chunks).

Full C48: chunk states follow not loaded → requested → loaded; a particle that needs a missing chunk is repeated after
loading without having moved. Proved, for layouts that the C code copes with, in the strong form that an execution with
chunks gives the same particles as one with all data in memory.
-/

namespace Parcels.Chunks

variable {α : Type}

/-- C47. In any layout the C code copes with, for any cell of the grid, in memory where `load` says so: either all chunks
that hold nodes of the cell are loaded and the data read are those of the full field, or a chunk that holds a node of the
cell was not loaded, it is requested, and REPEAT is returned. Nothing else happens to the load states, except that loaded
chunks are marked as touched. -/
theorem C47_reads_datum_partial {axes : List (List Nat)} (hc : Copes axes) {idx : List Nat} (hcell : IsCell axes idx)
    (d : Data α) (load : List Nat) (chunks : List (Option (List α))) (hm : InMemory axes d load chunks) (ti : Nat)
    (firstOnly : Bool) (ht : ti + (if firstOnly then 0 else 1) < d.tdim) :
    let o := getCell (chunkInfo axes) chunks load (idx.map fun (n : Nat) => (n : ℤ)) (ti : ℤ) firstOnly
    (∃ load', o = .ok load' (cellData axes d idx ti firstOnly) ∧ Touched load load' ∧
      ∀ n ∈ nodes axes idx, ∃ b s, Holds axes b n ∧ load[b]? = some s ∧ 2 ≤ s) ∨
    (∃ load' b n, o = .rep load' ∧ n ∈ nodes axes idx ∧ Holds axes b n ∧ Requested load load' b) :=
  getCell_right hc hcell d load chunks hm ti firstOnly ht

/-- C47 for everything that can happen to a grid before: the data read are those of the current snapshot. -/
theorem C47_history_partial {axes : List (List Nat)} (hc : Copes axes) {fs : List (Bool × Data α)} {s : Sys α}
    (h : Reach axes fs true s) {field : Nat} {f : FieldSt α} (hf : s.fields[field]? = some f) (hu : f.used = true) {idx : List Nat}
    (hcell : IsCell axes idx) (ti : Nat) (firstOnly : Bool) (ht : ti + (if firstOnly then 0 else 1) < f.data.tdim) :
    let o := evalField s ⟨field, idx.map fun (n : Nat) => (n : ℤ), (ti : ℤ), firstOnly⟩
    (∃ load', o = .ok load' (cellData axes f.data idx ti firstOnly) ∧ Touched s.load load' ∧
      ∀ n ∈ nodes axes idx, ∃ b x, Holds axes b n ∧ s.load[b]? = some x ∧ 2 ≤ x) ∨
    (∃ load' b n, o = .rep load' ∧ n ∈ nodes axes idx ∧ Holds axes b n ∧ Requested s.load load' b) := by
  have he : evalField s ⟨field, idx.map fun (n : Nat) => (n : ℤ), (ti : ℤ), firstOnly⟩ =
      getCell (chunkInfo axes) f.chunks s.load (idx.map fun (n : Nat) => (n : ℤ)) (ti : ℤ) firstOnly := by
    unfold evalField
    rw [hf, (reach_inv h).ax]
  rw [he]
  exact getCell_right hc hcell f.data s.load f.chunks (reach_inMemory h f (List.mem_of_getElem? hf) hu) ti firstOnly ht

/-- Every node of the grid is in exactly one chunk, and that is the one the C code finds. -/
theorem C47_one_chunk {axes : List (List Nat)} {idx : List Nat} (h : List.Forall₂ (fun (ax : List Nat) i => i < ax.sum) axes idx) :
    ∃ b : Nat, Holds axes b idx ∧ (∀ b', Holds axes b' idx → b' = b) ∧
      (getBlock (chunkInfo axes) (idx.map fun (n : Nat) => (n : ℤ))).id = b := by
  obtain ⟨b, bs, ls, h1, h2, h3, h4⟩ := locate h
  have hb := h1.holds b h2 h3
  exact ⟨b, hb, fun b' hb' => holds_unique hb' hb, by rw [h4]⟩

example : Holds [[2, 2, 1], [2, 1]] 5 [4, 2] ∧ (getBlock (chunkInfo [[2, 2, 1], [2, 1]]) [4, 2]).id = 5 := by
  obtain ⟨b, h1, _, h2⟩ := C47_one_chunk (axes := [[2, 2, 1], [2, 1]]) (idx := [4, 2])
    (.cons (by decide) (.cons (by decide) .nil))
  have h3 : (getBlock (chunkInfo [[2, 2, 1], [2, 1]]) [4, 2]).id = 5 := by decide +kernel
  have h4 : (b : ℤ) = 5 := h2.symm.trans h3
  have h5 : b = 5 := by exact_mod_cast h4
  exact ⟨h5 ▸ h1, h3⟩

/-! Examples -/

/-- A 2D field with 5 x 3 nodes in chunks of sizes 2, 2, 1 and 2, 1. -/
def exAxes : List (List Nat) := [[2, 2, 1], [2, 1]]
def exData : Data Nat := ⟨2, fun t n => 100 * t + 10 * n.headD 0 + n.getD 1 0⟩

example : Copes exAxes := ⟨by decide, by decide, by decide, .inl (by decide)⟩
example : IsCell exAxes [3, 1] := .cons (.inl (by decide)) (.cons (.inl (by decide)) .nil)

/-- All chunks loaded. -/
def exChunks : List (Option (List Nat)) := (List.range 6).map fun b => some (loadBlock exAxes exData b)

example : InMemory exAxes exData (List.replicate 6 3) exChunks :=
  ⟨rfl, rfl, fun b s h _ => by
    have hb : b < 6 := by
      by_contra hn
      rw [List.getElem?_eq_none (by simpa using hn)] at h
      cases h
    rw [exChunks, List.getElem?_map, List.getElem?_range hb]
    rfl⟩

/-- The cell with lowest node (3, 1) is on the four chunks 2, 3, 4 and 5. -/
example : getCell (chunkInfo exAxes) exChunks (List.replicate 6 3) [3, 1] 0 false =
    .ok [3, 3, 2, 2, 2, 2] [31, 32, 41, 42, 131, 132, 141, 142] := by decide +kernel
example : getCell (chunkInfo exAxes) exChunks [3, 3, 3, 3, 0, 3] [3, 1] 0 false = .rep [3, 3, 2, 2, 1, 3] := by decide +kernel

/-! ### Layouts for which C47 fails -/

/-- C47 fails: with chunks of a single depth level (here three levels, all in memory), the level below is not read: the C
code takes the upper level for it. -/
theorem C47_single_level_chunks_fails :
    let axes := [[1, 1, 1], [2], [2]]
    let d : Data Nat := ⟨1, fun _ n => n.headD 0⟩
    let chunks := (List.range 3).map fun b => some (loadBlock axes d b)
    InMemory axes d [3, 3, 3] chunks ∧ IsCell axes [0, 0, 0] ∧
    cellData axes d [0, 0, 0] 0 true = [0, 0, 0, 0, 1, 1, 1, 1] ∧
    getCell (chunkInfo axes) chunks [3, 3, 3] [0, 0, 0] 0 true = .ok [2, 3, 3] [0, 0, 0, 0, 0, 0, 0, 0] := by
  refine ⟨⟨rfl, rfl, fun b s h _ => ?_⟩, ?_, by decide +kernel, by decide +kernel⟩
  · have hb : b < 3 := by
      by_contra hn
      rw [List.getElem?_eq_none (by simpa using hn)] at h
      cases h
    rw [List.getElem?_map, List.getElem?_range hb]
    rfl
  · exact .cons (.inl (by decide)) (.cons (.inl (by decide)) (.cons (.inl (by decide)) .nil))

/-- C47 fails: where a grid has a single row but is split along the other axis, the C code reads outside the arrays. -/
theorem C47_single_row_fails :
    let axes := [[1], [2, 2]]
    let d : Data Nat := ⟨1, fun _ n => n.getD 1 0⟩
    let chunks := (List.range 2).map fun b => some (loadBlock axes d b)
    InMemory axes d [3, 3] chunks ∧ IsCell axes [0, 1] ∧
    getCell (chunkInfo axes) chunks [3, 3] [0, 1] 0 true = .undef := by
  refine ⟨⟨rfl, rfl, fun b s h _ => ?_⟩, ?_, by decide +kernel⟩
  · have hb : b < 2 := by
      by_contra hn
      rw [List.getElem?_eq_none (by simpa using hn)] at h
      cases h
    rw [List.getElem?_map, List.getElem?_range hb]
    rfl
  · exact .cons (.inr ⟨by decide, rfl⟩) (.cons (.inl (by decide)) .nil)

/-! ### C48: the load states -/

/-- C48. Until the next snapshot: a chunk that is not loaded (0) can only become requested (1), a requested one only loaded
and touched (2), and a loaded one (2, or 3: not touched in this execution) stays loaded. -/
theorem C48_states {s s' : Sys α} (h : Event s s') {b x y : Nat} (hx : s.load[b]? = some x) (hy : s'.load[b]? = some y) :
    (x = 0 → y = 0 ∨ y = 1) ∧ (x = 1 → y = 1 ∨ y = 2) ∧ (2 ≤ x → 2 ≤ y) := by
  cases h with
  | execute =>
    obtain ⟨z, hz, e⟩ := map_get hy
    rw [hx] at hz
    obtain rfl := Option.some.inj hz
    split at e <;> omega
  | call =>
    obtain ⟨z, hz, e⟩ := map_get hy
    rw [hx] at hz
    obtain rfl := Option.some.inj hz
    split at e <;> omega
  | ok he =>
    have := (evalField_moved s _ _ (by rw [he]; rfl)).2 b x y hx hy
    omega
  | rep he =>
    have := (evalField_moved s _ _ (by rw [he]; rfl)).2 b x y hx hy
    omega
  | use =>
    have : x = y := Option.some.inj (hx.symm.trans hy)
    omega

/-- C48. With a new snapshot, a chunk that was touched, or is requested, is to be loaded (again); the others are dropped. -/
theorem C48_states_snapshot {s : Sys α} {new : List (Data α)} {b x y : Nat} (hx : s.load[b]? = some x) (h3 : x ≤ 3)
    (hy : (snapshot new s).load[b]? = some y) : y = if x = 1 ∨ x = 2 then 1 else 0 := by
  obtain ⟨z, hz, e⟩ := map_get hy
  obtain ⟨z', hz', e'⟩ := map_get hz
  rw [hx] at hz'
  obtain rfl := Option.some.inj hz'
  split at e' <;> split at e <;> split <;> omega

/-- C48. A request is served: when the C code is called next, the chunk is loaded, with the current data, for each field of
the kernel; and only then is it marked as loaded. -/
theorem C48_request_served {axes : List (List Nat)} {fs : List (Bool × Data α)} {r : Bool} {s : Sys α} (h : Reach axes fs r s)
    {b : Nat} (hb : s.load[b]? = some 1) :
    (prepare s).load[b]? = some 2 ∧
    ∀ f ∈ (prepare s).fields, f.used = true → f.chunks[b]? = some (some (loadBlock axes f.data b)) := by
  have h2 : (prepare s).load[b]? = some 2 := by
    unfold prepare
    simp only [List.getElem?_map, hb]
    rfl
  refine ⟨h2, fun f hf hu => ?_⟩
  exact (reach_inMemory (.call h) f hf hu).data b 2 h2 (le_refl _)

/-- C48. Nothing stale: whatever happened, when the C code runs, a chunk that counts as loaded holds the current data. -/
theorem C48_current {axes : List (List Nat)} {fs : List (Bool × Data α)} {s : Sys α} (h : Reach axes fs true s)
    {f : FieldSt α} (hf : f ∈ s.fields) (hu : f.used = true) {b x : Nat} (hb : s.load[b]? = some x) (h2 : 2 ≤ x) :
    f.chunks[b]? = some (some (loadBlock axes f.data b)) :=
  (reach_inMemory h f hf hu).data b x hb h2

end Parcels.Chunks

namespace Parcels.JitExec

open KernelLoop (Particle Kern KOut KRes Call)
open Recovery
open Chunks (Sys Data Copes Reach prepare markOld)

variable {α V : Type}

/-- C48. A kernel call that meets a missing chunk returns REPEAT and leaves a request; otherwise it does what it would do with
all data in memory. -/
theorem C48_repeat_or_run {axes : List (List Nat)} (hc : Copes axes) {fs0 fs : List (Bool × Data α)} {s : Sys α}
    (hs : Reach axes fs0 true s) (hfs : s.fields.map (fun f => (f.used, f.data)) = fs) {G : Particle V → Prog α V}
    {P : Particle V → KOut V} (hG : ∀ p, Ideal axes fs p (G p) (P p)) (p : Particle V) :
    (kern G s p).2 = P p ∨ ((kern G s p).2.res = .ret (some .repeat) ∧ ∃ b : Nat, (kern G s p).1.load[b]? = some 1) := by
  rcases (chunk_answers hc hG).res s p ⟨Chunks.reach_inv hs, hfs⟩ with h | ⟨h1, h2⟩
  · exact .inl h
  · exact .inr ⟨h1.res, h2⟩

/-- C48. When the generated loop is told to repeat in a step, the particle keeps its time and its variables, and only the
state and the length of the step (which it had for this step anyway) are set. -/
theorem C48_not_moved {W : Type} (K : Kern W V) (E dt : ℚ) (s : JitLoop.JS W V)
    (h : (K s.w { s.p with dt := s.dtPos * JitLoop.csgn dt }).2.res = .ret (some .repeat)) :
    let p' := (JitLoop.step K E dt s).1.p
    p'.time = s.p.time ∧ p'.vars = s.p.vars ∧ p'.state = .repeat ∧ (JitLoop.step K E dt s).2 = true := by
  have hres : ∀ pre : Particle V, ∀ o : KOut V, o.res = .ret (some .repeat) → JitLoop.resolve pre o = .repeat := by
    intro pre o ho
    simp [JitLoop.resolve, JitLoop.code, ho]
  simp only [JitLoop.step]
  rw [hres _ _ h, if_neg (by simp)]
  exact ⟨rfl, rfl, rfl, rfl⟩

/-- C48. From any reachable state of a grid, executing a kernel that samples fields with chunks gives the same as executing
it with all data in memory: if the one ends normally, so does the other, with the same particles, and the same particles
removed (in an order that may differ). -/
theorem C48_same_as_in_memory {axes : List (List Nat)} (hc : Copes axes) {fs0 fs : List (Bool × Data α)} {r : Bool}
    {s : Sys α} (hs : Reach axes fs0 r s) (hfs : s.fields.map (fun f => (f.used, f.data)) = fs) {G : Particle V → Prog α V}
    {P : Particle V → KOut V} (hG : ∀ p, Ideal axes fs p (G p) (P p)) (hP : Tame P) {u : Plain V} (hu : TamePlain u) (E dt : ℚ)
    (ps : List (TP V)) (h0 : ∀ p ∈ ps, p.2.dt ≠ 0) (ps' : List (TP V)) :
    (∀ fuel n removed, execute (whole P) id id (lift u) E dt fuel n ((), none) ps = some (.normal, ps', removed) →
      ∃ fuel' n' removed', execute (kern G) markOld prepare (lift u) E dt fuel' n' (s, none) ps = some (.normal, ps', removed') ∧
        removed'.Perm removed) ∧
    (∀ fuel n removed, execute (kern G) markOld prepare (lift u) E dt fuel n (s, none) ps = some (.normal, ps', removed) →
      ∃ fuel' n' removed', execute (whole P) id id (lift u) E dt fuel' n' ((), none) ps = some (.normal, ps', removed') ∧
        removed'.Perm removed) := by
  have hstart : Running axes fs (prepare (markOld s)) :=
    running_prepare (Chunks.inv_markOld (Chunks.reach_inv hs)) hfs
  have hprep : ∀ w, Running axes fs w → Running axes fs (prepare w) := fun w h => running_prepare h.1 h.2
  constructor
  · intro fuel n removed h
    exact execute_same (whole_answers P) (chunk_answers hc hG) hP hu id id () trivial (fun _ _ => trivial) markOld prepare s hstart
      (fun w h => ⟨hprep w h, absent_prepare w⟩) fuel n ps ps' removed h0 h
  · intro fuel n removed h
    exact execute_same (chunk_answers hc hG) (whole_answers P) hP hu markOld prepare s hstart hprep id id () trivial
      (fun _ _ => ⟨trivial, le_refl _, fun h => h.elim⟩) fuel n ps ps' removed h0 h

/-! Example: particles walk along the rows of the field above; what they read says how far they go. Outside the grid they
are deleted by the recovery function. -/

def walk (p : Particle Nat) : Prog Nat Nat :=
  if p.vars < 4 then
    .sample p ⟨0, [(p.vars : ℤ), 1], 0, true⟩ fun cell =>
      .sample { p with vars := 1000 } ⟨0, [(p.vars : ℤ), 0], 1, true⟩ fun cell' =>
        .done ⟨{ p with vars := p.vars + 1 + (cell.headD 0 + cell'.headD 0) % 2 }, none, .ret none⟩
  else .done ⟨p, none, .ret (some .errorOutOfBounds)⟩

def walkIdeal (p : Particle Nat) : KOut Nat :=
  if p.vars < 4 then
    ⟨{ p with vars := p.vars + 1 + ((Chunks.cellData Chunks.exAxes Chunks.exData [p.vars, 1] 0 true).headD 0 +
      (Chunks.cellData Chunks.exAxes Chunks.exData [p.vars, 0] 1 true).headD 0) % 2 }, none, .ret none⟩
  else ⟨p, none, .ret (some .errorOutOfBounds)⟩

def goneOut : Plain Nat := fun c => if c = .errorOutOfBounds then some fun p => some { p with state := .delete } else none

example (p : Particle Nat) : Ideal Chunks.exAxes [(true, Chunks.exData)] p (walk p) (walkIdeal p) := by
  unfold walk walkIdeal
  split
  · rename_i h
    refine .sample (idx := [p.vars, 1]) (d := Chunks.exData) rfl rfl ?_ (by decide) ?_
    · exact .cons (.inl (by show p.vars + 1 < 5; omega)) (.cons (.inl (by decide)) .nil)
    · refine .sample (idx := [p.vars, 0]) (ti := 1) (d := Chunks.exData) rfl rfl ?_ (by decide) (.done _)
      exact .cons (.inl (by show p.vars + 1 < 5; omega)) (.cons (.inl (by decide)) .nil)
  · exact .done _

example : Tame walkIdeal := by
  constructor
  · intro p h
    unfold walkIdeal
    split <;> exact ⟨h, by simp⟩
  · intro p
    unfold walkIdeal
    split <;> simp [JitLoop.resolve, JitLoop.code, JitLoop.isEqual]
    split <;> simp
  · intro p h
    unfold walkIdeal at h
    split at h <;> exact absurd rfl h

example : TamePlain goneOut := by
  intro c h p q hc hq
  unfold goneOut at hc
  split at hc
  · obtain rfl := Option.some.inj hc
    obtain rfl := Option.some.inj hq
    exact ⟨by simp, id⟩
  · cases hc

/-- Particle 7 goes from row 0 to row 4 in two steps, particle 8 leaves the grid. -/
def walked := execute (kern walk) markOld prepare (lift goneOut) 2 1 9 9
  (Chunks.setup Chunks.exAxes [(true, Chunks.exData)], none) [(7, ⟨0, 1, .evaluate, 0⟩), (8, ⟨0, 1, .evaluate, 3⟩)]

example : walked.map (fun r => (r.1, r.2.1.map Prod.fst)) = some (.normal, [7]) := by decide +kernel
example : walked.map (fun r => r.2.1.map fun p => (p.2.time, p.2.vars)) = some [(2, 4)] := by decide +kernel
example : walked.map (fun r => r.2.2.map fun p => (p.1, p.2.vars)) = some [(8, 5)] := by decide +kernel

end Parcels.JitExec
