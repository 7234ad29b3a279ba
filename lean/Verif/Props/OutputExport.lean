import Verif.Proofs.OutputExport

/-!
C21, end to end: what a run stores is what the export gives.
-/

namespace Parcels.Output

open Parcels.Npy

variable {V : Type}

/-- C21, end to end: for every run on a new file (forward or backward, any number of calls, any particles with
IDs that are not negative), and every variable, the export of the temporary files does not raise, and gives the
array with one row per particle that has a record, holding the values of its records in order of writing. -/
theorem C21_run_then_export {W : Type} (s : ℚ) (hs : s = 1 ∨ s = -1) (wod once : Bool) (es : List (Event V))
    (hr : IsRun s es) (hpos : ∀ e ∈ es, ∀ p ∈ e.ps, 0 ≤ p.id) (path : Nat → List Char)
    (hpath : ∀ k, hasOnce (path k) = false) (val : P V → W) :
    let q := run (newFile wod once) es
    let files := filesOf path val q.2.1
    readNpy q.1.maxid.toNat q.1.timeWritten.length files = some (trajectories q.1.maxid.toNat files) ∧
    ∀ i : Nat, recordsOf files i = ((allData q.2.1).filter fun p => p.id = (i : ℤ)).map val := by
  intro q files
  have hnod := C18_at_most_one_record s hs (newFile wod once) es hr
  obtain ⟨_, _, g3, g4⟩ := run_grow es (newFile wod once)
  have hin : ∀ o ∈ q.2.1, ∀ p ∈ o.data, 0 ≤ p.id := by
    intro o ho p hp
    obtain ⟨e, he, _, hpe, _⟩ := C18_record_is_active_or_deleted s es (newFile wod once) hr o ho p hp
    exact hpos e he p hpe
  have hrec : ∀ i : Nat, recordsOf files i = ((allData q.2.1).filter fun p => p.id = (i : ℤ)).map val :=
    fun i => filesOf_records path val q.2.1 i hin
  refine ⟨?_, hrec⟩
  have hmem : ∀ f ∈ files, ∃ o ∈ q.2.1, ∃ k, f.path = path k ∧
      f.recs = o.data.map fun p => (p.id.toNat, val p) := by
    intro f hf
    obtain ⟨x, hx, rfl⟩ := List.mem_map.mp hf
    exact ⟨x.1, (List.mem_filter.mp (List.fst_mem_of_mem_zipIdx hx)).1, x.2, rfl, rfl⟩
  apply C21_export_is_the_records
  · intro f hf
    obtain ⟨o, ho, k, _, hfr⟩ := hmem f hf
    have hon : (o.data.map (·.id)).Nodup := by
      have h1 : (o.data.map fun p => (o.time, p.id)).Nodup := by
        unfold recordKeys at hnod
        exact (List.nodup_flatMap.mp hnod).1 o ho
      have h2 : (o.data.map fun p => (o.time, p.id)) = (o.data.map (·.id)).map fun i => (o.time, i) := by
        rw [List.map_map]; rfl
      rw [h2] at h1
      exact List.Nodup.of_map _ h1
    rw [hfr, List.map_map]
    have hpw := List.pairwise_map.mp (List.nodup_iff_pairwise_ne.mp hon)
    rw [List.nodup_iff_pairwise_ne, List.pairwise_map]
    apply hpw.imp_of_mem
    intro a b ha hb hab heq
    have h1 := hin o ho a ha
    have h2 := hin o ho b hb
    apply hab
    simp only [Function.comp] at heq
    omega
  · intro f hf r hr
    obtain ⟨o, ho, k, _, hfr⟩ := hmem f hf
    rw [hfr] at hr
    obtain ⟨p, hp, rfl⟩ := List.mem_map.mp hr
    have h1 := (g4 o ho).1 p hp
    have h2 := hin o ho p hp
    show p.id.toNat ≤ (run (newFile wod once) es).1.maxid.toNat
    omega
  · intro i
    rw [hrec i, List.length_map]
    exact records_le_times q.2.1 q.1.timeWritten i hnod (fun o ho hne => (g4 o ho).2 hne)
  · intro f hf
    obtain ⟨o, ho, k, hfp, _⟩ := hmem f hf
    rw [hfp]; exact hpath k

/-- The run `exRun` of Props/Output: three particles with three, three and two records. -/
example :
    let q := run (newFile false true) exRun
    readNpy q.1.maxid.toNat q.1.timeWritten.length
      (filesOf (fun _ => "out/0/f.npy".toList) (·.vals) q.2.1) =
      some [[some 1, some 4, some 10], [some 2, some 5, some 8], [some 6, some 11, none]] := by decide +kernel

/-- The hypothesis of C22 on calls: a call of the library that stores 'once' records stores records. -/
theorem C22_once_only_with_records (f f' : PFile) (e : Event V) (d o : List (P V)) (hl : LibraryCall e)
    (hm : ∀ m, e.req = .mask m → ∃ p, p ∈ byMask e.ps m)
    (h : toDict f e.ps e.time e.req = some (f', d, o)) (ho : o ≠ []) : d ≠ [] := by
  unfold toDict at h
  split at h
  · split at h
    · injection h with h; injection h with _ h2; injection h2 with _ h3
      exact absurd h3.symm ho
    · simp only at h
      split at h
      · cases h
      · injection h with h; injection h with _ h2; injection h2 with h2 h3
        obtain ⟨p, hp⟩ := List.exists_mem_of_ne_nil _ ho
        rw [← h3] at hp
        rw [← h2]
        rcases hl with hr | ⟨m, hr, hlen⟩
        · rw [hr]
          split at hp
          · rw [List.mem_filter, Bool.and_eq_true, Bool.and_eq_true] at hp
            have hany : (e.ps.any fun p => toWrite p e.time) = true :=
              List.any_eq_true.mpr ⟨p, hp.1, hp.2.1.1⟩
            show (bif (e.ps.any fun p => toWrite p e.time) then (e.ps.filter fun p => toWrite p e.time) else []) ≠ []
            rw [hany, cond_true]
            exact List.ne_nil_of_mem (List.mem_filter.mpr ⟨hp.1, hp.2.1.1⟩)
          · simp at hp
        · rw [hr]
          obtain ⟨q, hq⟩ := hm m hr
          have hany : m.any id = true := by
            unfold byMask at hq
            obtain ⟨x, hx, _⟩ := List.mem_map.mp hq
            rw [List.mem_filter] at hx
            rw [List.any_eq_true]
            exact ⟨x.2, (List.of_mem_zip hx.1).2, hx.2⟩
          show (bif (m.any id) then byMask e.ps m else []) ≠ []
          rw [hany, cond_true]
          exact List.ne_nil_of_mem hq
  · injection h with h; injection h with _ h2; injection h2 with _ h3
    exact absurd h3.symm ho

end Parcels.Output
