import Verif.Proofs.Output
import Mathlib.Tactic.NormNum

/-!
C18-C20, C62, C63: what `ParticleFile.write` stores.
-/

namespace Parcels.Output

variable {V : Type}

/-! ### C18 -/

/-- C18: over a whole run (forward or backward, of any length, with any deletions), no particle has two
records for the same output time. -/
theorem C18_at_most_one_record (s : ℚ) (hs : s = 1 ∨ s = -1) (f : PFile) (es : List (Event V))
    (hr : IsRun s es) : (recordKeys (run f es).2.1).Nodup :=
  run_keys_nodup (by rcases hs with h | h <;> rw [h] <;> norm_num) es f hr

/-- C18: a stored record was in the particle set when it was written, and its own time is within half a
time step of the output time, or the particle is being deleted. -/
theorem C18_record_is_active_or_deleted (s : ℚ) (es : List (Event V)) (f : PFile) (hr : IsRun s es) :
    ∀ o ∈ (run f es).2.1, ∀ p ∈ o.data, ∃ e ∈ es, e.time = o.time ∧ p ∈ e.ps ∧
      ((∃ t, p.time = some t ∧ |t - o.time| ≤ |p.dt| / 2) ∨ p.id ∈ deletedIDs e) := by
  induction es generalizing f with
  | nil => intro o ho; simp [run] at ho
  | cons e es ih =>
    intro o ho p hp
    rcases h : toDict f e.ps e.time e.req with _ | ⟨f', d, oo⟩
    · rw [run_cons_none h] at ho; simp at ho
    · rw [(run_cons_some h).1] at ho
      rcases List.mem_cons.mp ho with rfl | ho
      · obtain ⟨_, _, h3, _, _, _, h7⟩ := toDict_cases (hr.lib e (by simp)) h
        refine ⟨e, by simp, rfl, h3.subset hp, ?_⟩
        by_cases hreg : e.req = .regular
        · left
          unfold toDict at h
          split at h
          · split at h
            · injection h with h; injection h with _ h; injection h with h _
              subst h; simp at hp
            · simp only at h
              split at h
              · cases h
              · injection h with h; injection h with _ h; injection h with h _
                subst h
                rw [hreg] at hp
                simp only [choose] at hp
                rcases hany : (e.ps.any fun p => toWrite p e.time) with _ | _
                · rw [hany] at hp; simp at hp
                · rw [hany, cond_true, List.mem_filter, toWrite_iff] at hp
                  obtain ⟨_, t, ht, h1, h2⟩ := hp
                  exact ⟨t, ht, by rw [abs_le]; constructor <;> simp only <;> linarith⟩
          · injection h with h; injection h with _ h; injection h with h _
            subst h; simp at hp
        · right; exact (h7 hreg).2 p hp
      · obtain ⟨e', he', h1, h2, h3⟩ := ih f' hr.tail o ho p hp
        exact ⟨e', by simp [he'], h1, h2, h3⟩

def exP (i : ℤ) (t : ℚ) (v : Nat) : P Nat := { id := i, time := some t, dt := 5, deleted := false, vals := v }

/-- A run with three regular writes, the last one repeated, and one deletion at t = 90: particle 2 starts
later, particle 1 is deleted at t = 80. -/
def exRun : List (Event Nat) :=
  [ ⟨0, .regular, [exP 0 0 1, exP 1 0 2, exP 2 60 3]⟩,
    ⟨60, .regular, [exP 0 60 4, exP 1 60 5, exP 2 60 6]⟩,
    ⟨90, .mask [false, true, false], [exP 0 90 7, { exP 1 80 8 with deleted := true }, exP 2 90 9]⟩,
    ⟨120, .regular, [exP 0 120 10, exP 2 120 11]⟩,
    ⟨120, .regular, [exP 0 120 10, exP 2 120 11]⟩ ]

/-- It meets the hypotheses, and eight records are stored. -/
example : IsRun 1 exRun where
  lib := by
    intro e he
    simp only [exRun, List.mem_cons, List.not_mem_nil, or_false] at he
    rcases he with rfl | rfl | rfl | rfl | rfl
    · exact Or.inl rfl
    · exact Or.inl rfl
    · exact Or.inr ⟨_, rfl, rfl⟩
    · exact Or.inl rfl
    · exact Or.inl rfl
  mono := by norm_num [exRun]
  unique := by
    intro e he
    simp only [exRun, List.mem_cons, List.not_mem_nil, or_false] at he
    rcases he with rfl | rfl | rfl | rfl | rfl <;> decide
  gone := by simp [exRun, deletedIDs, byMask, exP]

example : recordKeys (run (newFile false true) exRun).2.1 =
    [(0, 0), (0, 1), (60, 0), (60, 1), (60, 2), (90, 1), (120, 0), (120, 2)] := by decide +kernel

/-! ### C19 -/

/-- The particles that a call finds active. -/
def activeIn (e : Event V) : List (P V) := e.ps.filter fun p => decide (active p e.time)

/-- C19: in a run without exception (and with regular output on), the 'once' records of a particle are
exactly one record, that of the first effective write at which it was active; none if it never was.
`f.writtenOnce = []` says that the file is new. -/
theorem C19_once_exactly_once (s : ℚ) (es : List (Event V)) (f : PFile) (hr : IsRun s es)
    (hon : f.hasOnce = true) (hw : f.writeOndelete = false) (hnew : f.writtenOnce = [])
    (hok : (run f es).2.2 = false) (i : ℤ) :
    (allOnce (run f es).2.1).filter (fun p => p.id = i) =
      (((effective f.lasttime es).flatMap activeIn).filter fun p => p.id = i).take 1 := by
  have main : ∀ (es : List (Event V)) (f : PFile), IsRun s es → f.hasOnce = true → f.writeOndelete = false →
      (run f es).2.2 = false →
      (allOnce (run f es).2.1).filter (fun p => p.id = i) =
        if i ∈ f.writtenOnce then [] else
        (((effective f.lasttime es).flatMap activeIn).filter fun p => p.id = i).take 1 := by
    intro es
    induction es with
    | nil => intro f _ _ _ _; simp [run, allOnce, effective]
    | cons e es ih =>
      intro f hr hon hw hok
      rcases h : toDict f e.ps e.time e.req with _ | ⟨f', d, o⟩
      · rw [run_cons_none h] at hok; simp at hok
      · obtain ⟨c1, c2, c3⟩ := run_cons_some (es := es) h
        rw [c3] at hok
        obtain ⟨g1, g2, _⟩ := toDict_cases (hr.lib e (by simp)) h
        have ih' := ih f' hr.tail (by rw [g2, hon]) (by rw [g1, hw]) hok
        rw [c1]
        simp only [allOnce, List.flatMap_cons, List.filter_append] at ih' ⊢
        rw [ih']
        by_cases hl : f.lasttime = some e.time
        · obtain ⟨_, _, _, _, h5, _⟩ := toDict_cases (hr.lib e (by simp)) h
          obtain ⟨e1, _, e3⟩ := h5 hl
          subst e1; subst e3
          simp only [effective, if_pos hl]
          simp
        · simp only [effective, if_neg hl, List.flatMap_cons, List.filter_append]
          have hcond : f.lasttime ≠ some e.time ∧ (f.writeOndelete = false ∨ e.req ≠ .regular) :=
            ⟨hl, Or.inl hw⟩
          have hlast : f'.lasttime = if e.req = .regular then some e.time else f.lasttime := by
            unfold toDict at h
            rw [if_pos hcond] at h
            split at h
            · injection h with h; injection h with h _
              rw [← h]; split <;> rfl
            · simp only at h
              split at h
              · cases h
              · injection h with h; injection h with h _
                rw [← h]
          have ho : o = e.ps.filter (fun p => toWrite p e.time && started p e.time &&
                decide (p.id ∉ f.writtenOnce)) ∧
              f'.writtenOnce = f.writtenOnce ++ o.map (·.id) := by
            unfold toDict at h
            rw [if_pos hcond] at h
            by_cases hemp : e.ps.isEmpty = true
            · rw [if_pos hemp] at h
              injection h with h; injection h with h1 h; injection h with _ h
              rw [List.isEmpty_iff] at hemp
              subst h
              refine ⟨by rw [hemp]; rfl, ?_⟩
              rw [← h1]; split <;> simp
            · rw [if_neg hemp] at h
              simp only at h
              split at h
              · cases h
              · injection h with h; injection h with h1 h; injection h with _ h
                subst h
                rw [← h1]
                simp [hon]
          rw [hlast]
          -- the 'once' records of this call for particle i
          have hfil : o.filter (fun p => p.id = i) =
              if i ∈ f.writtenOnce then [] else (activeIn e).filter fun p => p.id = i := by
            rw [ho.1]
            by_cases hi : i ∈ f.writtenOnce
            · rw [if_pos hi, List.filter_eq_nil_iff]
              intro p hp hpi
              rw [List.mem_filter] at hp
              simp only [decide_eq_true_eq] at hpi
              have := hp.2
              rw [Bool.and_eq_true, decide_eq_true_eq, hpi] at this
              exact this.2 hi
            · rw [if_neg hi, activeIn, List.filter_filter, List.filter_filter]
              apply List.filter_congr
              intro p _
              by_cases hpi : p.id = i
              · have e1 : decide (p.id ∉ f.writtenOnce) = true := by rw [hpi]; simpa using hi
                rw [e1, Bool.and_true]
                have : (toWrite p e.time && started p e.time) = decide (active p e.time) := by
                  rw [Bool.eq_iff_iff, active_iff, decide_eq_true_eq]
                rw [this]
              · simp [hpi]
          rw [hfil]
          have hmem : i ∈ f'.writtenOnce ↔ i ∈ f.writtenOnce ∨ (activeIn e).filter (fun p => p.id = i) ≠ [] := by
            rw [ho.2, List.mem_append]
            by_cases hi : i ∈ f.writtenOnce
            · simp [hi]
            · rw [if_neg hi] at hfil
              rw [← hfil]
              constructor
              · rintro (h | h)
                · exact absurd h hi
                · right
                  obtain ⟨p, hp, hpi⟩ := List.mem_map.mp h
                  intro hnil
                  rw [List.filter_eq_nil_iff] at hnil
                  exact hnil p hp (by simpa using hpi)
              · rintro (h | h)
                · exact absurd h hi
                · right
                  obtain ⟨p, hp⟩ := List.exists_mem_of_ne_nil _ h
                  rw [List.mem_filter, decide_eq_true_eq] at hp
                  exact List.mem_map.mpr ⟨p, hp.1, hp.2⟩
          by_cases hi : i ∈ f.writtenOnce
          · rw [if_pos hi, if_pos (hmem.mpr (Or.inl hi)), if_pos hi]; rfl
          · rw [if_neg hi, if_neg hi]
            have hone : ((activeIn e).filter fun p => p.id = i).length ≤ 1 := by
              have hnd : ((activeIn e).map (·.id)).Nodup :=
                (hr.unique e (by simp)).sublist (List.filter_sublist.map _)
              have hc := List.nodup_iff_count_le_one.mp hnd i
              rw [List.count_eq_length_filter, List.filter_map, List.length_map] at hc
              have hcg : (activeIn e).filter ((fun x => x == i) ∘ fun x => x.id) =
                  (activeIn e).filter fun p => p.id = i := by
                apply List.filter_congr
                intro p _
                simp [Function.comp]
                rfl
              rw [hcg] at hc
              exact hc
            by_cases hne : (activeIn e).filter (fun p => p.id = i) = []
            · rw [hne, if_neg (by rw [hmem]; simp [hi, hne])]
              simp
            · rw [if_pos (hmem.mpr (Or.inr hne))]
              rcases hq : (activeIn e).filter (fun p => p.id = i) with _ | ⟨a, l⟩
              · exact absurd hq hne
              · rw [hq] at hone
                have : l = [] := by
                  cases l with
                  | nil => rfl
                  | cons b l => simp at hone
                subst this
                rw [hq]
                simp
  rw [main es f hr hon hw hok, hnew]
  simp

/-- In `exRun` every particle gets one 'once' record: particles 0 and 1 at t = 0, particle 2 at t = 60. -/
example : (run (newFile false true) exRun).2.2 = false ∧
    ((run (newFile false true) exRun).2.1.map fun o => o.once.map fun p => (p.id, p.vals)) =
      [[(0, 1), (1, 2)], [(2, 6)], [], [], []] := by decide +kernel

/-! ### C20 -/

/-- C20, partial: when particles are deleted at a call time at which no regular write was done yet, each of
them gets its record in that call. Missing: see `C20_deleted_right_after_write`. -/
theorem C20_deleted_particles_written_partial (f : PFile) (ps : List (P V)) (T : ℚ) (m : List Bool)
    (hm : m.length = ps.length) (hdel : ∀ p ∈ byMask ps m, p.deleted = true)
    (hne : byMask ps m ≠ []) (hlast : f.lasttime ≠ some T) :
    ∃ f' o, toDict f ps T (.mask m) = some (f', byMask ps m, o) := by
  unfold toDict
  rw [if_pos ⟨hlast, Or.inr (by simp)⟩]
  have hps : ¬ ps.isEmpty = true := by
    intro h
    rw [List.isEmpty_iff] at h
    apply hne; rw [h]; rfl
  rw [if_neg hps]
  have hany : m.any id = true := by
    obtain ⟨p, hp⟩ := List.exists_mem_of_ne_nil _ hne
    unfold byMask at hp
    obtain ⟨q, hq, _⟩ := List.mem_map.mp hp
    rw [List.mem_filter] at hq
    rw [List.any_eq_true]
    exact ⟨q.2, (List.of_mem_zip hq.1).2, hq.2⟩
  have hwarn : warnRaises ps (byMask ps m) T = false := by
    unfold warnRaises
    have : (byMask ps m).any (fun p => badTime p T) = false := by
      rw [List.any_eq_false]
      intro p hp
      unfold badTime
      rw [hdel p hp]
      cases p.time <;> simp
    rw [this]; rfl
  simp only [choose, hany, hwarn, cond_true, Bool.false_eq_true, if_false]
  exact ⟨_, _, rfl⟩

/-- In `exRun` particle 1 is deleted at t = 80 and its final record is stored. -/
example : ((run (newFile false true) exRun).2.1.map fun o => o.data.map fun p => (p.id, p.time))[2]? =
    some [(1, some 80)] := by decide +kernel

/-- C20 is false when the particle is deleted at the time of the last regular write, as in
`execute(runtime=0)` with an output file: write, then delete. Nothing is stored for the particle's final
state. -/
theorem C20_deleted_right_after_write :
    ((run (newFile false false)
      [⟨0, .regular, [exP 0 0 1, exP 1 0 2]⟩,
       ⟨0, .mask [false, true], [exP 0 0 3, { exP 1 0 4 with deleted := true }]⟩]).2.1.map
        fun o => o.data.map fun p => (p.id, p.vals)) = [[(0, 1), (1, 2)], []] := by decide +kernel

/-- C20 is false for `write(pset, time, deleted_only=True)` when only the first particle of the set is
deleted: the list of indices [0] counts as empty. -/
theorem C20_first_particle_lost :
    ((run (newFile false false)
      [⟨5, .deletedTrue, [{ exP 0 5 3 with deleted := true }, exP 1 5 4]⟩]).2.1.map
        fun o => o.data.map fun p => (p.id, p.vals)) = [[]] := by decide +kernel

/-! ### C62: rows of 'once' variables and rows of trajectories

The export drops the particles without a record, separately for the ordinary and for the 'once' variables
(parcels/particlefile.py:278-280), so the rows belong to the same particles only if the same particles have
records of both kinds. -/

/-- C62 is false: a particle that is released after an output time and deleted before the next one has
a record but no 'once' record. -/
theorem C62_deleted_between_outputs :
    let outs := (run (newFile false true)
      [⟨0, .regular, [exP 0 0 1, exP 1 10 2]⟩,
       ⟨60, .mask [false, true], [exP 0 60 3, { exP 1 20 4 with deleted := true }]⟩,
       ⟨60, .regular, [exP 0 60 3]⟩]).2.1
    (1 ∈ (allData outs).map (·.id)) ∧ (1 ∉ (allOnce outs).map (·.id)) := by decide +kernel

/-- C62 is false with write_ondelete=True: a deletion writes the 'once' variables of particles that have no
record. -/
theorem C62_write_ondelete :
    let outs := (run (newFile true true)
      [⟨60, .mask [false, true], [exP 0 60 3, { exP 1 20 4 with deleted := true }]⟩]).2.1
    (allData outs).map (·.id) = [1] ∧ (allOnce outs).map (·.id) = [0] := by decide +kernel

/-- C62, partial: in a run with regular writes only (no deletion), in which every particle within half a
step of the output time has started, the same particles have records and 'once' records. -/
theorem C62_same_particles_partial (s : ℚ) (es : List (Event V)) (f : PFile) (hr : IsRun s es)
    (hreg : ∀ e ∈ es, e.req = .regular)
    (hst : ∀ e ∈ es, ∀ p ∈ e.ps, toWrite p e.time = true → started p e.time = true)
    (hon : f.hasOnce = true) (hw : f.writeOndelete = false) (hnew : f.writtenOnce = [])
    (hok : (run f es).2.2 = false) (i : ℤ) :
    i ∈ (allData (run f es).2.1).map (·.id) ↔ i ∈ (allOnce (run f es).2.1).map (·.id) := by
  have hdata : ∀ (es : List (Event V)) (f : PFile), (∀ e ∈ es, e.req = .regular) →
      (∀ e ∈ es, ∀ p ∈ e.ps, toWrite p e.time = true → started p e.time = true) →
      f.writeOndelete = false → (run f es).2.2 = false →
      allData (run f es).2.1 = (effective f.lasttime es).flatMap activeIn := by
    intro es
    induction es with
    | nil => intro f _ _ _ _; simp [run, allData, effective]
    | cons e es ih =>
      intro f hreg hst hw hok
      rcases h : toDict f e.ps e.time e.req with _ | ⟨f', d, o⟩
      · rw [run_cons_none h] at hok; simp at hok
      · obtain ⟨c1, c2, c3⟩ := run_cons_some (es := es) h
        rw [c3] at hok
        obtain ⟨g1, g2, _, _, h5, _⟩ := toDict_cases (Or.inl (hreg e (by simp))) h
        have ih' := ih f' (fun x hx => hreg x (by simp [hx])) (fun x hx => hst x (by simp [hx]))
          (by rw [g1, hw]) hok
        rw [c1]
        simp only [allData, List.flatMap_cons] at ih' ⊢
        rw [ih']
        by_cases hl : f.lasttime = some e.time
        · obtain ⟨e1, e2, _⟩ := h5 hl
          subst e1; subst e2
          simp only [effective, if_pos hl]
          rfl
        · simp only [effective, if_neg hl, List.flatMap_cons]
          have hcond : f.lasttime ≠ some e.time ∧ (f.writeOndelete = false ∨ e.req ≠ .regular) :=
            ⟨hl, Or.inl hw⟩
          unfold toDict at h
          rw [if_pos hcond] at h
          have hr1 := hreg e (by simp)
          rw [hr1] at h ⊢
          by_cases hemp : e.ps.isEmpty = true
          · rw [if_pos hemp] at h
            injection h with h; injection h with h1 h; injection h with h2 _
            rw [List.isEmpty_iff] at hemp
            rw [← h1, ← h2]
            simp [activeIn, hemp]
          · rw [if_neg hemp] at h
            simp only [choose] at h
            split at h
            · cases h
            · injection h with h; injection h with h1 h; injection h with h2 _
              rw [← h1, ← h2]
              simp only [if_true]
              congr 1
              have hfe : (e.ps.filter fun p => toWrite p e.time) = activeIn e := by
                unfold activeIn
                apply List.filter_congr
                intro p hp
                rw [Bool.eq_iff_iff, decide_eq_true_eq, ← active_iff, Bool.and_eq_true]
                exact ⟨fun hh => ⟨hh, hst e (by simp) p hp hh⟩, fun hh => hh.1⟩
              rcases hany : (e.ps.any fun p => toWrite p e.time) with _ | _
              · rw [cond_false, ← hfe]
                symm
                rw [List.filter_eq_nil_iff]
                intro p hp hh
                rw [List.any_eq_false] at hany
                exact hany p hp hh
              · rw [cond_true, hfe]
  have honce := C19_once_exactly_once s es f hr hon hw hnew hok i
  rw [hdata es f hreg hst hw hok]
  generalize (effective f.lasttime es).flatMap activeIn = L at *
  generalize allOnce (run f es).2.1 = O at *
  constructor
  · intro h
    obtain ⟨p, hp, hpi⟩ := List.mem_map.mp h
    have hmem : p ∈ L.filter fun p => p.id = i := List.mem_filter.mpr ⟨hp, by simpa using hpi⟩
    rcases hq : L.filter (fun p => p.id = i) with _ | ⟨a, l⟩
    · rw [hq] at hmem; simp at hmem
    · rw [hq] at honce
      have : a ∈ O.filter fun p => p.id = i := by rw [honce]; simp
      rw [List.mem_filter, decide_eq_true_eq] at this
      exact List.mem_map.mpr ⟨a, this.1, this.2⟩
  · intro h
    obtain ⟨p, hp, hpi⟩ := List.mem_map.mp h
    have hmem : p ∈ O.filter fun p => p.id = i := List.mem_filter.mpr ⟨hp, by simpa using hpi⟩
    rw [honce] at hmem
    have := List.mem_of_mem_take hmem
    rw [List.mem_filter, decide_eq_true_eq] at this
    exact List.mem_map.mpr ⟨p, this.1, this.2⟩

/-! ### C63: writing output does not raise -/

/-- C63 is false: a particle that will start 10 s after the output time, with time step 30 s, is already
within half a step and makes the writer warn; if some other particle is not selected, the warning itself
raises IndexError and the run ends. -/
theorem C63_warning_raises :
    toDict (newFile false false)
      [{ exP 0 60 1 with dt := 30 }, { exP 1 70 2 with dt := 30 }, { exP 2 1000 3 with dt := 30 }] 60 .regular =
      none := by decide +kernel

/-- C63, partial: a regular write raises nothing if all selected particles are at most a millisecond away
from the output time, or if all particles are selected; a write of deleted particles never does. -/
theorem C63_write_succeeds_partial (f : PFile) (e : Event V) (hl : LibraryCall e)
    (hdel : ∀ m, e.req = .mask m → ∀ p ∈ byMask e.ps m, p.deleted = true)
    (hreg : e.req = .regular →
      (∀ p ∈ e.ps, toWrite p e.time = true → ∀ t, p.time = some t → |e.time - t| ≤ 1 / 1000) ∨
      (∀ p ∈ e.ps, toWrite p e.time = true)) :
    (toDict f e.ps e.time e.req).isSome = true := by
  unfold toDict
  split
  · split
    · rfl
    · simp only
      have : warnRaises e.ps (choose e.ps e.time e.req).1 e.time = false := by
        rcases hl with hr | ⟨m, hr, hm⟩
        · rw [hr]
          show warnRaises e.ps (e.ps.filter fun p => toWrite p e.time) e.time = false
          unfold warnRaises
          rcases hreg hr with h | h
          · have : ((e.ps.filter fun p => toWrite p e.time).any fun p => badTime p e.time) = false := by
              rw [List.any_eq_false]
              intro p hp
              rw [List.mem_filter] at hp
              unfold badTime
              rcases ht : p.time with _ | t
              · simp
              · have := h p hp.1 hp.2 t ht
                simp only [Bool.and_eq_true, decide_eq_true_eq, not_and, not_lt]
                intro _; exact this
            rw [this]; rfl
          · have : (e.ps.filter fun p => toWrite p e.time) = e.ps :=
              List.filter_eq_self.mpr (fun p hp => h p hp)
            rw [this]; simp
        · rw [hr]
          show warnRaises e.ps (byMask e.ps m) e.time = false
          unfold warnRaises
          have : (byMask e.ps m).any (fun p => badTime p e.time) = false := by
            rw [List.any_eq_false]
            intro p hp
            unfold badTime
            rw [hdel m hr p hp]
            cases p.time <;> simp
          rw [this]; rfl
      rw [this]
      rfl
  · rfl

end Parcels.Output
