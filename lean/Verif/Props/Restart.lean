import Verif.Proofs.Restart

/-!
C56: restarting from a particle file.
-/

namespace Parcels.Restart

open Parcels.Output Parcels.Npy

variable {V : Type}

theorem onceOuts_allData (outs : List (Out V)) : allData (onceOuts outs) = allOnce outs := by
  unfold allData onceOuts allOnce
  rw [List.flatMap_map]

/-- A column of the new set: the records at the restart time, or the 'once' records of these particles. -/
def expected (outs : List (Out V)) (get : String → P V → Option ℚ) (rs : List (P V)) (v : PVar) :
    String × List (Option ℚ) :=
  (v.name, if v.toWrite = .once then rs.map fun p => (onceRecord outs p.id).bind (get v.name)
    else rs.map (get v.name))

/-- C56, records: for every run on a new file (forward or backward, any particles with IDs that are not
negative), the file exported from it, and any time `T`: the restarted set has one particle for each record with
the particle's own time `T`, in order of ID, with the ID and the values of the record; for variables written
once, with the value of the particle's own 'once' record, provided that exactly the particles with records have a
'once' record. The next ID is one more than the largest ID restarted. -/
theorem C56_records (s : ℚ) (hs : s = 1 ∨ s = -1) (wod once : Bool) (es : List (Event V)) (hr : IsRun s es)
    (hpos : ∀ e ∈ es, ∀ p ∈ e.ps, 0 ≤ p.id) (path path1 : Nat → List Char)
    (hpath : ∀ k, hasOnce (path k) = false) (hpath1 : ∀ k, hasOnce (path1 k) = true)
    (get : String → P V → Option ℚ) (pvars : List PVar) (f : NcFile) (T : ℚ) (lastID : ℤ) :
    let q := run (newFile wod once) es
    let rs := recordsAt q.1.maxid.toNat q.2.1 T
    FileOf q.1.maxid.toNat q.1.timeWritten.length path path1 q.2.1 get pvars f →
    ((∃ v ∈ pvars, v.toWrite = .once) → allOnce q.2.1 ≠ [] ∧
      (∀ i, i ∈ (allOnce q.2.1).map (·.id) ↔ i ∈ (allData q.2.1).map (·.id)) ∧
      ((allOnce q.2.1).map (·.id)).Nodup) →
    ∃ c, fromParticleFile lastID pvars f true (.at T) = .ok (c, Collection.maxOr (rs.map (·.id)) + 1) ∧
      c.ids = rs.map (·.id) ∧
      c.cols = ("time", rs.map fun _ => some T) ::
        (pvars.filter fun v => decide (v.toWrite ≠ .no)).map (expected q.2.1 get rs) := by
  intro q rs hf honce
  set maxid := q.1.maxid.toNat with hmaxid
  have hin : ∀ o ∈ q.2.1, ∀ p ∈ o.data, 0 ≤ p.id := by
    intro o ho p hp
    obtain ⟨e, he, _, hpe, _⟩ := C18_record_is_active_or_deleted s es (newFile wod once) hr o ho p hp
    exact hpos e he p hpe
  have hexp : ∀ {W : Type} (val : P V → W), readNpy maxid q.1.timeWritten.length (filesOf path val q.2.1) =
      some ((rowIds maxid q.2.1).map fun i => (padded maxid q.2.1 i).map (Option.map val)) := by
    intro W val
    rw [← trajectories_eq maxid path q.2.1 val hin]
    exact (C21_run_then_export s hs wod once es hr hpos path hpath val).1
  -- the arrays of the file
  have htraj : f.traj = (rowIds maxid q.2.1).map fun i => (padded maxid q.2.1 i).map (Option.map (·.id)) := by
    have := hf.traj
    rw [hexp] at this
    injection this with this
    exact this.symm
  have hjoin : ∀ val : P V → Option ℚ,
      ((rowIds maxid q.2.1).map fun i => (padded maxid q.2.1 i).map (Option.map val)).map
        (fun r => r.map Option.join) =
      (rowIds maxid q.2.1).map fun i => (padded maxid q.2.1 i).map fun x => x.bind val := by
    intro val
    rw [List.map_map]
    apply List.map_congr_left
    intro i _
    simp only [Function.comp, List.map_map]
    apply List.map_congr_left
    intro x _
    cases x <;> rfl
  have htime : f.time = (rowIds maxid q.2.1).map fun i => (padded maxid q.2.1 i).map fun x => x.bind (·.time) := by
    have := hf.time
    rw [hexp, Option.map_some, hjoin] at this
    injection this with this
    exact this.symm
  set inds := whereEq f.time (some T) with hinds
  have hpick : ∀ {γ : Type} [Inhabited γ] (qq : Nat × Nat → Option γ) (h : Nat → P V → γ),
      (∀ i k, (rowIds maxid q.2.1)[i]? = some k → ∀ j (p : P V), (padded maxid q.2.1 k)[j]? = some (some p) →
        p ∈ allData q.2.1 → p.id = (k : ℤ) → p.time = some T → qq (i, j) = some (h k p)) →
      inds.mapM qq = some (rs.map fun p => h p.id.toNat p) := by
    intro γ _ qq h hq
    rw [hinds, htime]
    have hmem : ∀ (i j : Nat) (x : Option (P V)), (padded maxid q.2.1 i)[j]? = some x → x.bind (·.time) = some T →
        ∃ p, x = some p ∧ p ∈ allData q.2.1 ∧ p.id = (i : ℤ) ∧ p.time = some T := by
      intro i j x hx ht
      have hxm := List.mem_of_getElem? hx
      have hxf : x ∈ (padded maxid q.2.1 i).filter (fun x => decide (x.bind (·.time) = some T)) :=
        List.mem_filter.mpr ⟨hxm, by simpa using ht⟩
      rw [filter_padded] at hxf
      obtain ⟨p, hp, rfl⟩ := List.mem_map.mp hxf
      rw [List.mem_filter, Bool.and_eq_true, decide_eq_true_eq, decide_eq_true_eq] at hp
      exact ⟨p, rfl, hp.1, hp.2.1, hp.2.2⟩
    have hmain := whereEq_mapM (rowIds maxid q.2.1) (padded maxid q.2.1) (fun x => x.bind (·.time)) T qq
      (fun k x => match x with | some p => h k p | none => default) (by
        intro i k hk j x hx ht
        obtain ⟨p, rfl, h1, h2, h3⟩ := hmem k j x hx ht
        exact hq i k hk j p hx h1 h2 h3)
    rw [hmain, ← flatMap_rowIds]
    congr 1
    apply List.flatMap_congr
    intro k _
    rw [filter_padded, List.map_map]
    apply List.map_congr_left
    intro p hp
    rw [List.mem_filter, Bool.and_eq_true, decide_eq_true_eq] at hp
    simp only [Function.comp]
    rw [hp.2.1]
    rfl
  have hlen : inds.length = rs.length := by
    have h := hpick (γ := Unit) (fun _ => some ()) (fun _ _ => ()) (fun _ _ _ _ _ _ _ _ _ => rfl)
    have key : ∀ (l : List (Nat × Nat)), l.mapM (fun _ => some ()) = some (l.map fun _ => ()) := by
      intro l
      induction l with
      | nil => rfl
      | cons a l ih => rw [List.mapM_cons, ih]; rfl
    rw [key] at h
    injection h with h
    have h2 := congrArg List.length h
    rwa [List.length_map, List.length_map] at h2
  -- a variable written at every output
  have hyes : ∀ val : P V → Option ℚ, pick inds .yes (.grid ((rowIds maxid q.2.1).map fun (i : Nat) =>
      (padded maxid q.2.1 i).map fun x => x.bind val)) = some (rs.map val) := by
    intro val
    refine hpick _ (fun _ p => val p) ?_
    intro i k hk j p hp _ _ _
    rw [List.getElem?_map, hk, Option.map_some, Option.bind_some, List.getElem?_map, hp]
    rfl
  have hids : pidOrig f inds true = some (rs.map (·.id)) := by
    refine hpick _ (fun _ p => p.id) ?_
    intro i k hk j p hp _ _ _
    rw [htraj, List.getElem?_map, hk, Option.map_some, Option.bind_some, List.getElem?_map, hp]
    rfl
  have hrst : rs.map (fun p => p.time) = rs.map fun _ => some T := by
    apply List.map_congr_left
    intro p hp
    obtain ⟨i, _, hp⟩ := List.mem_flatMap.mp hp
    rw [List.mem_filter, Bool.and_eq_true, decide_eq_true_eq, decide_eq_true_eq] at hp
    exact hp.2.2
  have htm : pick inds .yes (.grid f.time) = some (rs.map fun _ => some T) := by
    rw [htime, hyes, hrst]
  -- a variable written once
  have hone : ∀ v ∈ pvars, v.toWrite = .once → ∃ l, f.vars.lookup (fileName v) = some (.line l) ∧
      pick inds .once (.line l) = some (rs.map fun p => (onceRecord q.2.1 p.id).bind (get v.name)) := by
    intro v hv hvo
    obtain ⟨rows, hrows, hl⟩ := hf.once v hv hvo
    obtain ⟨hne, hsame, hnod⟩ := honce ⟨v, hv, hvo⟩
    have hidpos : ∀ p ∈ allOnce q.2.1, 0 ≤ p.id ∧ p.id.toNat ≤ maxid := by
      intro p hp
      have : p.id ∈ (allData q.2.1).map (·.id) := (hsame _).mp (List.mem_map_of_mem hp)
      obtain ⟨p', hp', he⟩ := List.mem_map.mp this
      obtain ⟨o, ho, hpo⟩ := List.mem_flatMap.mp hp'
      have h0 := hin o ho p' hpo
      have h1 := ((run_grow es (newFile wod once)).2.2.2 o ho).1 p' hpo
      refine ⟨by omega, ?_⟩
      rw [hmaxid]
      have h1' : p'.id ≤ q.1.maxid := h1
      omega
    have hinO : ∀ o ∈ onceOuts q.2.1, ∀ p ∈ o.data, 0 ≤ p.id := by
      intro o ho p hp
      obtain ⟨o', ho', rfl⟩ := List.mem_map.mp ho
      exact (hidpos p (List.mem_flatMap.mpr ⟨o', ho', hp⟩)).1
    have hrec : ∀ i : Nat, recordsOf (filesOf path1 (get v.name) (onceOuts q.2.1)) i =
        ((allOnce q.2.1).filter fun p => p.id = (i : ℤ)).map (get v.name) := by
      intro i
      rw [filesOf_records path1 (get v.name) (onceOuts q.2.1) i hinO, onceOuts_allData]
    have hle1 : ∀ i : Nat, ((allOnce q.2.1).filter fun p => p.id = (i : ℤ)).length ≤ 1 := by
      intro i
      have : ((allOnce q.2.1).filter fun p => p.id = (i : ℤ)).length =
          ((allOnce q.2.1).map (·.id)).count (i : ℤ) := by
        rw [List.count_eq_countP, List.countP_map, List.countP_eq_length_filter]
        congr 1
      rw [this]
      exact List.nodup_iff_count_le_one.mp hnod _
    have hcol := C21_once_column maxid (filesOf path1 (get v.name) (onceOuts q.2.1)) (by
        intro ff hff
        obtain ⟨x, hx, rfl⟩ := List.mem_map.mp hff
        have ho := (List.mem_filter.mp (List.fst_mem_of_mem_zipIdx hx)).1
        obtain ⟨o', ho', heq⟩ := List.mem_map.mp ho
        have h1 : (o'.once.map (·.id)).Nodup := by
          unfold allOnce at hnod
          rw [List.map_flatMap] at hnod
          exact (List.nodup_flatMap.mp hnod).1 o' ho'
        simp only
        rw [← heq, List.map_map]
        have hpw := List.pairwise_map.mp (List.nodup_iff_pairwise_ne.mp h1)
        rw [List.nodup_iff_pairwise_ne, List.pairwise_map]
        apply hpw.imp_of_mem
        intro a b ha hb hab he
        have h2 := (hidpos a (List.mem_flatMap.mpr ⟨o', ho', ha⟩)).1
        have h3 := (hidpos b (List.mem_flatMap.mpr ⟨o', ho', hb⟩)).1
        apply hab
        simp only [Function.comp] at he
        omega) (by
        intro ff hff r hr'
        obtain ⟨x, hx, rfl⟩ := List.mem_map.mp hff
        have ho := (List.mem_filter.mp (List.fst_mem_of_mem_zipIdx hx)).1
        obtain ⟨o', ho', heq⟩ := List.mem_map.mp ho
        obtain ⟨p, hp, rfl⟩ := List.mem_map.mp hr'
        rw [← heq] at hp
        exact (hidpos p (List.mem_flatMap.mpr ⟨o', ho', hp⟩)).2) (by
        intro i
        rw [hrec, List.length_map]
        exact hle1 i) (by
        obtain ⟨p, hp⟩ := List.exists_mem_of_ne_nil _ hne
        have hne2 : recordsOf (filesOf path1 (get v.name) (onceOuts q.2.1)) p.id.toNat ≠ [] := by
          rw [hrec]
          have h0 := (hidpos p hp).1
          apply List.ne_nil_of_mem (a := get v.name p)
          apply List.mem_map_of_mem
          rw [List.mem_filter]
          refine ⟨hp, ?_⟩
          rw [decide_eq_true_eq]
          omega
        unfold recordsOf at hne2
        obtain ⟨x, hx⟩ := List.exists_mem_of_ne_nil _ hne2
        obtain ⟨ff, hff, hx⟩ := List.mem_flatMap.mp hx
        obtain ⟨r, hr', _⟩ := List.mem_map.mp hx
        exact ⟨ff, hff, List.ne_nil_of_mem (List.mem_filter.mp hr').1⟩) (by
        intro ff hff
        obtain ⟨x, hx, rfl⟩ := List.mem_map.mp hff
        exact hpath1 _)
    rw [hrows] at hcol
    injection hcol with hcol
    have hrid : ((List.range (maxid + 1)).filter fun i =>
        !(recordsOf (filesOf path1 (get v.name) (onceOuts q.2.1)) i).isEmpty) = rowIds maxid q.2.1 := by
      unfold rowIds
      apply List.filter_congr
      intro i _
      congr 1
      rw [Bool.eq_iff_iff, List.isEmpty_iff, List.isEmpty_iff, hrec, List.map_eq_nil_iff]
      have key : ∀ l : List (P V), l.filter (fun p => decide (p.id = (i : ℤ))) = [] ↔ (i : ℤ) ∉ l.map (·.id) := by
        intro l
        rw [List.filter_eq_nil_iff, List.mem_map]
        constructor
        · rintro h ⟨p, hp, he⟩
          exact h p hp (by simpa using he)
        · intro h p hp he
          exact h ⟨p, hp, by simpa using he⟩
      rw [key, key, hsame]
    refine ⟨_, hl, ?_⟩
    rw [hcol, hrid, List.map_map]
    have hh := hpick (fun ij => ((rowIds maxid q.2.1).map fun (i : Nat) =>
        (onceRecord q.2.1 (i : ℤ)).bind (get v.name))[ij.1]?)
      (fun k _ => (onceRecord q.2.1 (k : ℤ)).bind (get v.name)) (by
        intro i k hk j p _ _ _ _
        rw [List.getElem?_map, hk]
        rfl)
    have e1 : ((rowIds maxid q.2.1).map ((fun r => (r.headD none).join) ∘ fun i =>
        [(recordsOf (filesOf path1 (get v.name) (onceOuts q.2.1)) i)[0]?])) =
        (rowIds maxid q.2.1).map fun (i : Nat) => (onceRecord q.2.1 (i : ℤ)).bind (get v.name) := by
      apply List.map_congr_left
      intro i _
      simp only [Function.comp, List.headD_cons]
      rw [hrec]
      unfold onceRecord
      rw [← List.head?_filter, List.getElem?_map, List.head?_eq_getElem?]
      cases ((allOnce q.2.1).filter fun p => decide (p.id = (i : ℤ)))[0]? <;> rfl
    rw [e1]
    show inds.mapM _ = _
    rw [hh]
    congr 1
    apply List.map_congr_left
    intro p hp
    obtain ⟨i, _, hp⟩ := List.mem_flatMap.mp hp
    rw [List.mem_filter, Bool.and_eq_true, decide_eq_true_eq] at hp
    rw [hp.2.1]
    rfl
  -- all variables
  have hall : ∀ vs : List PVar, (∀ v ∈ vs, v ∈ pvars) → ∃ arrs, readVars f vs = .ok arrs ∧
      pickAll inds arrs = some ((vs.filter fun v => decide (v.toWrite ≠ .no)).map (expected q.2.1 get rs)) := by
    intro vs
    induction vs with
    | nil => intro _; exact ⟨[], rfl, rfl⟩
    | cons v vs ih =>
      intro hvs
      obtain ⟨arrs, h1, h2⟩ := ih fun x hx => hvs x (by simp [hx])
      have hv := hvs v (by simp)
      unfold readVars
      rcases hw : v.toWrite with _ | _ | _
      · rw [hf.no v hv hw]
        simp only
        rw [if_neg fun hd => hf.depth v hv hd hw, if_neg (by rintro ⟨_, h⟩; exact h rfl)]
        exact ⟨arrs, h1, by rw [List.filter_cons_of_neg (by simp [hw])]; exact h2⟩
      · obtain ⟨rows, h3, h4⟩ := hf.yes v hv hw
        rw [hexp] at h3
        injection h3 with h3
        rw [← h3, hjoin] at h4
        rw [h4]
        simp only [h1]
        refine ⟨_, rfl, ?_⟩
        unfold pickAll
        rw [hw, hyes, h2, List.filter_cons_of_pos (by simp [hw]), List.map_cons]
        simp [expected, hw]
      · obtain ⟨l, h4, h5⟩ := hone v hv hw
        rw [h4]
        simp only [h1]
        refine ⟨_, rfl, ?_⟩
        unfold pickAll
        rw [hw, h5, h2, List.filter_cons_of_pos (by simp [hw]), List.map_cons]
        simp [expected, hw]
  obtain ⟨arrs, h1, h2⟩ := hall pvars fun _ h => h
  have hsize : (((pvars.filter fun v => decide (v.toWrite ≠ .no)).map (expected q.2.1 get rs)).all
      fun c => decide (c.2.length = inds.length)) = true := by
    rw [List.all_eq_true]
    intro c hc
    obtain ⟨v, _, rfl⟩ := List.mem_map.mp hc
    rw [decide_eq_true_eq, hlen]
    unfold expected
    simp only
    split <;> rw [List.length_map]
  refine ⟨(Collection.construct 0 (rs.map (·.id)) (("time", rs.map fun _ => some T) ::
    (pvars.filter fun v => decide (v.toWrite ≠ .no)).map (expected q.2.1 get rs))).1, ?_, ?_, rfl⟩
  · unfold fromParticleFile
    rw [h1]
    simp only [restartAt]
    rw [← hinds, h2, hids, htm]
    simp only
    rw [if_pos hsize]
    simp [Collection.construct]
    rfl
  · simp [Collection.construct]

/-! ### The restarted particles are the active ones -/

/-- C56, selection: let a run have a regular write at time `T` (the first one at that time), and let no other call
record a particle whose own time is `T`. Then the records at `T` in the file are exactly the particles that were
in the set at that write with own time `T`, with the values they had, each of them once. -/
theorem C56_active_partial (s : ℚ) (hs : s = 1 ∨ s = -1) (once : Bool) (pre post : List (Event V)) (e : Event V)
    (T : ℚ) (hr : IsRun s (pre ++ e :: post)) (hpos : ∀ e' ∈ pre ++ e :: post, ∀ p ∈ e'.ps, 0 ≤ p.id)
    (hok : (run (newFile false once) (pre ++ e :: post)).2.2 = false)
    (hreg : e.req = .regular) (hT : e.time = T)
    (hfirst : ∀ e' ∈ pre, e'.req = .regular → e'.time ≠ T)
    (hpre : ∀ e' ∈ pre, ∀ p ∈ recorded e', p.time ≠ some T)
    (hpost : ∀ e' ∈ post, e'.time ≠ T → ∀ p ∈ recorded e', p.time ≠ some T) :
    let q := run (newFile false once) (pre ++ e :: post)
    let rs := recordsAt q.1.maxid.toNat q.2.1 T
    (∀ p, p ∈ rs ↔ p ∈ e.ps ∧ p.time = some T) ∧ (rs.map (·.id)).Pairwise (· < ·) := by
  intro q rs
  have hin : ∀ o ∈ q.2.1, ∀ p ∈ o.data, 0 ≤ p.id := by
    intro o ho p hp
    obtain ⟨e', he, _, hpe, _⟩ := C18_record_is_active_or_deleted s _ (newFile false once) hr o ho p hp
    exact hpos e' he p hpe
  have hmem : ∀ p, p ∈ rs ↔ p ∈ allData q.2.1 ∧ p.time = some T := by
    intro p
    show p ∈ recordsAt q.1.maxid.toNat q.2.1 T ↔ _
    unfold recordsAt
    rw [List.mem_flatMap]
    constructor
    · rintro ⟨i, _, hp⟩
      rw [List.mem_filter, Bool.and_eq_true, decide_eq_true_eq, decide_eq_true_eq] at hp
      exact ⟨hp.1, hp.2.2⟩
    · rintro ⟨hp, ht⟩
      obtain ⟨o, ho, hpo⟩ := List.mem_flatMap.mp hp
      have h0 := hin o ho p hpo
      have h1 : p.id ≤ q.1.maxid := ((run_grow (pre ++ e :: post) (newFile false once)).2.2.2 o ho).1 p hpo
      refine ⟨p.id.toNat, List.mem_range.mpr (by omega), ?_⟩
      rw [List.mem_filter, Bool.and_eq_true, decide_eq_true_eq, decide_eq_true_eq]
      exact ⟨hp, by omega, ht⟩
  obtain ⟨h1, h2, h3⟩ := run_append_ok pre (e :: post) (newFile false once) hok
  have hlast : (run (newFile false once) pre).1.lasttime ≠ some T :=
    run_lasttime pre (newFile false once) T (fun e' he' => hr.lib e' (by simp [he'])) hfirst (by simp [newFile])
  obtain ⟨hwod, _, _⟩ := run_flags pre (newFile false once)
  have hallq : allData q.2.1 = allData (run (newFile false once) pre).2.1 ++
      allData (run (run (newFile false once) pre).1 (e :: post)).2.1 := by
    show allData (run (newFile false once) (pre ++ e :: post)).2.1 = _
    rw [h1]
    simp [allData]
  set f0 := (run (newFile false once) pre).1 with hf0
  rcases hd : toDict f0 e.ps e.time e.req with _ | ⟨f', d, o⟩
  · rw [run_cons_none hd] at h3
    simp at h3
  · obtain ⟨c1, c2, c3⟩ := run_cons_some (es := post) hd
    have hdata := toDict_regular hreg (by rw [hT]; exact hlast) (by rw [hwod]; rfl) hd
    have hall2 : allData (run f0 (e :: post)).2.1 = d ++ allData (run f' post).2.1 := by
      rw [c1]; simp [allData]
    have hrpost : IsRun s post := (isRun_right (isRun_right hr : IsRun s ([e] ++ post)))
    have hle : ∀ e' ∈ post, s * T ≤ s * e'.time := by
      have := (isRun_right hr : IsRun s (e :: post)).mono
      rw [List.pairwise_cons] at this
      intro e' he'
      rw [← hT]
      exact this.1 e' he'
    have hafter : ∀ p ∈ allData (run f' post).2.1, p.time ≠ some T := by
      intro p hp
      obtain ⟨o', ho', hpo⟩ := List.mem_flatMap.mp hp
      have hkey := run_no_key_at_last (by rcases hs with h | h <;> rw [h] <;> norm_num) post f' T hrpost
        (by rw [hdata.2, hT]) hle (o'.time, p.id) (List.mem_flatMap.mpr ⟨o', ho', List.mem_map.mpr ⟨p, hpo, rfl⟩⟩)
      obtain ⟨e', he', ht', hp'⟩ := run_recorded post f' hrpost.lib o' ho' p hpo
      exact hpost e' he' (by rw [ht']; exact hkey) p hp'
    have hbefore : ∀ p ∈ allData (run (newFile false once) pre).2.1, p.time ≠ some T := by
      intro p hp
      obtain ⟨o', ho', hpo⟩ := List.mem_flatMap.mp hp
      obtain ⟨e', he', _, hp'⟩ := run_recorded pre (newFile false once)
        (fun x hx => hr.lib x (by simp [hx])) o' ho' p hpo
      exact hpre e' he' p hp'
    have hmain : ∀ p, p ∈ rs ↔ p ∈ e.ps ∧ p.time = some T := by
      intro p
      rw [hmem, hallq, hall2, List.mem_append, List.mem_append]
      constructor
      · rintro ⟨h | h | h, ht⟩
        · exact absurd ht (hbefore p h)
        · rw [hdata.1] at h
          exact ⟨(List.mem_filter.mp h).1, ht⟩
        · exact absurd ht (hafter p h)
      · rintro ⟨hp, ht⟩
        refine ⟨Or.inr (Or.inl ?_), ht⟩
        rw [hdata.1, List.mem_filter]
        refine ⟨hp, ?_⟩
        unfold toWrite
        rw [ht, hT]
        have := abs_nonneg (p.dt / 2)
        simp only [Bool.and_eq_true, decide_eq_true_eq]
        constructor <;> linarith
    refine ⟨hmain, ?_⟩
    -- each particle once, in order
    have hfil : (allData q.2.1).filter (fun p => decide (p.time = some T)) =
        (e.ps.filter fun p => toWrite p e.time).filter fun p => decide (p.time = some T) := by
      rw [hallq, hall2, List.filter_append, List.filter_append, hdata.1]
      have g1 : (allData (run (newFile false once) pre).2.1).filter (fun p => decide (p.time = some T)) = [] :=
        List.filter_eq_nil_iff.mpr fun p hp => by simpa using hbefore p hp
      have g2 : (allData (run f' post).2.1).filter (fun p => decide (p.time = some T)) = [] :=
        List.filter_eq_nil_iff.mpr fun p hp => by simpa using hafter p hp
      rw [g1, g2]
      simp
    have hnod : (((allData q.2.1).filter fun p => decide (p.time = some T)).map (·.id)).Nodup := by
      rw [hfil]
      have hu := hr.unique e (by simp)
      exact hu.sublist ((List.filter_sublist.trans List.filter_sublist).map _)
    show ((recordsAt q.1.maxid.toNat q.2.1 T).map (·.id)).Pairwise (· < ·)
    exact recordsAt_sorted _ _ _ hnod

/-! ### The restart time and the IDs -/

/-- C56: without `restarttime` the restart is at the latest time in the file. -/
theorem C56_default_time (time : List (List (Option ℚ))) (r : List (Option ℚ)) (t : ℚ)
    (hr : r ∈ time) (ht : some t ∈ r) :
    ∃ T, restartAt time .last = .ok (some T) ∧ (∃ r' ∈ time, some T ∈ r') ∧
      ∀ r' ∈ time, ∀ t', some t' ∈ r' → t' ≤ T := by
  have hmem : t ∈ time.flatten.filterMap id :=
    List.mem_filterMap.mpr ⟨some t, List.mem_flatten.mpr ⟨r, hr, ht⟩, rfl⟩
  have hne : time.flatten.isEmpty = false := by
    rcases h : time.flatten with _ | ⟨a, l⟩
    · rw [h] at hmem; simp at hmem
    · rfl
  have hfold : ∀ (l : List ℚ) (a : ℚ), (l.foldl max a = a ∨ l.foldl max a ∈ l) ∧ a ≤ l.foldl max a ∧
      ∀ x ∈ l, x ≤ l.foldl max a := by
    intro l
    induction l with
    | nil => intro a; simp
    | cons b l ih =>
      intro a
      rw [List.foldl_cons]
      obtain ⟨h1, h2, h3⟩ := ih (max a b)
      refine ⟨?_, le_trans (le_max_left _ _) h2, ?_⟩
      · rcases h1 with h1 | h1
        · rw [h1]
          rcases le_total a b with h | h
          · right; rw [max_eq_right h]; simp
          · left; rw [max_eq_left h]
        · right; exact List.mem_cons_of_mem _ h1
      · intro x hx
        rcases List.mem_cons.mp hx with rfl | hx
        · exact le_trans (le_max_right _ _) h2
        · exact h3 x hx
  unfold restartAt
  rw [hne]
  simp only [Bool.false_eq_true, if_false]
  unfold nanmax
  rcases h : time.flatten.filterMap id with _ | ⟨a, l⟩
  · rw [h] at hmem; simp at hmem
  · obtain ⟨h1, h2, h3⟩ := hfold l a
    have hT : l.foldl max a ∈ a :: l := by
      rcases h1 with h1 | h1
      · rw [h1]; simp
      · exact List.mem_cons_of_mem _ h1
    refine ⟨l.foldl max a, rfl, ?_, ?_⟩
    · rw [← h] at hT
      obtain ⟨x, hx, hx2⟩ := List.mem_filterMap.mp hT
      obtain ⟨r', hr', hxr⟩ := List.mem_flatten.mp hx
      have : x = some (l.foldl max a) := hx2
      exact ⟨r', hr', this ▸ hxr⟩
    · intro r' hr' t' ht'
      have : t' ∈ time.flatten.filterMap id :=
        List.mem_filterMap.mpr ⟨some t', List.mem_flatten.mpr ⟨r', hr', ht'⟩, rfl⟩
      rw [h] at this
      rcases List.mem_cons.mp this with rfl | hh
      · exact h2
      · exact h3 t' hh

example : restartAt [[some 0, some 60, none], [some 30, none, none]] .last = .ok (some 60) := by decide +kernel

/-- Without `restart` the particles get new IDs: the numbers from the counter on. -/
theorem C56_new_ids (lastID : ℤ) (pvars : List PVar) (f : NcFile) (rt : RestartTime) (c : Collection.Coll (Option ℚ))
    (last : ℤ) (h : fromParticleFile lastID pvars f false rt = .ok (c, last)) :
    c.ids = (List.range c.ids.length).map fun (i : Nat) => (i : ℤ) + lastID := by
  unfold fromParticleFile at h
  split at h
  · cases h
  · split at h
    · cases h
    · simp only at h
      split at h
      · next hp _ =>
        split at h
        · injection h with h
          injection h with h1 h2
          rw [← h1]
          simp only [pidOrig, cond_false, Option.some.injEq] at hp
          rw [← hp]
          simp [Collection.construct, Collection.arange, Function.comp]
        · cases h
      · cases h

/-! ### A concrete run and its file -/

/-- One class variable written at every output, one written once, one not written. -/
def exVars : List PVar := [⟨"lon", .yes⟩, ⟨"xi", .no⟩, ⟨"release", .once⟩]
def exGet (n : String) (p : P Nat) : Option ℚ := if n = "release" then some (100 + p.id) else some p.vals

/-- The file that the run `evs` leaves behind. -/
def fileAfter (evs : List (Event Nat)) : NcFile :=
  let q := run (newFile false true) evs
  let m := q.1.maxid.toNat
  let path := fun (_ : Nat) => "out/0/f.npy".toList
  let path1 := fun (_ : Nat) => "out/0/f_once.npy".toList
  { traj := (readNpy m q.1.timeWritten.length (filesOf path (fun p => p.id) q.2.1)).getD []
    time := ((readNpy m q.1.timeWritten.length (filesOf path (fun p => p.time) q.2.1)).getD []).map
      fun r => r.map Option.join
    vars := [("lon", .grid (((readNpy m q.1.timeWritten.length
        (filesOf path (exGet "lon") q.2.1)).getD []).map fun r => r.map Option.join)),
      ("release", .line (((readNpy m 1
        (filesOf path1 (exGet "release") (onceOuts q.2.1))).getD []).map fun r => (r.headD none).join))] }

/-- Four calls: particles 0, 1 and 2 are active at t = 0, particle 1 is deleted at its own time 80, particles 0, 2
and the new particle 3 go on. -/
def exEvents : List (Event Nat) :=
  [⟨0, .regular, [exP 0 0 1, exP 1 0 2, exP 2 0 3]⟩,
   ⟨60, .regular, [exP 0 60 4, exP 1 60 5, exP 2 60 6]⟩,
   ⟨120, .mask [false, true, false], [exP 0 120 7, { exP 1 80 8 with deleted := true }, exP 2 120 9]⟩,
   ⟨120, .regular, [exP 2 120 9, exP 0 120 7, exP 3 120 10]⟩]

/-- The file meets the hypothesis of `C56_records`, and the restart gives the three active particles. -/
example :
    let q := run (newFile false true) exEvents
    FileOf q.1.maxid.toNat q.1.timeWritten.length (fun _ => "out/0/f.npy".toList)
      (fun _ => "out/0/f_once.npy".toList) q.2.1 exGet exVars (fileAfter exEvents) := by
  refine ⟨by decide +kernel, by decide +kernel, ?_, ?_, ?_, ?_⟩
  · intro v hv h
    simp only [exVars, List.mem_cons, List.not_mem_nil, or_false] at hv
    rcases hv with rfl | rfl | rfl
    · exact ⟨_, Option.some_get (by decide +kernel) |>.symm, by decide +kernel⟩
    · cases h
    · cases h
  · intro v hv h
    simp only [exVars, List.mem_cons, List.not_mem_nil, or_false] at hv
    rcases hv with rfl | rfl | rfl
    · cases h
    · cases h
    · exact ⟨_, Option.some_get (by decide +kernel) |>.symm, by decide +kernel⟩
  · intro v hv h
    simp only [exVars, List.mem_cons, List.not_mem_nil, or_false] at hv
    rcases hv with rfl | rfl | rfl
    · cases h
    · decide +kernel
    · cases h
  · intro v hv h
    simp only [exVars, List.mem_cons, List.not_mem_nil, or_false] at hv
    rcases hv with rfl | rfl | rfl <;> exact absurd h (by decide)

example : IsRun 1 exEvents where
  lib := by
    intro e he
    simp only [exEvents, List.mem_cons, List.not_mem_nil, or_false] at he
    rcases he with rfl | rfl | rfl | rfl
    · exact Or.inl rfl
    · exact Or.inl rfl
    · exact Or.inr ⟨_, rfl, rfl⟩
    · exact Or.inl rfl
  mono := by norm_num [exEvents]
  unique := by
    intro e he
    simp only [exEvents, List.mem_cons, List.not_mem_nil, or_false] at he
    rcases he with rfl | rfl | rfl | rfl <;> decide
  gone := by simp [exEvents, deletedIDs, byMask, exP]

/-- The hypotheses of `C56_records` on the 'once' records and of `C56_active_partial`, for the same run. -/
example :
    let q := run (newFile false true) exEvents
    (allOnce q.2.1).map (·.id) = [0, 1, 2, 3] ∧ ((allData q.2.1).map (·.id)).dedup = [1, 2, 0, 3] ∧ q.2.2 = false ∧
    (recordsAt q.1.maxid.toNat q.2.1 120).map (fun p => (p.id, p.vals)) = [(0, 7), (2, 9), (3, 10)] ∧
    (∀ e ∈ exEvents.take 3, ∀ p ∈ recorded e, p.time ≠ some 120) := by decide +kernel

example : (fromParticleFile 17 exVars (fileAfter exEvents) true .last).toOption.map
    (fun r => (r.1.ids, r.2)) = some ([0, 2, 3], 4) := by decide +kernel

example : (fromParticleFile 17 exVars (fileAfter exEvents) true .last).toOption.map (fun r => r.1.cols) =
    some [("time", [some 120, some 120, some 120]), ("lon", [some 7, some 9, some 10]),
      ("release", [some 100, some 102, some 103])] := by decide +kernel

/-! ### Where restarting is wrong -/

/-- C56 is false for a particle that is deleted before it moved on from the restart time: it has two records with
that time, and comes back twice, with the same ID. -/
theorem C56_deleted_returns_fails :
    (fromParticleFile 0 [⟨"lon", .yes⟩] (fileAfter
      [⟨0, .regular, [exP 0 0 1, exP 1 0 2]⟩,
       ⟨60, .mask [false, true], [exP 0 60 3, { exP 1 0 4 with deleted := true }]⟩,
       ⟨60, .regular, [exP 0 60 3]⟩]) true (.at 0)).toOption.map (fun r => (r.1.ids, r.1.cols)) =
    some ([0, 1, 1], [("time", [some 0, some 0, some 0]), ("lon", [some 1, some 2, some 4])]) := by decide +kernel

/-- C56 is false for variables written once if a particle was released after an output and deleted before the next
(C62): the rows do not belong to the same particles, the restart raises IndexError or, as here, gives particle 2 the
release value of particle 3. -/
theorem C56_once_fails :
    (fromParticleFile 0 exVars (fileAfter
      [⟨0, .regular, [exP 0 0 1, exP 1 10 2]⟩,
       ⟨60, .mask [false, true], [exP 0 60 3, { exP 1 20 4 with deleted := true }]⟩,
       ⟨60, .regular, [exP 0 60 3, exP 2 60 5, exP 3 60 6]⟩,
       ⟨120, .regular, [exP 0 120 3, exP 2 120 5, exP 3 115 6]⟩]) true .last).toOption.map
        (fun r => (r.1.ids, r.1.cols.lookup "release")) = some ([0, 2], some [some 100, some 103]) := by
  decide +kernel

/-- C56 is false for particles whose own time is not exactly the restart time, although they are active then
(within half a step): they are missing. -/
theorem C56_off_step_fails :
    let evs : List (Event Nat) := [⟨120, .regular, [exP 0 120 3, exP 1 118 5]⟩]
    (∀ e ∈ evs, ∀ p ∈ e.ps, active p e.time) ∧
    (fromParticleFile 0 [⟨"lon", .yes⟩] (fileAfter evs) true .last).toOption.map (fun r => r.1.ids) = some [0] := by
  decide +kernel

/-- After a restart the ID of a particle that ended before the restart is given to a new particle: particle 1 was
deleted, the next particle added gets the ID 1. -/
theorem C56_id_again_fails :
    (fromParticleFile 0 [⟨"lon", .yes⟩] (fileAfter
      [⟨0, .regular, [exP 0 0 1, exP 1 0 2]⟩,
       ⟨60, .mask [false, true], [exP 0 60 3, { exP 1 20 4 with deleted := true }]⟩,
       ⟨60, .regular, [exP 0 60 3]⟩]) true .last).toOption.map
        (fun r => (r.1.ids, (Collection.construct r.2 [0] ([] : List (String × List (Option ℚ)))).1.ids)) =
    some ([0], [1]) := by decide +kernel

end Parcels.Restart
