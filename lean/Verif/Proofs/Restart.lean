import Verif.Spec.Restart
import Verif.Props.OutputExport

/-!
Lemmas for C56.
-/

namespace Parcels.Restart

open Parcels.Output Parcels.Npy

variable {V : Type}

theorem mapM_flatMap {α β γ : Type} (q : β → Option γ) (a : α → List β) (b : α → List γ) :
    ∀ l : List α, (∀ x ∈ l, (a x).mapM q = some (b x)) → (l.flatMap a).mapM q = some (l.flatMap b) := by
  intro l
  induction l with
  | nil => intro _; rfl
  | cons x l ih =>
    intro h
    rw [List.flatMap_cons, List.flatMap_cons, List.mapM_append, h x (by simp), ih fun y hy => h y (by simp [hy])]
    rfl

theorem mapM_filterMap {α β γ : Type} (q : β → Option γ) (p : α → Option β) (h : α → γ) :
    ∀ l : List α, (∀ x ∈ l, ∀ y, p x = some y → q y = some (h x)) →
      (l.filterMap p).mapM q = some ((l.filter fun x => (p x).isSome).map h) := by
  intro l
  induction l with
  | nil => intro _; rfl
  | cons x l ih =>
    intro hh
    have ih' := ih fun y hy => hh y (by simp [hy])
    rcases hp : p x with _ | y
    · rw [List.filterMap_cons_none hp, ih', List.filter_cons_of_neg (by rw [hp]; simp)]
    · rw [List.filterMap_cons_some hp, List.filter_cons_of_pos (by rw [hp]; rfl), List.mapM_cons, ih',
        hh x (by simp) y hp]
      rfl

/-- Looking something up at all places where the time is `T`. -/
theorem whereEq_mapM {κ α γ : Type} (K : List κ) (s : κ → List α) (tm : α → Option ℚ) (T : ℚ)
    (q : Nat × Nat → Option γ) (h : κ → α → γ)
    (hq : ∀ i k, K[i]? = some k → ∀ j x, (s k)[j]? = some x → tm x = some T → q (i, j) = some (h k x)) :
    (whereEq (K.map fun k => (s k).map tm) (some T)).mapM q =
      some (K.flatMap fun k => ((s k).filter fun x => decide (tm x = some T)).map (h k)) := by
  unfold whereEq
  rw [List.zipIdx_map, List.flatMap_map]
  have e : (K.flatMap fun k => ((s k).filter fun x => decide (tm x = some T)).map (h k)) =
      K.zipIdx.flatMap fun r => ((s r.1).filter fun x => decide (tm x = some T)).map (h r.1) := by
    conv_lhs => rw [← List.zipIdx_map_fst 0 K]
    rw [List.flatMap_map]
  rw [e]
  apply mapM_flatMap
  intro r hr
  have hk := List.mem_zipIdx_iff_getElem?.mp hr
  simp only [Prod.map, id]
  rw [List.zipIdx_map, List.filterMap_map]
  rw [mapM_filterMap q _ fun c => h r.1 c.1]
  · congr 1
    have e2 : (s r.1).filter (fun x => decide (tm x = some T)) =
        (((s r.1).zipIdx.filter fun c => decide (tm c.1 = some T)).map (·.1)) := by
      conv_lhs => rw [← List.zipIdx_map_fst 0 (s r.1)]
      rw [List.filter_map]
      rfl
    rw [e2, List.map_map]
    congr 1
    apply List.filter_congr
    intro c _
    simp only [Function.comp, Prod.map, id]
    by_cases hc : tm c.1 = some T
    · simp [hc]
    · simp only [hc, and_false, if_false, decide_false, Option.isSome_none]
  · intro c hc y hy
    simp only [Function.comp, Prod.map, id] at hy
    split at hy
    · next hh =>
      injection hy with hy
      rw [← hy]
      exact hq _ _ hk _ _ (List.mem_zipIdx_iff_getElem?.mp hc) hh.2
    · cases hy

theorem whereEq_length {κ α : Type} (K : List κ) (s : κ → List α) (tm : α → Option ℚ) (T : ℚ) :
    (whereEq (K.map fun k => (s k).map tm) (some T)).length =
      (K.flatMap fun k => (s k).filter fun x => decide (tm x = some T)).length := by
  have h := whereEq_mapM K s tm T (fun _ => some ()) (fun _ _ => ()) (fun _ _ _ _ _ _ _ => rfl)
  have key : ∀ (l : List (Nat × Nat)), l.mapM (fun _ => some ()) = some (l.map fun _ => ()) := by
    intro l
    induction l with
    | nil => rfl
    | cons a l ih => rw [List.mapM_cons, ih]; rfl
  rw [key] at h
  injection h with h
  have h2 := congrArg List.length h
  rw [List.length_map] at h2
  rw [h2, List.length_flatMap, List.length_flatMap]
  simp only [List.length_map]

/-- The rows of the exported arrays: the records of particle `i`, filled up. -/
def padded (maxid : Nat) (outs : List (Out V)) (i : Nat) : List (Option (P V)) :=
  let r := (allData outs).filter fun p => decide (p.id = (i : ℤ))
  r.map some ++ List.replicate (longest maxid (filesOf (fun _ => []) (fun p => p) outs) - r.length) none

/-- The particles with a row. -/
def rowIds (maxid : Nat) (outs : List (Out V)) : List Nat :=
  (List.range (maxid + 1)).filter fun i => !((allData outs).filter fun p => decide (p.id = (i : ℤ))).isEmpty

theorem trajectories_eq {W : Type} (maxid : Nat) (path : Nat → List Char) (outs : List (Out V)) (val : P V → W)
    (hpos : ∀ o ∈ outs, ∀ p ∈ o.data, 0 ≤ p.id) :
    trajectories maxid (filesOf path val outs) =
      (rowIds maxid outs).map fun i => (padded maxid outs i).map (Option.map val) := by
  unfold trajectories rowIds padded
  have hr : ∀ i, recordsOf (filesOf path val outs) i =
      ((allData outs).filter fun p => p.id = (i : ℤ)).map val := fun i => filesOf_records path val outs i hpos
  have hr' : ∀ i, recordsOf (filesOf (fun _ => []) (fun p => p) outs) i =
      ((allData outs).filter fun p => p.id = (i : ℤ)).map fun p => p :=
    fun i => filesOf_records (fun _ => []) (fun p => p) outs i hpos
  have hl : longest maxid (filesOf path val outs) = longest maxid (filesOf (fun _ => []) (fun p => p) outs) := by
    unfold longest
    congr 1
    apply List.map_congr_left
    intro i _
    rw [hr, hr', List.length_map, List.length_map]
  rw [hl]
  have hf : (fun i => !(recordsOf (filesOf path val outs) i).isEmpty) =
      fun (i : Nat) => !((allData outs).filter fun p => decide (p.id = (i : ℤ))).isEmpty := by
    funext i
    rw [hr]
    simp
  rw [hf]
  apply List.map_congr_left
  intro i _
  rw [hr]
  simp [List.map_append, List.map_replicate, List.length_map, Function.comp]

theorem filter_padded (maxid : Nat) (outs : List (Out V)) (i : Nat) (T : ℚ) :
    (padded maxid outs i).filter (fun x => decide (x.bind (·.time) = some T)) =
      ((allData outs).filter fun p => decide (p.id = (i : ℤ)) && decide (p.time = some T)).map some := by
  unfold padded
  simp only
  rw [List.filter_append, List.filter_map]
  have h2 : (List.replicate (longest maxid (filesOf (fun _ => []) (fun p => p) outs) -
      ((allData outs).filter fun p => decide (p.id = (i : ℤ))).length) (none : Option (P V))).filter
        (fun x => decide (x.bind (·.time) = some T)) = [] := by
    rw [List.filter_eq_nil_iff]
    intro x hx
    rw [List.eq_of_mem_replicate hx]
    simp
  rw [h2, List.append_nil]
  congr 1
  rw [List.filter_filter]
  apply List.filter_congr
  intro p _
  simp [Function.comp, Bool.and_comm]

theorem flatMap_rowIds {β : Type} (maxid : Nat) (outs : List (Out V)) (T : ℚ) (g : P V → β) :
    (rowIds maxid outs).flatMap (fun (i : Nat) => ((allData outs).filter fun p =>
      decide (p.id = (i : ℤ)) && decide (p.time = some T)).map g) = (recordsAt maxid outs T).map g := by
  unfold rowIds recordsAt
  rw [List.map_flatMap]
  induction List.range (maxid + 1) with
  | nil => rfl
  | cons i l ih =>
    rw [List.flatMap_cons, List.filter_cons]
    split
    · rw [List.flatMap_cons, ih]
    · next h =>
      rw [ih]
      have he : (allData outs).filter (fun p => decide (p.id = (i : ℤ))) = [] := by simpa using h
      have : (allData outs).filter (fun p => decide (p.id = (i : ℤ)) && decide (p.time = some T)) = [] := by
        rw [List.filter_eq_nil_iff] at he ⊢
        intro p hp hh
        rw [Bool.and_eq_true] at hh
        exact he p hp hh.1
      rw [this]
      rfl

theorem run_append_ok : ∀ (a b : List (Event V)) (f : PFile), (run f (a ++ b)).2.2 = false →
    (run f (a ++ b)).2.1 = (run f a).2.1 ++ (run (run f a).1 b).2.1 ∧
    (run f (a ++ b)).1 = (run (run f a).1 b).1 ∧ (run (run f a).1 b).2.2 = false := by
  intro a
  induction a with
  | nil => intro b f h; exact ⟨by simp [run], by simp [run], by simpa [run] using h⟩
  | cons e a ih =>
    intro b f h
    rw [List.cons_append] at h ⊢
    rcases hd : toDict f e.ps e.time e.req with _ | ⟨f', d, o⟩
    · rw [run_cons_none hd] at h; simp at h
    · obtain ⟨c1, c2, c3⟩ := run_cons_some (es := a ++ b) hd
      obtain ⟨d1, d2, d3⟩ := run_cons_some (es := a) hd
      rw [c3] at h
      obtain ⟨i1, i2, i3⟩ := ih b f' h
      rw [c1, c2, d1, d2, i1, i2]
      exact ⟨by simp, rfl, i3⟩

theorem run_lasttime : ∀ (es : List (Event V)) (f : PFile) (T : ℚ), (∀ e ∈ es, LibraryCall e) →
    (∀ e ∈ es, e.req = .regular → e.time ≠ T) → f.lasttime ≠ some T → (run f es).1.lasttime ≠ some T := by
  intro es
  induction es with
  | nil => intro f T _ _ h; exact h
  | cons e es ih =>
    intro f T hl hT hf
    rcases hd : toDict f e.ps e.time e.req with _ | ⟨f', d, o⟩
    · rw [run_cons_none hd]; exact hf
    · rw [(run_cons_some hd).2.1]
      apply ih _ _ (fun x hx => hl x (by simp [hx])) (fun x hx => hT x (by simp [hx]))
      obtain ⟨_, _, _, _, _, h6, h7⟩ := toDict_cases (hl e (by simp)) hd
      by_cases hreg : e.req = .regular
      · rcases h6 hreg with h | ⟨h, _⟩
        · rw [h]
          intro hh
          injection hh with hh
          exact hT e (by simp) hreg hh
        · rw [h]; exact hf
      · rw [(h7 hreg).1]; exact hf

theorem toDict_flags {f f' : PFile} {ps d o : List (P V)} {time : ℚ} {req : Req}
    (h : toDict f ps time req = some (f', d, o)) :
    f'.writeOndelete = f.writeOndelete ∧ f'.hasOnce = f.hasOnce := by
  unfold toDict at h
  split at h
  · split at h
    · injection h with h; injection h with h1 _
      subst h1
      split <;> exact ⟨rfl, rfl⟩
    · simp only at h
      split at h
      · cases h
      · injection h with h; injection h with h1 _
        subst h1
        exact ⟨rfl, rfl⟩
  · injection h with h; injection h with h1 _
    subst h1
    exact ⟨rfl, rfl⟩

theorem run_flags : ∀ (es : List (Event V)) (f : PFile),
    (run f es).1.writeOndelete = f.writeOndelete ∧ (run f es).1.hasOnce = f.hasOnce ∧ True := by
  intro es
  induction es with
  | nil => intro f; exact ⟨rfl, rfl, trivial⟩
  | cons e es ih =>
    intro f
    rcases hd : toDict f e.ps e.time e.req with _ | ⟨f', d, o⟩
    · rw [run_cons_none hd]; exact ⟨rfl, rfl, trivial⟩
    · rw [(run_cons_some hd).2.1]
      obtain ⟨h1, h2, _⟩ := ih f'
      obtain ⟨g1, g2⟩ := toDict_flags hd
      exact ⟨h1.trans g1, h2.trans g2, trivial⟩

/-- A regular write that is not ignored stores exactly the active particles. -/
theorem toDict_regular {f f' : PFile} {e : Event V} {d o : List (P V)} (hreg : e.req = .regular)
    (hl : f.lasttime ≠ some e.time) (hw : f.writeOndelete = false)
    (h : toDict f e.ps e.time e.req = some (f', d, o)) :
    d = (e.ps.filter fun p => toWrite p e.time) ∧ f'.lasttime = some e.time := by
  unfold toDict at h
  rw [if_pos ⟨hl, Or.inl hw⟩] at h
  split at h
  · next he =>
    injection h with h; injection h with h1 h2; injection h2 with h2 _
    rw [List.isEmpty_iff] at he
    rw [← h1, ← h2, he]
    exact ⟨rfl, rfl⟩
  · simp only at h
    split at h
    · cases h
    · injection h with h; injection h with h1 h2; injection h2 with h2 _
      rw [← h1, ← h2, hreg]
      simp only [choose, if_true, and_true]
      rcases hany : (e.ps.any fun p => toWrite p e.time) with _ | _
      · simp only [cond_false]
        rw [eq_comm, List.filter_eq_nil_iff]
        intro p hp hh
        have : (e.ps.any fun p => toWrite p e.time) = true := List.any_eq_true.mpr ⟨p, hp, hh⟩
        rw [hany] at this
        cases this
      · rfl

theorem toDict_recorded {f f' : PFile} {e : Event V} {d o : List (P V)} (hl : LibraryCall e)
    (h : toDict f e.ps e.time e.req = some (f', d, o)) : ∀ p ∈ d, p ∈ recorded e := by
  intro p hp
  unfold toDict at h
  split at h
  · split at h
    · injection h with h; injection h with _ h2; injection h2 with h2 _
      rw [← h2] at hp; simp at hp
    · simp only at h
      split at h
      · cases h
      · injection h with h; injection h with _ h2; injection h2 with h2 _
        rw [← h2] at hp
        unfold recorded
        rcases hl with hr | ⟨m, hr, _⟩
        · rw [hr] at hp ⊢
          simp only [choose] at hp
          rcases hany : (e.ps.any fun p => toWrite p e.time) with _ | _
          · rw [hany] at hp; simp at hp
          · rw [hany] at hp; exact hp
        · rw [hr] at hp ⊢
          simp only [choose] at hp
          rcases hany : m.any id with _ | _
          · rw [hany] at hp; simp at hp
          · rw [hany] at hp; exact hp
  · injection h with h; injection h with _ h2; injection h2 with h2 _
    rw [← h2] at hp; simp at hp

theorem run_recorded : ∀ (es : List (Event V)) (f : PFile), (∀ e ∈ es, LibraryCall e) →
    ∀ o ∈ (run f es).2.1, ∀ p ∈ o.data, ∃ e ∈ es, e.time = o.time ∧ p ∈ recorded e := by
  intro es
  induction es with
  | nil => intro f _ o ho; simp [run] at ho
  | cons e es ih =>
    intro f hl o ho p hp
    rcases hd : toDict f e.ps e.time e.req with _ | ⟨f', d, oo⟩
    · rw [run_cons_none hd] at ho; simp at ho
    · rw [(run_cons_some hd).1] at ho
      rcases List.mem_cons.mp ho with rfl | ho
      · exact ⟨e, by simp, rfl, toDict_recorded (hl e (by simp)) hd p hp⟩
      · obtain ⟨e', he', h1, h2⟩ := ih f' (fun x hx => hl x (by simp [hx])) o ho p hp
        exact ⟨e', by simp [he'], h1, h2⟩

theorem isRun_right {s : ℚ} : ∀ {a b : List (Event V)}, IsRun s (a ++ b) → IsRun s b := by
  intro a
  induction a with
  | nil => intro b h; exact h
  | cons e a ih => intro b h; exact ih (IsRun.tail h)

theorem recordsAt_sorted (maxid : Nat) (outs : List (Out V)) (T : ℚ)
    (h : (((allData outs).filter fun p => decide (p.time = some T)).map (·.id)).Nodup) :
    ((recordsAt maxid outs T).map (·.id)).Pairwise (· < ·) := by
  unfold recordsAt
  rw [List.map_flatMap, List.pairwise_flatMap]
  have hfil : ∀ i : Nat, (allData outs).filter (fun p => decide (p.id = (i : ℤ)) && decide (p.time = some T)) =
      ((allData outs).filter fun p => decide (p.time = some T)).filter fun p => decide (p.id = (i : ℤ)) := by
    intro i
    rw [List.filter_filter]
  constructor
  · intro i _
    rw [hfil]
    have hsub : ((((allData outs).filter fun p => decide (p.time = some T)).filter
        fun p => decide (p.id = (i : ℤ))).map (·.id)).Nodup := h.sublist (List.filter_sublist.map _)
    rw [List.nodup_iff_pairwise_ne] at hsub
    apply hsub.imp_of_mem
    intro a b ha hb hab
    obtain ⟨p, hp, rfl⟩ := List.mem_map.mp ha
    obtain ⟨p', hp', rfl⟩ := List.mem_map.mp hb
    have e1 := (List.mem_filter.mp hp).2
    have e2 := (List.mem_filter.mp hp').2
    rw [decide_eq_true_eq] at e1 e2
    exact absurd (e1.trans e2.symm) hab
  · apply (List.pairwise_lt_range (n := maxid + 1)).imp
    intro i j hij a ha b hb
    obtain ⟨p, hp, rfl⟩ := List.mem_map.mp ha
    obtain ⟨p', hp', rfl⟩ := List.mem_map.mp hb
    have e1 := (List.mem_filter.mp hp).2
    have e2 := (List.mem_filter.mp hp').2
    rw [Bool.and_eq_true, decide_eq_true_eq] at e1 e2
    rw [e1.1, e2.1]
    exact_mod_cast hij

end Parcels.Restart
