import Verif.Model.Crash

/-!
C22: what a crash during output leaves behind.
-/

namespace Parcels.Crash

variable {R : Type}

/-! ### Lemmas -/

def Step.name : Step R → Name
  | .opened n => n
  | .closed n _ => n

theorem doStep_other (fs : FS R) (s : Step R) (n : Name) (h : s.name ≠ n) : doStep fs s n = fs n := by
  cases s with
  | opened m => simp only [doStep]; rw [if_neg]; intro e; exact h e.symm
  | closed m c => simp only [doStep]; rw [if_neg]; intro e; exact h e.symm

theorem doSteps_other : ∀ (l : List (Step R)) (fs : FS R) (n : Name), (∀ s ∈ l, s.name ≠ n) →
    doSteps fs l n = fs n := by
  intro l
  induction l with
  | nil => intro fs n _; rfl
  | cons s l ih =>
    intro fs n h
    show doSteps (doStep fs s) l n = fs n
    rw [ih _ _ (fun x hx => h x (by simp [hx])), doStep_other _ _ _ (h s (by simp))]

theorem doSteps_append (fs : FS R) (a b : List (Step R)) : doSteps fs (a ++ b) = doSteps (doSteps fs a) b := by
  simp [doSteps]

theorem loadRecs_congr {fs fs' : FS R} : ∀ (ns : List Name), (∀ n ∈ ns, fs n = fs' n) →
    loadRecs fs ns = loadRecs fs' ns := by
  intro ns
  induction ns with
  | nil => intro _; rfl
  | cons n ns ih =>
    intro h
    simp only [loadRecs]
    rw [h n (by simp), ih (fun x hx => h x (by simp [hx]))]

theorem loadRecs_append {fs : FS R} : ∀ (a : List Name) (n : Name) (L : List R) (r : R), loadRecs fs a = some L →
    fs n = some (some (.recs r)) → loadRecs fs (a ++ [n]) = some (L ++ [r]) := by
  intro a
  induction a with
  | nil => intro n L r h hn; simp only [loadRecs] at h; cases h; simp [loadRecs, hn]
  | cons b a ih =>
    intro n L r h hn
    simp only [loadRecs] at h
    split at h
    · rename_i r' rs h1 h2
      cases h
      simp only [List.cons_append, loadRecs, h1, ih n rs r h2 hn]
    · cases h

/-- Everything named in memory is completely on disk, with contents `L` and `O`; new names are new. -/
structure Core (m : Mem) (fs : FS R) (L O : List R) : Prop where
  files : loadRecs fs m.files = some L
  once : loadRecs fs m.once = some O
  names : ∀ n ∈ m.files, ∃ k, n = .data k ∧ k < m.files.length
  onames : ∀ n ∈ m.once, ∃ k, n = .once k ∧ k ≤ m.files.length

theorem core_nil : Core (R := R) ⟨[], []⟩ (fun _ => none) [] [] :=
  ⟨rfl, rfl, by simp, by simp⟩

/-- The steps of a call before the index is touched. -/
def bodySteps (m : Mem) (c : Call R) : List (Step R) :=
  (dataSteps m c.data).1 ++ (onceSteps (dataSteps m c.data).2 c.once).1

theorem callSteps_eq (m : Mem) (c : Call R) : (callSteps m c).1 =
    bodySteps m c ++ [.opened .info, .closed .info (.index (callSteps m c).2.files (callSteps m c).2.once)] := rfl

theorem body_names {m : Mem} {fs : FS R} {L O : List R} (h : Core m fs L O) (c : Call R)
    (hc : c.once.isSome = true → c.data.isSome = true) :
    ∀ s ∈ bodySteps m c, s.name ≠ .info ∧ s.name ∉ m.files ∧ s.name ∉ m.once := by
  have hd : Name.data m.files.length ∉ m.files := by
    intro hh
    obtain ⟨k, e, hk⟩ := h.names _ hh
    cases e; omega
  have hd2 : Name.data m.files.length ∉ m.once := by
    intro hh
    obtain ⟨k, e, hk⟩ := h.onames _ hh
    cases e
  have ho : Name.once (m.files.length + 1) ∉ m.once := by
    intro hh
    obtain ⟨k, e, hk⟩ := h.onames _ hh
    cases e; omega
  have ho2 : Name.once (m.files.length + 1) ∉ m.files := by
    intro hh
    obtain ⟨k, e, hk⟩ := h.names _ hh
    cases e
  intro s hs
  unfold bodySteps at hs
  rcases hcd : c.data with _ | r
  · rcases hco : c.once with _ | o
    · rw [hcd, hco] at hs; simp [dataSteps, onceSteps] at hs
    · have := hc (by rw [hco]; rfl)
      rw [hcd] at this; cases this
  · rcases hco : c.once with _ | o
    · rw [hcd, hco] at hs
      simp only [dataSteps, onceSteps, List.append_nil, List.mem_cons, List.not_mem_nil, or_false] at hs
      rcases hs with rfl | rfl
      · exact ⟨by simp [Step.name], hd, hd2⟩
      · exact ⟨by simp [Step.name], hd, hd2⟩
    · rw [hcd, hco] at hs
      simp only [dataSteps, onceSteps, List.cons_append, List.nil_append, List.mem_cons, List.not_mem_nil,
        or_false, List.length_append, List.length_cons, List.length_nil] at hs
      rcases hs with rfl | rfl | rfl | rfl
      · exact ⟨by simp [Step.name], hd, hd2⟩
      · exact ⟨by simp [Step.name], hd, hd2⟩
      · exact ⟨by simp [Step.name], ho2, ho⟩
      · exact ⟨by simp [Step.name], ho2, ho⟩

/-- As long as the index is not touched, nothing that was exportable is lost and nothing is added. -/
theorem recover_body {m : Mem} {fs : FS R} {L O : List R} (h : Core m fs L O)
    (hi : fs .info = some (some (.index m.files m.once))) (c : Call R)
    (hc : c.once.isSome = true → c.data.isSome = true) (pre : List (Step R)) (hp : pre <+: bodySteps m c) :
    recover (doSteps fs pre) = some (L, O) := by
  have hn : ∀ s ∈ pre, s.name ≠ .info ∧ s.name ∉ m.files ∧ s.name ∉ m.once :=
    fun s hs => body_names h c hc s (hp.subset hs)
  have e1 : doSteps fs pre .info = some (some (.index m.files m.once)) := by
    rw [doSteps_other pre fs _ (fun s hs => (hn s hs).1), hi]
  have e2 : loadRecs (doSteps fs pre) m.files = some L := by
    rw [← h.files]
    apply loadRecs_congr
    intro n hnm
    apply doSteps_other
    intro s hs e
    exact (hn s hs).2.1 (e ▸ hnm)
  have e3 : loadRecs (doSteps fs pre) m.once = some O := by
    rw [← h.once]
    apply loadRecs_congr
    intro n hnm
    apply doSteps_other
    intro s hs e
    exact (hn s hs).2.2 (e ▸ hnm)
  simp only [recover, e1, e2, e3]

theorem core_call {m : Mem} {fs : FS R} {L O : List R} (h : Core m fs L O) (c : Call R)
    (hc : c.once.isSome = true → c.data.isSome = true) :
    Core (callSteps m c).2 (doSteps fs (callSteps m c).1) (L ++ c.data.toList) (O ++ c.once.toList) ∧
    doSteps fs (callSteps m c).1 .info =
      some (some (.index (callSteps m c).2.files (callSteps m c).2.once)) := by
  have hinfo : doSteps fs (callSteps m c).1 .info =
      some (some (.index (callSteps m c).2.files (callSteps m c).2.once)) := by
    rw [callSteps_eq, doSteps_append]
    simp [doSteps, doStep]
  refine ⟨?_, hinfo⟩
  have hn := body_names h c hc
  have keepF : ∀ n ∈ m.files, doSteps fs (callSteps m c).1 n = fs n := by
    intro n hnm
    apply doSteps_other
    intro s hs e
    rw [callSteps_eq, List.mem_append] at hs
    rcases hs with hs | hs
    · exact (hn s hs).2.1 (e ▸ hnm)
    · simp only [List.mem_cons, List.not_mem_nil, or_false] at hs
      obtain ⟨k, ek, _⟩ := h.names n hnm
      rcases hs with rfl | rfl <;> (rw [ek] at e; cases e)
  have keepO : ∀ n ∈ m.once, doSteps fs (callSteps m c).1 n = fs n := by
    intro n hnm
    apply doSteps_other
    intro s hs e
    rw [callSteps_eq, List.mem_append] at hs
    rcases hs with hs | hs
    · exact (hn s hs).2.2 (e ▸ hnm)
    · simp only [List.mem_cons, List.not_mem_nil, or_false] at hs
      obtain ⟨k, ek, _⟩ := h.onames n hnm
      rcases hs with rfl | rfl <;> (rw [ek] at e; cases e)
  have lF : loadRecs (doSteps fs (callSteps m c).1) m.files = some L := by
    rw [← h.files]; exact loadRecs_congr _ keepF
  have lO : loadRecs (doSteps fs (callSteps m c).1) m.once = some O := by
    rw [← h.once]; exact loadRecs_congr _ keepO
  rcases hcd : c.data with _ | r
  · rcases hco : c.once with _ | o
    · have hm : (callSteps m c).2 = m := by simp [callSteps, hcd, hco, dataSteps, onceSteps]
      rw [hm]
      simp only [Option.toList_none, List.append_nil]
      exact ⟨lF, lO, h.names, h.onames⟩
    · have := hc (by rw [hco]; rfl)
      rw [hcd] at this; cases this
  · rcases hco : c.once with _ | o
    · have hm : (callSteps m c).2 = { m with files := m.files ++ [.data m.files.length] } := by
        simp [callSteps, hcd, hco, dataSteps, onceSteps]
      have hval : doSteps fs (callSteps m c).1 (.data m.files.length) = some (some (.recs r)) := by
        simp [callSteps, hcd, hco, dataSteps, onceSteps, doSteps, doStep]
      rw [hm]
      simp only [Option.toList_none, Option.toList_some, List.append_nil]
      refine ⟨loadRecs_append _ _ _ _ lF hval, lO, ?_, ?_⟩
      · intro n hnm
        simp only [List.mem_append, List.mem_singleton, List.length_append, List.length_singleton] at hnm ⊢
        rcases hnm with hnm | rfl
        · obtain ⟨k, e, hk⟩ := h.names n hnm; exact ⟨k, e, by omega⟩
        · exact ⟨_, rfl, by omega⟩
      · intro n hnm
        obtain ⟨k, e, hk⟩ := h.onames n hnm
        exact ⟨k, e, by simp; omega⟩
    · have hm : (callSteps m c).2 =
          { files := m.files ++ [.data m.files.length], once := m.once ++ [.once (m.files.length + 1)] } := by
        simp [callSteps, hcd, hco, dataSteps, onceSteps]
      have hval : doSteps fs (callSteps m c).1 (.data m.files.length) = some (some (.recs r)) := by
        simp [callSteps, hcd, hco, dataSteps, onceSteps, doSteps, doStep]
      have hval2 : doSteps fs (callSteps m c).1 (.once (m.files.length + 1)) = some (some (.recs o)) := by
        simp [callSteps, hcd, hco, dataSteps, onceSteps, doSteps, doStep]
      rw [hm]
      simp only [Option.toList_some]
      refine ⟨loadRecs_append _ _ _ _ lF hval, loadRecs_append _ _ _ _ lO hval2, ?_, ?_⟩
      · intro n hnm
        simp only [List.mem_append, List.mem_singleton, List.length_append, List.length_singleton] at hnm ⊢
        rcases hnm with hnm | rfl
        · obtain ⟨k, e, hk⟩ := h.names n hnm; exact ⟨k, e, by omega⟩
        · exact ⟨_, rfl, by omega⟩
      · intro n hnm
        simp only [List.mem_append, List.mem_singleton, List.length_append, List.length_singleton] at hnm ⊢
        rcases hnm with hnm | rfl
        · obtain ⟨k, e, hk⟩ := h.onames n hnm
          exact ⟨k, e, by omega⟩
        · exact ⟨_, rfl, by omega⟩

/-- The records that the calls have stored. -/
def stored (cs : List (Call R)) : List R × List R := (cs.filterMap (·.data), cs.filterMap (·.once))

theorem core_calls : ∀ (cs : List (Call R)) (m : Mem) (fs : FS R) (L O : List R), Core m fs L O →
    (∀ c ∈ cs, c.once.isSome = true → c.data.isSome = true) →
    Core (memAfter m cs) (doSteps fs (allSteps m cs)) (L ++ (stored cs).1) (O ++ (stored cs).2) ∧
    (cs ≠ [] → doSteps fs (allSteps m cs) .info =
      some (some (.index (memAfter m cs).files (memAfter m cs).once))) := by
  intro cs
  induction cs with
  | nil => intro m fs L O h _; exact ⟨by simpa [stored, memAfter, allSteps, doSteps] using h, by simp⟩
  | cons c cs ih =>
    intro m fs L O h hc
    obtain ⟨h1, h2⟩ := core_call h c (hc c (by simp))
    obtain ⟨h3, h4⟩ := ih _ _ _ _ h1 (fun x hx => hc x (by simp [hx]))
    simp only [allSteps, memAfter, doSteps_append]
    refine ⟨?_, fun _ => ?_⟩
    · have e1 : L ++ (stored (c :: cs)).1 = L ++ c.data.toList ++ (stored cs).1 := by
        rcases hcd : c.data with _ | r <;> simp [stored, hcd]
      have e2 : O ++ (stored (c :: cs)).2 = O ++ c.once.toList ++ (stored cs).2 := by
        rcases hcd : c.once with _ | r <;> simp [stored, hcd]
      rw [e1, e2]; exact h3
    · by_cases hcs : cs = []
      · subst hcs; simpa [allSteps, memAfter, doSteps] using h2
      · exact h4 hcs

theorem allSteps_append : ∀ (a b : List (Call R)) (m : Mem),
    allSteps m (a ++ b) = allSteps m a ++ allSteps (memAfter m a) b := by
  intro a
  induction a with
  | nil => intro b m; rfl
  | cons c a ih => intro b m; simp only [List.cons_append, allSteps, memAfter, ih, List.append_assoc]

/-- Every point in the step sequence lies in some call. -/
theorem locate : ∀ (cs : List (Call R)) (m : Mem) (k : Nat), k < (allSteps m cs).length →
    ∃ a c b, cs = a ++ c :: b ∧ ∃ j, j < (callSteps (memAfter m a) c).1.length ∧
      (allSteps m cs).take k = allSteps m a ++ ((callSteps (memAfter m a) c).1).take j := by
  intro cs
  induction cs with
  | nil => intro m k h; simp [allSteps] at h
  | cons c cs ih =>
    intro m k h
    by_cases hk : k < (callSteps m c).1.length
    · refine ⟨[], c, cs, rfl, k, hk, ?_⟩
      simp only [allSteps, memAfter, List.nil_append]
      rw [List.take_append_of_le_length (by omega)]
    · simp only [allSteps, List.length_append] at h
      obtain ⟨a, c', b, e, j, hj, ht⟩ := ih (callSteps m c).2 (k - (callSteps m c).1.length) (by omega)
      refine ⟨c :: a, c', b, by rw [e]; rfl, j, hj, ?_⟩
      simp only [allSteps, memAfter]
      rw [List.take_append, List.take_of_length_le (by omega), ht, List.append_assoc]

/-! ### The property -/

/-- The empty temporary directory and the lists of a new ParticleFile. -/
def emptyDir : FS R := fun _ => none
def newMem : Mem := ⟨[], []⟩

/-- What is on disk if the process dies after `k` steps of the calls `cs`. -/
def crashAfter (cs : List (Call R)) (k : Nat) : FS R := doSteps emptyDir ((allSteps newMem cs).take k)

/-- C22, partial: for every sequence of calls and every crash point, if the last step was not the opening of the
index file, and at least one call had returned, the directory allows the export of exactly the output of all
calls that had returned. Missing: the moment between opening (and so emptying) the index file and closing it, see
`C22_index_window`. (The hypothesis on calls: a call with 'once' records has records; this holds for all calls the
library makes.) -/
theorem C22_crash_keeps_completed_calls_partial (cs : List (Call R))
    (hc : ∀ c ∈ cs, c.once.isSome = true → c.data.isSome = true) (k : Nat)
    (hk : k ≤ (allSteps newMem cs).length)
    (hlast : ((allSteps newMem cs).take k).getLast? ≠ some (.opened .info)) :
    ∃ done rest, cs = done ++ rest ∧ (allSteps newMem done).length ≤ k ∧
      (∀ c r, rest = c :: r → k < (allSteps newMem (done ++ [c])).length) ∧
      (done ≠ [] → recover (crashAfter cs k) = some (stored done)) := by
  rcases Nat.lt_or_ge k (allSteps newMem cs).length with h | h
  · obtain ⟨a, c, b, e, j, hj, ht⟩ := locate cs newMem k h
    have hlen : k = (allSteps newMem a).length + j := by
      have := congrArg List.length ht
      rw [List.length_take, List.length_append, List.length_take] at this
      omega
    refine ⟨a, c :: b, e, by omega, ?_, ?_⟩
    · intro c' r hcr
      injection hcr with h1 _
      subst h1
      rw [allSteps_append]
      simp only [allSteps, List.append_nil, List.length_append]
      omega
    · intro hne
      have hca : ∀ x ∈ a, x.once.isSome = true → x.data.isSome = true :=
        fun x hx => hc x (by rw [e]; simp [hx])
      obtain ⟨h1, h2⟩ := core_calls a newMem (emptyDir (R := R)) [] [] core_nil hca
      unfold crashAfter
      rw [ht, doSteps_append]
      have := recover_body h1 (h2 hne) c (hc c (by rw [e]; simp)) (((callSteps (memAfter newMem a) c).1).take j) (by
        rw [callSteps_eq] at hj ⊢
        by_cases hjb : j ≤ (bodySteps (memAfter newMem a) c).length
        · rw [List.take_append_of_le_length hjb]; exact List.take_prefix _ _
        · exfalso
          simp only [List.length_append, List.length_cons, List.length_nil] at hj
          have hj1 : j = (bodySteps (memAfter newMem a) c).length + 1 := by omega
          apply hlast
          rw [ht, callSteps_eq, hj1, List.take_append]
          simp)
      simpa using this
  · have hkl : k = (allSteps newMem cs).length := by omega
    refine ⟨cs, [], by simp, by omega, by simp, ?_⟩
    intro hne
    obtain ⟨h1, h2⟩ := core_calls cs newMem (emptyDir (R := R)) [] [] core_nil hc
    unfold crashAfter
    rw [hkl, List.take_length]
    simp only [recover, h2 hne, h1.files, h1.once]
    simp

/-- Three calls, the second without records, the first and third with 'once' records: 14 steps. -/
def exCalls : List (Call Nat) := [⟨some 1, some 100⟩, ⟨none, none⟩, ⟨some 2, some 200⟩]

example : (allSteps newMem exCalls).length = 14 ∧
    (List.range 15).map (fun k => recover (crashAfter exCalls k)) =
      [none, none, none, none, none, none, some ([1], [100]), none, some ([1], [100]), some ([1], [100]),
       some ([1], [100]), some ([1], [100]), some ([1], [100]), none, some ([1, 2], [100, 200])] := by
  decide +kernel

/-- C22 is false: whatever was written before, if the process dies while the index file is being rewritten (at
every call, after its records are stored), nothing at all can be exported from the directory. -/
theorem C22_index_window (done : List (Call R)) (c : Call R) :
    ∃ k, (allSteps newMem done).length ≤ k ∧ k < (allSteps newMem (done ++ [c])).length ∧
      recover (crashAfter (done ++ [c]) k) = none := by
  refine ⟨(allSteps newMem done).length + (bodySteps (memAfter newMem done) c).length + 1, by omega, ?_, ?_⟩
  · rw [allSteps_append]
    simp only [allSteps, callSteps_eq, List.append_nil, List.length_append, List.length_cons, List.length_nil]
    omega
  · unfold crashAfter
    rw [allSteps_append]
    simp only [allSteps, callSteps_eq, List.append_nil]
    have e : (allSteps newMem done ++ (bodySteps (memAfter newMem done) c ++
        [Step.opened .info, Step.closed .info (.index (callSteps (memAfter newMem done) c).2.files
          (callSteps (memAfter newMem done) c).2.once)])).take
        ((allSteps newMem done).length + (bodySteps (memAfter newMem done) c).length + 1) =
        (allSteps newMem done ++ bodySteps (memAfter newMem done) c) ++ [.opened .info] := by
      rw [← List.append_assoc, List.take_append]
      simp [Nat.add_sub_cancel_left, List.take_of_length_le]
    rw [e, doSteps_append]
    simp [recover, doSteps, doStep]

end Parcels.Crash
