import Verif.Spec.GetExamples

/-!
Lemmas for C131.
-/

namespace Parcels.GetExamples

theorem put_put (f : Name → Option String) (n : Name) (a c : String) : put (put f n a) n c = put f n c := by
  funext m
  simp only [put]
  split <;> rfl

theorem run_cons (t : Target) (e : Event) (es : List Event) : run t (e :: es) = run (apply t e) es := rfl

theorem run_append (t : Target) (es fs : List Event) : run t (es ++ fs) = run (run t es) fs := by simp [run, List.foldl_append]

theorem events_some (server : Name → Option String) (f : Name → Option String) (n : Name) (ns : List Name) (h : (f n).isSome = true) :
    events server f (n :: ns) = (.mkdir n.1 :: (events server f ns).1, (events server f ns).2) := by simp [events, h]

theorem events_none (server : Name → Option String) (f : Name → Option String) (n : Name) (ns : List Name) (h : f n = none) (hs : server n = none) :
    events server f (n :: ns) = ([.mkdir n.1], false) := by simp [events, h, hs]

theorem events_new (server : Name → Option String) (f : Name → Option String) (n : Name) (ns : List Name) (c : String) (h : f n = none) (hs : server n = some c) :
    events server f (n :: ns) =
      (.mkdir n.1 :: .write n "" :: .write n c :: (events server (put f n c) ns).1, (events server (put f n c) ns).2) := by simp [events, h, hs]

/-- At each point of the downloads a file is as before, or it was missing and is now that of the server; with one exception. -/
theorem events_take (server : Name → Option String) (ns : List Name) (t : Target) (k : Nat) :
    ∃ b : Name, ∀ m, (run t ((events server t.files ns).1.take k)).files m = t.files m ∨
      (t.files m = none ∧ ((run t ((events server t.files ns).1.take k)).files m = server m ∨ m = b)) := by
  induction ns generalizing t k with
  | nil => exact ⟨("", ""), fun m => Or.inl (by simp [events, run])⟩
  | cons n ns ih =>
    cases hf : t.files n with
    | some c0 =>
      rw [events_some server t.files n ns (by simp [hf])]
      cases k with
      | zero => exact ⟨n, fun m => Or.inl rfl⟩
      | succ k => exact ih (apply t (.mkdir n.1)) k
    | none =>
      cases hs : server n with
      | none =>
        rw [events_none server t.files n ns hf hs]
        refine ⟨n, fun m => Or.inl ?_⟩
        cases k <;> simp [run, apply]
      | some c =>
        rw [events_new server t.files n ns c hf hs]
        match k with
        | 0 => exact ⟨n, fun m => Or.inl rfl⟩
        | 1 => exact ⟨n, fun m => Or.inl rfl⟩
        | 2 =>
          refine ⟨n, fun m => ?_⟩
          by_cases hm : m = n
          · exact Or.inr ⟨hm ▸ hf, Or.inr hm⟩
          · left
            simp [run, apply, put, hm]
        | k + 3 =>
          have e : (apply (apply (apply t (.mkdir n.1)) (.write n "")) (.write n c)).files = put t.files n c := put_put _ _ _ _
          obtain ⟨b, hb⟩ := ih (apply (apply (apply t (.mkdir n.1)) (.write n "")) (.write n c)) k
          rw [e] at hb
          refine ⟨b, fun m => ?_⟩
          simp only [List.take_succ_cons, run_cons]
          rcases hb m with h | ⟨h, h2⟩
          · by_cases hm : m = n
            · subst hm
              refine Or.inr ⟨hf, Or.inl ?_⟩
              rw [h, hs]
              simp [put]
            · left
              rw [h]
              simp [put, hm]
          · by_cases hm : m = n
            · subst hm
              simp [put] at h
            · right
              simp only [put, hm, if_false] at h
              exact ⟨h, h2⟩

/-- Downloads that are not interrupted. -/
theorem events_all (server : Name → Option String) (ns : List Name) (t : Target) (h : ∀ n ∈ ns, t.files n ≠ none ∨ server n ≠ none) :
    (events server t.files ns).2 = true ∧
    ∀ m, (run t (events server t.files ns).1).files m = if m ∈ ns then (t.files m).or (server m) else t.files m := by
  induction ns generalizing t with
  | nil => exact ⟨rfl, fun m => by simp [events, run]⟩
  | cons n ns ih =>
    cases hf : t.files n with
    | some c0 =>
      rw [events_some server t.files n ns (by simp [hf])]
      obtain ⟨i1, i2⟩ := ih (apply t (.mkdir n.1)) (fun m hm => h m (by simp [hm]))
      refine ⟨i1, fun m => ?_⟩
      rw [run_cons]
      refine (i2 m).trans ?_
      show (if m ∈ ns then (t.files m).or (server m) else t.files m) = _
      by_cases hm : m = n
      · subst hm
        simp [hf]
      · simp [hm]
    | none =>
      cases hs : server n with
      | none => rcases h n (by simp) with q | q
                · exact absurd hf q
                · exact absurd hs q
      | some c =>
        rw [events_new server t.files n ns c hf hs]
        have e : (apply (apply (apply t (.mkdir n.1)) (.write n "")) (.write n c)).files = put t.files n c := put_put _ _ _ _
        have hi := ih (apply (apply (apply t (.mkdir n.1)) (.write n "")) (.write n c))
        rw [e] at hi
        obtain ⟨i1, i2⟩ := hi (fun m hm => by
          rcases h m (by simp [hm]) with q | q
          · left
            simp only [put]
            split
            · simp
            · exact q
          · exact Or.inr q)
        refine ⟨i1, fun m => ?_⟩
        simp only [run_cons]
        rw [i2 m]
        by_cases hm : m = n
        · subst hm
          simp [put, hf, hs]
        · simp [put, hm]

/-- A file that is missing is still in the list, and no names are added. -/
theorem still_mem (names : List Name) (f : Name → Option String) :
    (∀ n ∈ names, f n = none → n ∈ still names f) ∧ ∀ n ∈ still names f, n ∈ names := by
  have aux : ∀ (xs l : List Name), (∀ n ∈ l, f n = none → n ∈ xs.foldl (fun l n => if (f n).isSome then l.erase n else l) l) ∧
      ∀ n ∈ xs.foldl (fun l n => if (f n).isSome then l.erase n else l) l, n ∈ l := by
    intro xs
    induction xs with
    | nil => exact fun l => ⟨fun n hn _ => hn, fun n hn => hn⟩
    | cons x xs ih =>
      intro l
      obtain ⟨i1, i2⟩ := ih (if (f x).isSome then l.erase x else l)
      constructor
      · intro n hn hf
        refine i1 n ?_ hf
        split
        · rename_i hx
          have : n ≠ x := by rintro rfl; simp [hf] at hx
          exact (List.mem_erase_of_ne this).2 hn
        · exact hn
      · intro n hn
        have := i2 n hn
        split at this
        · exact List.mem_of_mem_erase this
        · exact this
  exact aux names names

theorem run_copy (package t : Target) : run t (copyEvents package t) = if t.there then t else ⟨true, package.dirs, package.files⟩ := by
  unfold copyEvents
  split <;> rfl

end Parcels.GetExamples
