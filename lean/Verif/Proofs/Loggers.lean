import Verif.Spec.Loggers

/-! Lemmas for C123. -/

namespace Parcels.Loggers

theorem run_snoc (h : List Op) (op : Op) : run (h ++ [op]) = ((step (run h).1 op).1, (run h).2 ++ (shown h op).toList) := by
  have e : ∀ l, run l = l.foldl (fun p op => ((step p.1 op).1, p.2 ++ (step p.1 op).2.toList)) (init, []) := by
    intro l
    cases l <;> rfl
  rw [e (h ++ [op]), List.foldl_append, ← e]
  rfl

theorem level_snoc (h : List Op) (op : Op) : levelAfter (h ++ [op]) = match op with | .setLevel k => k | _ => levelAfter h := by
  unfold levelAfter
  rw [List.foldl_append]
  rfl

theorem emit_level (s : State) (r : Rec) : (emit s r).1.level = s.level := by
  unfold emit
  split <;> rfl

theorem run_level (h : List Op) : (run h).1.level = levelAfter h := by
  induction h using List.reverseRecOn with
  | nil => rfl
  | append_singleton h op ih =>
    rw [run_snoc, level_snoc]
    cases op <;> simp only [step, emit_level, ih]

theorem asked_snoc (h : List Op) (op : Op) (m : String) :
    AskedOnce (h ++ [op]) m ↔ AskedOnce h m ∨ ∃ l, op.asksOnce m = some l ∧ levelAfter h ≤ l := by
  constructor
  · rintro ⟨h1, o, h2, l, e, a, b⟩
    rcases List.eq_nil_or_concat h2 with rfl | ⟨h3, o', rfl⟩
    · obtain ⟨e1, e2⟩ := List.append_inj' e rfl
      injection e2 with e2
      subst e1
      subst e2
      exact Or.inr ⟨l, a, b⟩
    · left
      rw [List.concat_eq_append] at e
      have e' : h ++ [op] = (h1 ++ o :: h3) ++ [o'] := by simpa using e
      obtain ⟨e1, -⟩ := List.append_inj' e' rfl
      exact ⟨h1, o, h3, l, e1, a, b⟩
  · rintro (⟨h1, o, h2, l, e, a, b⟩ | ⟨l, a, b⟩)
    · exact ⟨h1, o, h2 ++ [op], l, by rw [e]; simp, a, b⟩
    · exact ⟨h, op, [], l, rfl, a, b⟩

theorem mem_emit (s : State) (r : Rec) (m : String) :
    m ∈ (emit s r).1.msgs ↔ m ∈ s.msgs ∨ (s.level ≤ r.level ∧ (r.level = 25 ∨ r.level = 26) ∧ r.msg = m) := by
  unfold emit filter
  by_cases c : s.level ≤ r.level
  · rw [if_pos c]
    by_cases d : r.level = warningOnceLevel ∨ r.level = infoOnceLevel
    · simp only [if_pos d, List.mem_cons]
      constructor
      · rintro (q | q)
        · exact Or.inr ⟨c, d, q.symm⟩
        · exact Or.inl q
      · rintro (q | ⟨-, -, q⟩)
        · exact Or.inr q
        · exact Or.inl q.symm
    · simp only [if_neg d]
      constructor
      · exact Or.inl
      · rintro (q | ⟨-, q, -⟩)
        · exact q
        · exact absurd q d
  · rw [if_neg c]
    constructor
    · exact Or.inl
    · rintro (q | ⟨q, -⟩)
      · exact q
      · exact absurd q c

/-- The filter holds the messages that were asked for once. -/
theorem run_msgs (h : List Op) (m : String) : m ∈ (run h).1.msgs ↔ AskedOnce h m := by
  induction h using List.reverseRecOn with
  | nil =>
    constructor
    · intro q; cases q
    · rintro ⟨h1, o, h2, l, e, -⟩
      simp at e
  | append_singleton h op ih =>
    rw [run_snoc, asked_snoc, ← ih]
    cases op with
    | setLevel n =>
      simp [step, Op.asksOnce]
    | log l k a =>
      simp only [step]
      rw [mem_emit, run_level]
      refine or_congr Iff.rfl ?_
      simp only [Op.asksOnce]
      constructor
      · rintro ⟨q1, q2, q3⟩
        exact ⟨l, if_pos ⟨q3, q2⟩, q1⟩
      · rintro ⟨l', q1, q2⟩
        split at q1
        · rename_i c
          injection q1 with q1
          subst q1
          exact ⟨q2, c.2, c.1⟩
        · cases q1
    | warningOnce k a =>
      simp only [step]
      rw [mem_emit, run_level]
      refine or_congr Iff.rfl ?_
      simp only [Op.asksOnce]
      constructor
      · rintro ⟨q1, q2, q3⟩
        exact ⟨25, if_pos q3, q1⟩
      · rintro ⟨l', q1, q2⟩
        split at q1
        · rename_i c
          injection q1 with q1
          subst q1
          exact ⟨q2, Or.inl rfl, c⟩
        · cases q1
    | infoOnce k a =>
      simp only [step]
      rw [mem_emit, run_level]
      refine or_congr Iff.rfl ?_
      simp only [Op.asksOnce]
      constructor
      · rintro ⟨q1, q2, q3⟩
        exact ⟨26, if_pos q3, q1⟩
      · rintro ⟨l', q1, q2⟩
        split at q1
        · rename_i c
          injection q1 with q1
          subst q1
          exact ⟨q2, Or.inr rfl, c⟩
        · cases q1

theorem emit_shown (h : List Op) (r : Rec) : (emit (run h).1 r).2 = some r ↔ levelAfter h ≤ r.level ∧ ¬ AskedOnce h r.msg := by
  rw [← run_msgs, ← run_level]
  unfold emit filter
  by_cases c : (run h).1.level ≤ r.level
  · rw [if_pos c]
    by_cases d : r.msg ∈ (run h).1.msgs
    · simp [d]
    · simp [c, d]
  · rw [if_neg c]
    simp [c]

theorem emit_none (s : State) (r : Rec) : (emit s r).2 = some r ∨ (emit s r).2 = none := by
  unfold emit
  split
  · simp only []
    split
    · exact Or.inl rfl
    · exact Or.inr rfl
  · exact Or.inr rfl

end Parcels.Loggers
