import Verif.Proofs.Loggers

/-!
C123: messages that are shown once.
-/

namespace Parcels.Loggers

/-- Is the record a message of `warning_once` or `info_once` with this text? -/
def isOnce (m : String) (r : Rec) : Bool := decide (r.msg = m) && (decide (r.level = 25) || decide (r.level = 26))

/-- C123: a call of `warning_once` or `info_once` shows the message, with its arguments, exactly if the level of the logger lets it through and the
program did not ask for this message before; after every history of calls and changes of the level. -/
theorem C123_first (h : List Op) (m : String) (a : List String) :
    (shown h (.warningOnce m a) = some ⟨25, m, a⟩ ↔ levelAfter h ≤ 25 ∧ ¬ AskedOnce h m) ∧
    (shown h (.infoOnce m a) = some ⟨26, m, a⟩ ↔ levelAfter h ≤ 26 ∧ ¬ AskedOnce h m) :=
  ⟨emit_shown h ⟨25, m, a⟩, emit_shown h ⟨26, m, a⟩⟩

/-- C123: whatever the program does, a message of `warning_once` or `info_once` is shown at most once; and it is shown exactly once if it was ever asked for when the
level let it through. -/
theorem C123_once (h : List Op) (m : String) :
    (run h).2.countP (isOnce m) ≤ 1 ∧ ((run h).2.countP (isOnce m) = 1 ↔ AskedOnce h m) := by
  have key : ((AskedOnce h m ∧ (run h).2.countP (isOnce m) = 1) ∨ (¬ AskedOnce h m ∧ (run h).2.countP (isOnce m) = 0)) := by
    induction h using List.reverseRecOn with
    | nil =>
      right
      refine ⟨?_, rfl⟩
      rintro ⟨h1, o, h2, l, e, -⟩
      simp at e
    | append_singleton h op ih =>
      rw [run_snoc]
      simp only [List.countP_append]
      -- a record with level `l` and message `k`
      have rec_case : ∀ (l : Nat) (k : String) (a : List String), shown h op = (emit (run h).1 ⟨l, k, a⟩).2 →
          ((∃ x, op.asksOnce m = some x ∧ levelAfter h ≤ x) ↔ (k = m ∧ (l = 25 ∨ l = 26) ∧ levelAfter h ≤ l)) →
          (AskedOnce (h ++ [op]) m ∧ (run h).2.countP (isOnce m) + (shown h op).toList.countP (isOnce m) = 1) ∨
          (¬ AskedOnce (h ++ [op]) m ∧ (run h).2.countP (isOnce m) + (shown h op).toList.countP (isOnce m) = 0) := by
        intro l k a hs ha
        rw [asked_snoc, ha]
        have hsh := emit_shown h ⟨l, k, a⟩
        rw [← hs] at hsh
        have hno := emit_none (run h).1 ⟨l, k, a⟩
        rw [← hs] at hno
        by_cases c : k = m ∧ (l = 25 ∨ l = 26)
        · obtain ⟨rfl, c2⟩ := c
          have ht : isOnce k ⟨l, k, a⟩ = true := by
            unfold isOnce
            rcases c2 with rfl | rfl <;> simp
          rcases ih with ⟨i1, i2⟩ | ⟨i1, i2⟩
          · left
            refine ⟨Or.inl i1, ?_⟩
            have : shown h op = none := by
              rcases hno with q | q
              · exact absurd i1 (hsh.1 q).2
              · exact q
            rw [this, i2]
            rfl
          · by_cases cl : levelAfter h ≤ l
            · left
              refine ⟨Or.inr ⟨rfl, c2, cl⟩, ?_⟩
              rw [hsh.2 ⟨cl, i1⟩, i2]
              simp [ht]
            · right
              refine ⟨by rintro (q | ⟨-, -, q⟩) <;> contradiction, ?_⟩
              have : shown h op = none := by
                rcases hno with q | q
                · exact absurd (hsh.1 q).1 cl
                · exact q
              rw [this, i2]
              rfl
        · have hz : (shown h op).toList.countP (isOnce m) = 0 := by
            rcases hno with q | q
            · rw [q]
              have : isOnce m ⟨l, k, a⟩ = false := by
                unfold isOnce
                by_contra w
                simp only [Bool.not_eq_false, Bool.and_eq_true, Bool.or_eq_true, decide_eq_true_eq] at w
                exact c w
              simp [this]
            · rw [q]
              rfl
          rw [hz]
          have : ¬ (k = m ∧ (l = 25 ∨ l = 26) ∧ levelAfter h ≤ l) := fun q => c ⟨q.1, q.2.1⟩
          simpa [this] using ih
      cases op with
      | setLevel n =>
        rw [asked_snoc]
        simpa [Op.asksOnce, shown, step] using ih
      | log l k a =>
        refine rec_case l k a rfl ?_
        simp only [Op.asksOnce]
        constructor
        · rintro ⟨x, q1, q2⟩
          split at q1
          · rename_i c
            injection q1 with q1
            subst q1
            exact ⟨c.1, c.2, q2⟩
          · cases q1
        · rintro ⟨q1, q2, q3⟩
          exact ⟨l, if_pos ⟨q1, q2⟩, q3⟩
      | warningOnce k a =>
        refine rec_case 25 k a rfl ?_
        simp only [Op.asksOnce]
        constructor
        · rintro ⟨x, q1, q2⟩
          split at q1
          · rename_i c
            injection q1 with q1
            subst q1
            exact ⟨c, by simp, q2⟩
          · cases q1
        · rintro ⟨q1, q2, q3⟩
          exact ⟨25, if_pos q1, q3⟩
      | infoOnce k a =>
        refine rec_case 26 k a rfl ?_
        simp only [Op.asksOnce]
        constructor
        · rintro ⟨x, q1, q2⟩
          split at q1
          · rename_i c
            injection q1 with q1
            subst q1
            exact ⟨c, by simp, q2⟩
          · cases q1
        · rintro ⟨q1, q2, q3⟩
          exact ⟨26, if_pos q1, q3⟩
  rcases key with ⟨k1, k2⟩ | ⟨k1, k2⟩
  · rw [k2]
    exact ⟨Nat.le_refl _, fun _ => k1, fun _ => rfl⟩
  · rw [k2]
    exact ⟨Nat.zero_le _, fun q => (by cases q), fun q => absurd q k1⟩

/-- C123: other messages are shown whenever the level lets them through. Partial: unless the same text was asked for once before
(`C123_plain_fails`). -/
theorem C123_plain_partial (h : List Op) (l : Nat) (m : String) (a : List String) (hm : ¬ AskedOnce h m) :
    shown h (.log l m a) = some ⟨l, m, a⟩ ↔ levelAfter h ≤ l := by
  refine (emit_shown h ⟨l, m, a⟩).trans ?_
  exact ⟨fun q => q.1, fun q => ⟨q, hm⟩⟩

/-- A program: a warning twice, silence, two other warnings. -/
def exProg : List Op := [.warningOnce "casting lon" [], .log 30 "old file" [], .warningOnce "casting lon" [], .setLevel 40, .warningOnce "flipping lat" [],
  .log 30 "old file" [], .setLevel 10, .warningOnce "flipping lat" [], .infoOnce "flipping lat" []]

example : (run exProg).2 = [⟨25, "casting lon", []⟩, ⟨30, "old file", []⟩, ⟨25, "flipping lat", []⟩] ∧
    (run exProg).2.countP (isOnce "flipping lat") = 1 ∧ levelAfter exProg = 10 := by decide +kernel

example : ¬ AskedOnce exProg "old file" ∧ AskedOnce exProg "casting lon" := by
  rw [← run_msgs, ← run_msgs]
  decide +kernel

/-- C123 is false for messages at other levels, if the same text was shown once before: an error (level 40) with this text is not shown. -/
theorem C123_plain_fails : shown [.warningOnce "no data" []] (.log 40 "no data" []) = none ∧ shown [] (.log 40 "no data" []) = some ⟨40, "no data", []⟩ := by
  decide +kernel

/-- C123 is false for messages with arguments: the filter compares the text before the arguments are put in, so that a different message is not shown. -/
theorem C123_arguments_fails : shown [.warningOnce "casting %s" ["lon"]] (.warningOnce "casting %s" ["lat"]) = none := by
  decide +kernel

end Parcels.Loggers
