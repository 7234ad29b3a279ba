import Verif.Proofs.Timer

/-!
C125: timers.
-/

namespace Parcels.Timer

/-- C125: a timer counts the time during which it runs. At the moment of any call the readings of all timers stay what they are, and between calls a timer that
runs advances with the clock, one that does not run stands still. A new timer reads 0. -/
theorem C125_counts (h : List (ℚ × Op)) (now : ℚ) (op : Op) (j : Nat) :
    (∀ x, (run h)[j]? = some x → (∃ y, (run (h ++ [(now, op)]))[j]? = some y ∧ y.parent = x.parent ∧ localTime y now = localTime x now) ∧
      (∀ a b, Running (run h) j → localTime x b - localTime x a = b - a) ∧ (∀ a b, ¬ Running (run h) j → localTime x b = localTime x a)) ∧
    (∀ y, (run h)[j]? = none → (run (h ++ [(now, op)]))[j]? = some y → localTime y now = 0) := by
  constructor
  · intro x hx
    refine ⟨?_, ?_, ?_⟩
    · obtain ⟨y, h1, h2⟩ := step_keeps (run h) now op j x hx
      refine ⟨y, by rw [run_snoc]; exact h1, h2, ?_⟩
      exact change_reading hx (step_change _ _ _ _ _ h1)
    · rintro a b ⟨x', c, h1, h2⟩
      rw [hx] at h1
      injection h1 with h1
      subst h1
      rw [grow x a b, h2]
      simp
    · intro a b hr
      rw [grow x a b]
      cases e : x.start with
      | none => simp
      | some c => exact absurd ⟨x, c, hx, e⟩ hr
  · intro y hn hy
    rcases (old_or_new h (now, op) j y hy).2 with ⟨x, hx, -⟩ | ⟨-, e⟩
    · rw [hn] at hx; cases hx
    · exact e

/-- C125: `start` works exactly for a timer that does not run and whose parent, if it has one, runs; then it runs. `stop` works exactly for a timer that runs;
then it does not. A call that fails changes nothing. -/
theorem C125_calls (s : State) (now : ℚ) (i : Nat) (x : Tm) (hx : s[i]? = some x) :
    ((step s now (.start i)).2 = true ↔ ¬ Running s i ∧ ∀ p, x.parent = some p → Running s p) ∧
    ((step s now (.start i)).2 = true → Running (step s now (.start i)).1 i) ∧
    ((step s now (.stop i)).2 = true ↔ Running s i) ∧
    (¬ Running (step s now (.stop i)).1 i) ∧
    ((step s now (.start i)).2 = false → (step s now (.start i)).1 = s) ∧ ((step s now (.stop i)).2 = false → (step s now (.stop i)).1 = s) := by
  have hl := (List.getElem?_eq_some_iff.1 hx).1
  have hrun : Running s i ↔ x.start.isSome = true := by
    constructor
    · rintro ⟨x', a, h1, h2⟩
      rw [hx] at h1
      injection h1 with h1
      rw [h1, h2]
      rfl
    · intro q
      obtain ⟨a, ha⟩ := Option.isSome_iff_exists.1 q
      exact ⟨x, a, hx, ha⟩
  have hpar : parentRuns s x = true ↔ ∀ p, x.parent = some p → Running s p := by
    constructor
    · exact parentRuns_iff s x
    · intro q
      unfold parentRuns
      cases e : x.parent with
      | none => rfl
      | some p =>
        obtain ⟨y, a, h1, h2⟩ := q p e
        simp [h1, h2]
  simp only [step, startAt, stopAt, hx]
  refine ⟨?_, ?_, ?_, ?_, ?_, ?_⟩
  · rw [hrun, ← hpar]
    split
    · rename_i c
      simp only [Bool.and_eq_true, Option.isNone_iff_eq_none] at c
      simp [c.1, c.2]
    · rename_i c
      simp only [Bool.and_eq_true, Option.isNone_iff_eq_none] at c
      constructor
      · intro q; cases q
      · rintro ⟨q1, q2⟩
        exact absurd ⟨q2, by simpa using q1⟩ c
  · split
    · intro _
      exact ⟨_, now, by simp [hl]; rfl, rfl⟩
    · intro q; cases q
  · rw [hrun]
    cases x.start <;> simp
  · cases e : x.start with
    | none =>
      simp only []
      rw [hrun, e]
      simp
    | some a =>
      rintro ⟨y, b, h1, h2⟩
      simp only [List.getElem?_set, hl, if_true] at h1
      injection h1 with h1
      rw [← h1] at h2
      cases h2
  · split
    · intro q; cases q
    · intro _; rfl
  · cases e : x.start with
    | none => intro _; rfl
    | some a => intro q; cases q

/-- C125: if the clock does not go back, no reading is negative. -/
theorem C125_nonneg (h : List (ℚ × Op)) (hc : Clock h) (j : Nat) (x : Tm) (hx : (run h)[j]? = some x) (now : ℚ) (hn : After h now) : 0 ≤ localTime x now :=
  nonneg h hc j x hx now hn

/-- C125: a timer reads at most what its parent reads, so that its share is at most 100 percent. Partial: no timer is stopped while one of its children runs
(`C125_share_fails`). -/
theorem C125_share_partial (h : List (ℚ × Op)) (hc : Clock h) (hf : ChildrenFirst h) (j : Nat) (x : Tm) (hx : (run h)[j]? = some x) (q : Nat) (hq : x.parent = some q)
    (now : ℚ) (hn : After h now) : ∃ z, (run h)[q]? = some z ∧ localTime x now ≤ localTime z now := by
  obtain ⟨z, h1, -, h2⟩ := nested h hc hf j x hx q hq
  exact ⟨z, h1, h2 now hn⟩

/-- A timer for the whole program and one for its loop, which runs twice. -/
def exCalls : List (ℚ × Op) := [(1, .new none true), (2, .new (some 0) true), (5, .stop 1), (6, .start 1), (7, .stop 1), (9, .stop 0)]

example : (run exCalls).map (fun x => localTime x 10) = [8, 4] ∧ exCalls.map Prod.fst = [1, 2, 5, 6, 7, 9] := by decide +kernel

example : Clock exCalls ∧ After exCalls 10 := by
  constructor
  · unfold Clock; decide +kernel
  · unfold After; decide +kernel

theorem exCalls_first : ChildrenFirst exCalls := by
  intro h1 now i h2 e j x hx hp
  have hlen : h1.length < 6 := by
    have : exCalls.length = (h1 ++ (now, Op.stop i) :: h2).length := by rw [← e]
    simp [exCalls] at this
    omega
  have h1e : h1 = exCalls.take h1.length := by rw [e]; simp
  have hop : exCalls[h1.length]? = some (now, .stop i) := by rw [e]; simp
  rintro ⟨x', a, k1, k2⟩
  rw [hx] at k1
  injection k1 with k1
  subst k1
  rw [h1e] at hx
  generalize h1.length = n at hlen hop hx
  have hj : j < 2 := by
    have := (List.getElem?_eq_some_iff.1 hx).1
    have hb : ∀ n, n < 6 → (run (exCalls.take n)).length ≤ 2 := by decide +kernel
    have := hb n hlen
    omega
  have key : ∀ n, n < 6 → ∀ j, j < 2 → (match exCalls[n]?, (run (exCalls.take n))[j]? with
      | some (_, .stop i), some x => decide (x.parent = some i) && x.start.isSome
      | _, _ => false) = false := by decide +kernel
  have := key n hlen j hj
  rw [hop, hx] at this
  simp [hp, k2] at this

/-- C125 is false if a timer is stopped while its child runs: the child goes on, and its share of the time of its parent is 500 percent here. -/
theorem C125_share_fails : (run [(1, .new none true), (2, .new (some 0) true), (3, .stop 0)]).map (fun x => localTime x 12) = [2, 10] := by
  decide +kernel

end Parcels.Timer
