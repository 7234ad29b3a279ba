import Verif.Spec.Timer
import Mathlib.Tactic.Linarith
import Mathlib.Tactic.Ring

/-! Lemmas for C125. -/

namespace Parcels.Timer

theorem run_snoc (h : List (ℚ × Op)) (p : ℚ × Op) : run (h ++ [p]) = (step (run h) p.1 p.2).1 := by
  unfold run
  rw [List.foldl_append]
  rfl

/-- What a start does to timer `j`. -/
theorem startAt_get (s : State) (now : ℚ) (i j : Nat) (y : Tm) (h : (startAt s now i).1[j]? = some y) :
    s[j]? = some y ∨ (i = j ∧ ∃ x, s[j]? = some x ∧ parentRuns s x = true ∧ x.start = none ∧ y = { x with start := some now }) := by
  unfold startAt at h
  cases e : s[i]? with
  | none => simp only [e] at h; exact Or.inl h
  | some x =>
    simp only [e] at h
    split at h
    · rename_i c
      simp only [Bool.and_eq_true, Option.isNone_iff_eq_none] at c
      simp only [List.getElem?_set] at h
      split at h
      · rename_i hij
        subst hij
        split at h
        · injection h with h
          exact Or.inr ⟨rfl, x, e, c.1, c.2, h.symm⟩
        · cases h
      · exact Or.inl h
    · exact Or.inl h

theorem stopAt_get (s : State) (now : ℚ) (i j : Nat) (y : Tm) (h : (stopAt s now i).1[j]? = some y) :
    s[j]? = some y ∨ (i = j ∧ ∃ x a, s[j]? = some x ∧ x.start = some a ∧ y = { x with t := x.t + (now - a), start := none }) := by
  unfold stopAt at h
  cases e : s[i]? with
  | none => simp only [e] at h; exact Or.inl h
  | some x =>
    simp only [e] at h
    cases ea : x.start with
    | none => simp only [ea] at h; exact Or.inl h
    | some a =>
      simp only [ea] at h
      simp only [List.getElem?_set] at h
      split at h
      · rename_i hij
        subst hij
        split at h
        · injection h with h
          exact Or.inr ⟨rfl, x, a, e, ea, h.symm⟩
        · cases h
      · exact Or.inl h

/-- What a call does to timer `j`: nothing; it is new; it starts; it stops. -/
inductive Change (s : State) (now : ℚ) (op : Op) (j : Nat) (y : Tm) : Prop
  | same (h : s[j]? = some y) (hs : op ≠ .stop j ∨ y.start = none)
  | fresh (hj : j = s.length) (ht : y.t = 0) (hp : ∀ p, y.parent = some p → p < s.length)
      (hr : y.start = none ∨ (y.start = some now ∧ ∀ p, y.parent = some p → Running s p)) (ho : ∃ q b, op = .new q b)
  | begin (x : Tm) (h : s[j]? = some x) (hx : x.start = none) (hy : y = { x with start := some now })
      (hr : ∀ p, y.parent = some p → Running s p) (ho : op = .start j)
  | finish (x : Tm) (a : ℚ) (h : s[j]? = some x) (hx : x.start = some a) (hy : y = { x with t := x.t + (now - a), start := none }) (ho : op = .stop j)

theorem parentRuns_iff (s : State) (x : Tm) (h : parentRuns s x = true) : ∀ p, x.parent = some p → Running s p := by
  intro p hp
  unfold parentRuns at h
  rw [hp] at h
  simp only at h
  cases e : s[p]? with
  | none => simp [e] at h
  | some y =>
    simp only [e] at h
    obtain ⟨a, ha⟩ := Option.isSome_iff_exists.1 h
    exact ⟨y, a, e, ha⟩

theorem new_change (s : State) (now : ℚ) (op : Op) (hop : ∀ i, op ≠ .stop i) (hon : ∃ q b, op = .new q b) (q : Option Nat) (hq : ∀ p, q = some p → p < s.length) (b : Bool) (j : Nat) (y : Tm)
    (h : (if b then startAt (s ++ [⟨none, 0, q⟩]) now s.length else (s ++ [⟨none, 0, q⟩], true)).1[j]? = some y) : Change s now op j y := by
  have base : ∀ z, (s ++ [(⟨none, 0, q⟩ : Tm)])[j]? = some z → s[j]? = some z ∨ (j = s.length ∧ z = ⟨none, 0, q⟩) := by
    intro z hz
    rw [List.getElem?_append] at hz
    split at hz
    · exact Or.inl hz
    · rename_i c
      right
      have hlt := (List.getElem?_eq_some_iff.1 hz).1
      simp only [List.length_singleton] at hlt
      have e : j - s.length = 0 := by omega
      rw [e] at hz
      injection hz with hz
      exact ⟨by omega, hz.symm⟩
  cases b with
  | false =>
    rcases base y h with q1 | ⟨q1, rfl⟩
    · exact .same q1 (Or.inl (hop j))
    · exact .fresh q1 rfl hq (Or.inl rfl) hon
  | true =>
    rcases startAt_get _ now s.length j y h with q1 | ⟨q1, x, q2, q3, q4, q5⟩
    · rcases base y q1 with w1 | ⟨w1, rfl⟩
      · exact .same w1 (Or.inl (hop j))
      · exact .fresh w1 rfl hq (Or.inl rfl) hon
    · subst q1
      rcases base x q2 with w | ⟨-, rfl⟩
      · have := (List.getElem?_eq_some_iff.1 w).1
        omega
      · subst q5
        refine .fresh rfl rfl hq (Or.inr ⟨rfl, ?_⟩) hon
        intro p hp
        obtain ⟨z, a, z1, z2⟩ := parentRuns_iff _ _ q3 p hp
        have hlt := hq p hp
        rw [List.getElem?_append_left hlt] at z1
        exact ⟨z, a, z1, z2⟩

theorem step_change (s : State) (now : ℚ) (op : Op) (j : Nat) (y : Tm) (h : (step s now op).1[j]? = some y) : Change s now op j y := by
  cases op with
  | new q b =>
    cases q with
    | none => exact new_change s now _ (by intro i; simp) ⟨_, _, rfl⟩ none (by intro p hp; cases hp) b j y h
    | some p =>
      simp only [step] at h
      split at h
      · rename_i c
        exact new_change s now _ (by intro i; simp) ⟨_, _, rfl⟩ (some p) (by intro p' hp; injection hp with hp; omega) b j y h
      · exact .same h (Or.inl (by simp))
  | start i =>
    rcases startAt_get s now i j y h with q | ⟨rfl, x, q1, q2, q3, q4⟩
    · exact .same q (Or.inl (by simp))
    · exact .begin x q1 q3 q4 (fun p hp => parentRuns_iff s x q2 p (by rw [q4] at hp; exact hp)) rfl
  | stop i =>
    rcases stopAt_get s now i j y h with q | ⟨rfl, x, a, q1, q2, q3⟩
    · by_cases e : i = j
      · subst e
        refine .same q (Or.inr ?_)
        by_contra c
        obtain ⟨a, ha⟩ := Option.ne_none_iff_exists'.1 c
        have hl := (List.getElem?_eq_some_iff.1 q).1
        have h' : (stopAt s now i).1[i]? = some { y with t := y.t + (now - a), start := none } := by
          unfold stopAt
          simp only [q, ha]
          simp [hl]
        have h2 : (stopAt s now i).1[i]? = some y := h
        rw [h'] at h2
        injection h2 with h2
        have h3 : y.start = none := by rw [← h2]
        rw [ha] at h3
        cases h3
      · exact .same q (Or.inl (by simpa using e))
    · exact .finish x a q1 q2 q3 rfl

/-- Timers are not forgotten, and keep their parents. -/
theorem step_keeps (s : State) (now : ℚ) (op : Op) (j : Nat) (x : Tm) (h : s[j]? = some x) : ∃ y, (step s now op).1[j]? = some y ∧ y.parent = x.parent := by
  have set_keeps : ∀ (i : Nat) (z z' : Tm), s[i]? = some z → z'.parent = z.parent → ∃ y, (s.set i z')[j]? = some y ∧ y.parent = x.parent := by
    intro i z z' hz hp
    rw [List.getElem?_set]
    split
    · rename_i e
      subst e
      rw [h] at hz
      injection hz with hz
      subst hz
      rw [if_pos (List.getElem?_eq_some_iff.1 h).1]
      exact ⟨z', rfl, hp⟩
    · exact ⟨x, h, rfl⟩
  have app : ∀ z : Tm, (s ++ [z])[j]? = some x := by
    intro z
    rw [List.getElem?_append_left (List.getElem?_eq_some_iff.1 h).1]
    exact h
  have new_keeps : ∀ z : Tm, ∃ y, (startAt (s ++ [z]) now s.length).1[j]? = some y ∧ y.parent = x.parent := by
    intro z
    unfold startAt
    have e : (s ++ [z])[s.length]? = some z := by simp
    simp only [e]
    split
    · rw [List.getElem?_set]
      have := (List.getElem?_eq_some_iff.1 h).1
      rw [if_neg (by omega)]
      exact ⟨x, app z, rfl⟩
    · exact ⟨x, app z, rfl⟩
  cases op with
  | new q b =>
    cases q with
    | none =>
      simp only [step]
      split
      · exact new_keeps _
      · exact ⟨x, app _, rfl⟩
    | some p =>
      simp only [step]
      split
      · split
        · exact new_keeps _
        · exact ⟨x, app _, rfl⟩
      · exact ⟨x, h, rfl⟩
  | start i =>
    simp only [step, startAt]
    cases e : s[i]? with
    | none => exact ⟨x, h, rfl⟩
    | some z =>
      simp only []
      split
      · exact set_keeps i z _ e rfl
      · exact ⟨x, h, rfl⟩
  | stop i =>
    simp only [step, stopAt]
    cases e : s[i]? with
    | none => exact ⟨x, h, rfl⟩
    | some z =>
      simp only []
      cases ea : z.start with
      | none => exact ⟨x, h, rfl⟩
      | some a => exact set_keeps i z _ e rfl

/-- At the moment of a call the readings of the timers do not change. -/
theorem change_reading {s : State} {now : ℚ} {op : Op} {j : Nat} {x y : Tm} (hx : s[j]? = some x) (h : Change s now op j y) : localTime y now = localTime x now := by
  cases h with
  | same h hs =>
    rw [hx] at h
    injection h with h
    rw [h]
  | fresh hj =>
    have := (List.getElem?_eq_some_iff.1 hx).1
    omega
  | begin x' h hn hy =>
    rw [hx] at h
    injection h with h
    subst h
    subst hy
    unfold localTime
    rw [hn]
    simp only []
    ring
  | finish x' a h ha hy =>
    rw [hx] at h
    injection h with h
    subst h
    subst hy
    unfold localTime
    rw [ha]
    simp only []
    ring

theorem grow (x : Tm) (a b : ℚ) : localTime x b = localTime x a + if x.start.isSome then b - a else 0 := by
  unfold localTime
  cases x.start with
  | none => simp
  | some c => simp only [Option.isSome_some, if_true]; ring

theorem clock_snoc {h : List (ℚ × Op)} {p : ℚ × Op} (hc : Clock (h ++ [p])) : Clock h ∧ After h p.1 := by
  unfold Clock at hc ⊢
  rw [List.map_append, List.pairwise_append] at hc
  refine ⟨hc.1, ?_⟩
  intro q hq
  exact hc.2.2 q.1 (List.mem_map_of_mem hq) p.1 (by simp)

theorem after_snoc {h : List (ℚ × Op)} {p : ℚ × Op} {now : ℚ} (ha : After (h ++ [p]) now) : p.1 ≤ now := ha p (by simp)

theorem first_snoc {h : List (ℚ × Op)} {p : ℚ × Op} (hc : ChildrenFirst (h ++ [p])) : ChildrenFirst h := by
  intro h1 now i h2 e
  exact hc h1 now i (h2 ++ [p]) (by rw [e]; simp)

/-- A timer after one more call: the reading is the old one, or 0 if it is new. -/
theorem old_or_new (h : List (ℚ × Op)) (p : ℚ × Op) (j : Nat) (y : Tm) (hy : (run (h ++ [p]))[j]? = some y) :
    Change (run h) p.1 p.2 j y ∧ ((∃ x, (run h)[j]? = some x ∧ localTime y p.1 = localTime x p.1) ∨ (j = (run h).length ∧ localTime y p.1 = 0)) := by
  rw [run_snoc] at hy
  have hc := step_change _ _ _ _ _ hy
  refine ⟨hc, ?_⟩
  by_cases hl : j < (run h).length
  · left
    exact ⟨_, List.getElem?_eq_getElem hl, change_reading (List.getElem?_eq_getElem hl) hc⟩
  · right
    cases hc with
    | same q => exact absurd (List.getElem?_eq_some_iff.1 q).1 hl
    | fresh hj ht hp hr =>
      refine ⟨hj, ?_⟩
      unfold localTime
      rcases hr with e | ⟨e, -⟩ <;> rw [e] <;> simp only [ht] <;> ring
    | begin x q => exact absurd (List.getElem?_eq_some_iff.1 q).1 hl
    | finish x a q => exact absurd (List.getElem?_eq_some_iff.1 q).1 hl

theorem nonneg (h : List (ℚ × Op)) (hc : Clock h) : ∀ (j : Nat) (x : Tm), (run h)[j]? = some x → ∀ now, After h now → 0 ≤ localTime x now := by
  induction h using List.reverseRecOn with
  | nil => intro j x hx; simp [run] at hx
  | append_singleton h p ih =>
    obtain ⟨hc1, hc2⟩ := clock_snoc hc
    intro j y hy now hn
    have hp := after_snoc hn
    rw [grow y p.1 now]
    have h0 : 0 ≤ localTime y p.1 := by
      rcases (old_or_new h p j y hy).2 with ⟨x, hx, e⟩ | ⟨-, e⟩
      · rw [e]; exact ih hc1 j x hx p.1 hc2
      · rw [e]
    split <;> linarith

theorem nested (h : List (ℚ × Op)) (hc : Clock h) (hf : ChildrenFirst h) : ∀ (j : Nat) (y : Tm), (run h)[j]? = some y → ∀ q, y.parent = some q →
    ∃ z, (run h)[q]? = some z ∧ (y.start.isSome = true → z.start.isSome = true) ∧ ∀ now, After h now → localTime y now ≤ localTime z now := by
  induction h using List.reverseRecOn with
  | nil => intro j x hx; simp [run] at hx
  | append_singleton h p ih =>
    obtain ⟨hc1, hc2⟩ := clock_snoc hc
    have ih := ih hc1 (first_snoc hf)
    intro j y hy q hq
    obtain ⟨hch, hold⟩ := old_or_new h p j y hy
    -- the parent before the call
    have hz0 : ∃ z0, (run h)[q]? = some z0 ∧ localTime y p.1 ≤ localTime z0 p.1 := by
      rcases hold with ⟨x, hx, e⟩ | ⟨hj, e⟩
      · have hpar : x.parent = some q := by
          rw [run_snoc] at hy
          obtain ⟨y', h1, h2⟩ := step_keeps (run h) p.1 p.2 j x hx
          rw [hy] at h1
          injection h1 with h1
          subst h1
          rw [← h2]
          exact hq
        obtain ⟨z0, g1, -, g3⟩ := ih j x hx q hpar
        exact ⟨z0, g1, by rw [e]; exact g3 p.1 hc2⟩
      · have hl : q < (run h).length := by
          cases hch with
          | same w => have := (List.getElem?_eq_some_iff.1 w).1; omega
          | fresh _ _ hp' _ _ => exact hp' q hq
          | begin x w => have := (List.getElem?_eq_some_iff.1 w).1; omega
          | finish x a w => have := (List.getElem?_eq_some_iff.1 w).1; omega
        refine ⟨_, List.getElem?_eq_getElem hl, ?_⟩
        rw [e]
        exact nonneg h hc1 q _ (List.getElem?_eq_getElem hl) p.1 hc2
    obtain ⟨z0, hz0, hle⟩ := hz0
    obtain ⟨z, hz, -⟩ := step_keeps (run h) p.1 p.2 q z0 hz0
    rw [← run_snoc] at hz
    have hzc := (old_or_new h p q z hz).1
    have hzr := change_reading hz0 hzc
    -- if the parent ran and is not stopped, it runs
    have runs : z0.start.isSome = true → p.2 ≠ .stop q → z.start.isSome = true := by
      intro a1 a2
      cases hzc with
      | same w =>
        rw [hz0] at w
        injection w with w
        rw [← w]
        exact a1
      | fresh hj => have := (List.getElem?_eq_some_iff.1 hz0).1; omega
      | begin x _ _ hy' => rw [hy']; rfl
      | finish x a _ _ _ ho => exact absurd ho a2
    have up : ∀ w : Running (run h) q, z0.start.isSome = true := by
      rintro ⟨x, a, w1, w2⟩
      rw [hz0] at w1
      injection w1 with w1
      rw [w1, w2]
      rfl
    have hrun : y.start.isSome = true → z.start.isSome = true := by
      intro hys
      cases hch with
      | same w hs =>
        obtain ⟨z1, g1, g2, -⟩ := ih j y w q hq
        rw [hz0] at g1
        injection g1 with g1
        subst g1
        refine runs (g2 hys) ?_
        intro hst
        obtain ⟨a, ha⟩ := Option.isSome_iff_exists.1 hys
        obtain ⟨p1, p2⟩ := p
        simp only at hst
        subst hst
        exact hf h p1 q [] rfl j y w hq ⟨y, a, w, ha⟩
      | fresh hj ht hp' hr ho =>
        obtain ⟨q', b, ho⟩ := ho
        rcases hr with hr | ⟨-, hr⟩
        · rw [hr] at hys; cases hys
        · exact runs (up (hr q hq)) (by rw [ho]; simp)
      | begin x w hx hy' hr ho => exact runs (up (hr q hq)) (by rw [ho]; simp)
      | finish x a w hx hy' ho => rw [hy'] at hys; cases hys
    refine ⟨z, hz, hrun, ?_⟩
    intro now hn
    have hp := after_snoc hn
    rw [grow y p.1 now, grow z p.1 now, hzr]
    cases ey : y.start.isSome with
    | true =>
      rw [hrun ey]
      simp only [if_true]
      linarith
    | false =>
      simp only [Bool.false_eq_true, if_false]
      split <;> linarith

end Parcels.Timer
