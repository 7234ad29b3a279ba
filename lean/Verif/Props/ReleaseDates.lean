import Verif.Proofs.ReleaseDates

/-!
C127: dates as times of release.
-/

namespace Parcels.ReleaseDates

/-- C127: dates given as times become the seconds from the origin of the fieldset to them, in order. Partial: all are dates of Python, or none is
(`C127_mixed_fails`), and their kind is that of the origin (`C127_no_calendar_fails`). -/
theorem C127_dates_partial (o : Origin) (ts : List T) (s : T → ℚ) (hs : ∀ t ∈ ts, Seconds o t (s t)) (hm : (∀ t ∈ ts, IsPy t) ∨ ∀ t ∈ ts, ¬ IsPy t) :
    convert o ts = some (ts.map fun t => .num (s t)) := by
  rcases hm with h | h
  · rw [convert_py o ts h, mapM_some _ (fun t => match t with
      | .dt n => .num (s (.py n))
      | t => t)]
    · rw [List.map_map]
      congr 1
      apply List.map_congr_left
      intro t ht
      obtain ⟨n, rfl⟩ := h t ht
      rfl
    · intro x hx
      obtain ⟨t, ht, rfl⟩ := List.mem_map.1 hx
      obtain ⟨n, rfl⟩ := h t ht
      have hq := hs _ ht
      generalize hv : s (.py n) = v at hq
      cases hq
      simp only [asDt, isDate, if_true, reltime, hv]
      push_cast
      rfl
  · rw [convert_other o ts h, mapM_some _ (fun t => .num (s t))]
    intro t ht
    have hq := hs t ht
    have hp := h t ht
    generalize s t = v at hq
    cases hq with
    | python n => exact absurd ⟨_, rfl⟩ hp
    | numpy n => simp only [isDate, if_true, reltime]; push_cast; rfl
    | cftime c n => simp only [isDate, if_true, reltime]; push_cast; rfl

/-- C127: other times are taken as they are, whatever the origin. -/
theorem C127_plain (o : Origin) (ts : List T) (h : ∀ t ∈ ts, Plain t) : convert o ts = some ts := by
  have hp : ∀ t ∈ ts, ¬ IsPy t := by
    rintro t ht ⟨n, rfl⟩
    rcases h _ ht with ⟨q, e⟩ | e | ⟨q, e⟩ <;> cases e
  rw [convert_other o ts hp, mapM_some _ id]
  · simp
  · intro t ht
    rcases h _ ht with ⟨q, rfl⟩ | rfl | ⟨q, rfl⟩ <;> rfl

/-- C127: a cftime date is refused by an origin of another calendar, or of NumPy, or without a calendar; `np.datetime64` is refused by an origin of cftime. -/
theorem C127_refused (o : Origin) (c : String) (us ns : ℤ) (ts : List T) :
    ((∀ k, o ≠ .cf c k) → convert o (.cf c us :: ts) = none) ∧ (∀ k, convert (.cf c k) (.dt ns :: ts) = none) := by
  constructor
  · intro h
    have : reltime o (.cf c us) = none := by
      cases o with
      | cf c' k =>
        have : c ≠ c' := by rintro rfl; exact h k rfl
        simp [reltime, this]
      | _ => rfl
    simp [convert, isDate, this]
  · intro k
    simp [convert, isDate, reltime]

/-- C127: the comparisons of two origins are those of 0 with the seconds from the one to the other. -/
theorem C127_compare (a b : Origin) (r : ℚ) (h : reltime a b.value = some (.num r)) (c : Cmp) : compare c a b = some (c.test 0 r) := by
  cases a <;> cases b <;> simp only [Origin.value, reltime, Option.some.injEq, T.num.injEq, reduceCtorEq] at h
  · subst h
    rename_i p q
    rw [compare, ← test_shift c p q 1 one_pos, div_one]
  · split at h <;> simp at h
  · split at h <;> simp at h
  · rename_i p q
    subst h
    rw [compare, ← test_shift c p q 1000000000 (by norm_num)]
    push_cast
    rfl
  · rename_i p q
    subst h
    rw [compare, ← test_shift c p q 1000000000 (by norm_num)]
    push_cast
    rfl
  · rename_i k p k' q
    split at h
    · rename_i e
      subst e
      simp only [Option.some.injEq, T.num.injEq] at h
      subst h
      have e : compare c (.cf k' p) (.cf k' q) = some (c.test p q) := by cases c <;> simp [compare]
      rw [e, ← test_shift c p q 1000000 (by norm_num)]
      push_cast
      rfl
    · cases h

/-- Two dates of 2000, an hour apart, as `datetime` and as `np.datetime64`, in a fieldset that starts a minute before. -/
example : convert (.np 946684740000000000) [.py 946684800000000000, .py 946688400000000000] = some [.num 60, .num 3660] ∧
    convert (.np 946684740000000000) [.dt 946684800000000000, .dt 946688400000000000] = some [.num 60, .num 3660] ∧
    convert (.cf "noleap" 1000000) [.cf "noleap" 3500000] = some [.num (5 / 2)] ∧ compare .lt (.np 5) (.np 6) = some true := by decide +kernel

example : Seconds (.np 946684740000000000) (.py 946684800000000000) 60 := by
  have h := Seconds.python 946684740000000000 946684800000000000
  norm_num at h
  exact h

/-- C127 is false for lists that begin with another value than a date of Python: the dates in them stay what they are. If the date comes first, `None` becomes
`nan` instead of the start of the run. -/
theorem C127_mixed_fails (o n : ℤ) : convert (.np o) [.nothing, .py n] = some [.nothing, .py n] ∧
    convert (.np o) [.py n, .nothing] = some [.num ((n - o : ℤ) / 1000000000), .nan] := ⟨rfl, rfl⟩

/-- C127 is false if the fieldset has no dates: a date is accepted, and handed on as a date, not as seconds. Durations are handed on as well, though there is a test
that refuses them: it asks whether the origin is false, which it never is. -/
theorem C127_no_calendar_fails (n : ℤ) : convert (.number 0) [.py n] = some [.dt n] ∧ convert (.number 0) [.td n] = some [.td n] := ⟨rfl, rfl⟩

end Parcels.ReleaseDates
