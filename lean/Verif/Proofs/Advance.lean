import Verif.Spec.Advance
import Mathlib.Tactic.FieldSimp
import Mathlib.Tactic.Ring
import Mathlib.Tactic.Linarith
import Mathlib.Tactic.NormNum

namespace Parcels.Advance

open Converters (Calendar reltime ticks)
open Search (Increasing)

variable {D : Type}

theorem ticks_pos (c : Calendar) : 0 < ticks c := by cases c <;> norm_num [ticks]

theorem date_reltime {g gnew : Gr} (hc : g.calendar = gnew.calendar) (t : ℚ) : date g (t + reltime g.calendar g.origin gnew.origin) = date gnew t := by
  have h := (ticks_pos gnew.calendar).ne'
  unfold date reltime
  rw [hc]
  field_simp
  ring

theorem date_lt (g : Gr) (a b : ℚ) : date g a < date g b ↔ a < b := by
  unfold date
  rw [add_lt_add_iff_left, mul_lt_mul_iff_left₀ (ticks_pos _)]

theorem last_max {l : List ℚ} (hi : Increasing l) (hne : l ≠ []) : ∀ e ∈ l, e ≤ l.getLastD 0 := by
  intro e he
  rw [List.getLastD_eq_getLast?, List.getLast?_eq_some_getLast hne, Option.getD_some]
  rw [← List.dropLast_append_getLast hne] at he hi
  rcases List.mem_append.mp he with h | h
  · exact ((List.pairwise_append.mp hi).2.2 e h _ (List.mem_singleton.mpr rfl)).le
  · exact (List.mem_singleton.mp h).le

theorem head_min {l : List ℚ} (hi : Increasing l) : ∀ e ∈ l, l.headD 0 ≤ e := by
  intro e he
  cases l with
  | nil => cases he
  | cons a l =>
    rcases List.mem_cons.mp he with rfl | h
    · exact le_refl _
    · exact ((List.pairwise_cons.mp hi).1 e h).le

theorem last_mem {l : List ℚ} (hne : l ≠ []) : l.getLastD 0 ∈ l := by
  rw [List.getLastD_eq_getLast?, List.getLast?_eq_some_getLast hne, Option.getD_some]
  exact List.getLast_mem hne

theorem head_mem {l : List ℚ} (hne : l ≠ []) : l.headD 0 ∈ l := by
  cases l with
  | nil => exact absurd rfl hne
  | cons a l => exact List.mem_cons_self

/-- The new time is after all times of the grid just if its date is after all dates. -/
theorem beyond_iff {g gnew : Gr} (hc : g.calendar = gnew.calendar) (hi : Increasing g.time) (hne : g.time ≠ []) (t : ℚ) :
    (Beyond true (dates g) (date gnew t) ↔ g.time.getLastD 0 < t + reltime g.calendar g.origin gnew.origin) ∧
    (Beyond false (dates g) (date gnew t) ↔ t + reltime g.calendar g.origin gnew.origin < g.time.headD 0) := by
  rw [← date_reltime hc]
  constructor
  · constructor
    · intro h
      exact (date_lt g _ _).mp (h _ (List.mem_map_of_mem (last_mem hne)))
    · intro h e he
      obtain ⟨a, ha, rfl⟩ := List.mem_map.mp he
      exact (date_lt g _ _).mpr (lt_of_le_of_lt (last_max hi hne a ha) h)
  · constructor
    · intro h
      exact (date_lt g _ _).mp (h _ (List.mem_map_of_mem (head_mem hne)))
    · intro h e he
      obtain ⟨a, ha, rfl⟩ := List.mem_map.mp he
      exact (date_lt g _ _).mpr (lt_of_lt_of_le h (head_min hi a ha))

theorem fieldAdvance_never (f fnew : F D) (b : Bool) : fieldAdvance sameTypes f fnew b = .error .type := rfl

theorem gridAdvance_other (g gnew : Gr) : (gridAdvance g gnew).1.origin = g.origin ∧ (gridAdvance g gnew).1.calendar = g.calendar := by
  unfold gridAdvance
  simp only
  split
  · split_ifs <;> exact ⟨rfl, rfl⟩
  · exact ⟨rfl, rfl⟩

theorem loop_never (fs : List (NF D)) : ∀ (adv : ℤ) (s : S D), scalars fs ≠ [] → ∃ e, (loop fs adv s).2 = .error e := by
  induction fs with
  | nil => intro _ _ h; exact absurd rfl h
  | cons a fs ih =>
    intro adv s h
    cases a with
    | vector => exact ih adv s h
    | scalar n fnew =>
      simp only [loop, fieldAdvance_never]
      split
      · exact ⟨_, rfl⟩
      · split_ifs
        · exact ⟨_, rfl⟩
        · split
          · exact ⟨_, rfl⟩
          · split_ifs <;> exact ⟨_, rfl⟩

theorem loop_data (fs : List (NF D)) : ∀ (adv : ℤ) (s : S D), (loop fs adv s).1.fields = s.fields := by
  induction fs with
  | nil => intro _ _; rfl
  | cons a fs ih =>
    intro adv s
    cases a with
    | vector => exact ih adv s
    | scalar n fnew =>
      simp only [loop, fieldAdvance_never]
      split
      · rfl
      · split_ifs
        · rfl
        · split
          · rfl
          · split_ifs <;> rfl

theorem loop_first (fs : List (NF D)) (s : S D) {n : String} {fnew f : F D} {rest : List (String × F D)} (h : scalars fs = (n, fnew) :: rest) (hf : s.fields n = some f)
    (ha : ∀ i, s.advanced i = false) :
    (loop fs 0 s).1.grids = Function.update s.grids f.grid (gridAdvance (s.grids f.grid) (s.news fnew.grid)).1 ∧
    (loop fs 0 s).1.news = Function.update s.news fnew.grid (gridAdvance (s.grids f.grid) (s.news fnew.grid)).2.1 ∧
    (loop fs 0 s).2 = .error (match (gridAdvance (s.grids f.grid) (s.news fnew.grid)).2.2 with | .error e => e | .ok _ => .type) := by
  induction fs with
  | nil => cases h
  | cons a fs ih =>
    cases a with
    | vector => exact ih h
    | scalar m fn =>
      simp only [scalars, List.cons.injEq, Prod.mk.injEq] at h
      obtain ⟨⟨rfl, rfl⟩, -⟩ := h
      simp only [loop, hf, ha, fieldAdvance_never, Bool.false_eq_true, if_false, mul_zero, lt_irrefl]
      generalize gridAdvance (s.grids f.grid) (s.news fn.grid) = r
      obtain ⟨g, gn, e | v⟩ := r
      · exact ⟨rfl, rfl, rfl⟩
      · exact ⟨rfl, rfl, rfl⟩

end Parcels.Advance
