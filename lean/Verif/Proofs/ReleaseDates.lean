import Verif.Spec.ReleaseDates
import Mathlib.Algebra.Order.Field.Rat
import Mathlib.Data.Rat.Cast.Order
import Mathlib.Tactic.Linarith
import Mathlib.Tactic.Push
import Mathlib.Tactic.Ring

/-!
Lemmas for C127.
-/

namespace Parcels.ReleaseDates

theorem mapM_some {α β : Type} (f : α → Option β) (g : α → β) (l : List α) (h : ∀ x ∈ l, f x = some (g x)) : l.mapM f = some (l.map g) := by
  induction l with
  | nil => rfl
  | cons a l ih =>
    rw [List.mapM_cons, h a (by simp), ih (fun x hx => h x (by simp [hx]))]
    rfl

/-- The date as `np.datetime64`. -/
def asDt : T → T
  | .py n => .dt n
  | t => t

theorem convert_py (o : Origin) (ts : List T) (h : ∀ t ∈ ts, IsPy t) : convert o ts = (ts.map asDt).mapM fun t => if isDate t then reltime o t else some t := by
  cases ts with
  | nil => rfl
  | cons a l =>
    obtain ⟨n, rfl⟩ := h a (by simp)
    unfold convert
    simp only []
    rw [mapM_some toDt asDt]
    · rfl
    · intro x hx
      obtain ⟨m, rfl⟩ := h x hx
      rfl

theorem convert_other (o : Origin) (ts : List T) (h : ∀ t ∈ ts, ¬ IsPy t) : convert o ts = ts.mapM fun t => if isDate t then reltime o t else some t := by
  cases ts with
  | nil => rfl
  | cons a l =>
    unfold convert
    have := h a (by simp)
    cases a with
    | py n => exact absurd ⟨n, rfl⟩ this
    | _ => rfl

theorem test_shift (c : Cmp) (a b k : ℚ) (hk : 0 < k) : c.test 0 ((b - a) / k) = c.test a b := by
  have h1 : (0 = (b - a) / k) ↔ a = b := by
    rw [eq_div_iff hk.ne', zero_mul]
    constructor <;> intro h <;> linarith
  have h2 : (0 < (b - a) / k) ↔ a < b := by rw [lt_div_iff₀ hk, zero_mul, sub_pos]
  have h3 : ((b - a) / k < 0) ↔ b < a := by rw [div_lt_iff₀ hk, zero_mul, sub_neg]
  cases c <;> simp only [Cmp.test, gt_iff_lt, ge_iff_le, decide_eq_decide, ne_eq]
  · exact h1
  · exact not_congr h1
  · exact h3
  · exact h2
  · rw [← not_lt, ← not_lt]; exact not_congr h2
  · rw [← not_lt, ← not_lt]; exact not_congr h3

end Parcels.ReleaseDates
