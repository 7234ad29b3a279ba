import Verif.Model.SumRun
import Verif.Spec.NestRun

/-!
Vocabulary for the statements of C115: the values of summed fields.
-/

namespace Parcels.SumRun

open GridRun (Fld FieldValue Covers)

/-- The list of summed fields is well-formed: there is a member, and all members have `k` components. -/
def Shape (k : Nat) (ms : List (List Nat)) : Prop := ms ≠ [] ∧ ∀ m ∈ ms, m.length = k

/-- `ws` are the values of the summed field with `k` components: each component is the sum of the values that the members have for that component, and all members have them. -/
def SumValue (fs : Nat → Fld) (k : Nat) (ms : List (List Nat)) (t z y x : ℚ) (ws : List ℚ) : Prop :=
  ws.length = k ∧ ∀ c, c < k → ∃ vs : List ℚ, List.Forall₂ (fun m v => FieldValue (fs (m.getD c 0)) t z y x v) ms vs ∧ ws.getD c 0 = vs.sum

/-- `val` gives the values of the summed fields, where they have one. -/
def Sums (fs : Nat → Fld) (comps : Nat → Nat) (ns : Nat → List (List Nat)) (val : Nat → (t z y x : ℚ) → Option (List ℚ)) : Prop :=
  ∀ n t z y x ws, val n t z y x = some ws ↔ SumValue fs (comps n) (ns n) t z y x ws

/-- Wherever the last member of the list covers position and time, all members do. -/
def Together (fs : Nat → Fld) (ms : List (List Nat)) : Prop :=
  ∀ last, ms.getLast? = some last → ∀ t z y x, (∀ i ∈ last, Covers (fs i) t z y x) → ∀ m ∈ ms, ∀ i ∈ m, Covers (fs i) t z y x

end Parcels.SumRun
