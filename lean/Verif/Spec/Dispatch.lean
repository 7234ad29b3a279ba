import Verif.Model.Dispatch
import Verif.Spec.Collection

/-!
Vocabulary for C91: which particles an argument stands for.
-/

namespace Parcels.Dispatch

open Parcels.Collection

/-- 64-bit integers are IDs, other integers are indices (as the messages of the assertions in
collections.py say). -/
def standsForID : Kind → Prop
  | .py => False
  | .i32 => False
  | .i64 => True
  | .u64 => True

/-- The particle at position `k` of the set is the one the number `i` of type `t` stands for: the one
with that ID, or the one at that index (negative ones count from the end). -/
def Meant {V : Type} (c : Coll V) (t : Kind) (i : ℤ) (k : Nat) : Prop :=
  k < c.ids.length ∧
  (standsForID t → c.ids[k]? = some i) ∧ (¬ standsForID t → i = k ∨ i + c.ids.length = k)

/-- The particle at position `k` is among those the argument stands for. -/
def Denotes {V : Type} (c : Coll V) : Arg → Nat → Prop
  | .num t i, k => Meant c t i k
  | .arr t l, k => ∃ i ∈ l, Meant c t i k
  | .particle id, k => c.ids[k]? = some id
  | _, _ => False

/-- The argument is one particle: a number or a particle. -/
def Single : Arg → Prop
  | .num _ _ => True
  | .particle _ => True
  | _ => False

/-- The argument has no `np.int64` in it. -/
def NoInt64 : Arg → Prop
  | .num t _ => t ≠ .i64
  | .arr t _ => t ≠ .i64
  | _ => True

/-- The particle at position `k` is marked for deletion and nothing else is changed. -/
def MarkedOnly {V : Type} (mark : V) (c c' : Coll V) (k : Nat) : Prop :=
  c'.ids = c.ids ∧ c'.ncount = c.ncount ∧ c'.sorted = c.sorted ∧
    c'.cols = c.cols.map fun p => (p.1, if p.1 = "state" then p.2.set k mark else p.2)

end Parcels.Dispatch
