import Verif.Model.Metadata

/-!
Vocabulary for C130.
-/

namespace Parcels.Metadata

/-- In the calls `h`, `v` is the last message given under the name `n`. -/
def Last (h : List Op) (n v : String) : Prop := ∃ h1 h2, h = h1 ++ .add n v :: h2 ∧ ∀ w, .add n w ∉ h2

/-- In the calls `h`, no message is given under the name `n`. -/
def Never (h : List Op) (n : String) : Prop := ∀ v, .add n v ∉ h

end Parcels.Metadata
