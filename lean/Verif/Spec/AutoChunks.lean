import Verif.Model.AutoChunks

/-!
Vocabulary for C129.
-/

namespace Parcels.AutoChunks

/-- The dictionary describes data with the axes `axes` whose chunks have the sizes `m`: each axis has its name in the file and its size, and there is nothing else. -/
def Describes (file : Dim → Found) (axes : List Dim) (m : List Nat) (c : Chunks) : Prop :=
  (∀ (i : Nat) (d : Dim) (k : Nat), axes[i]? = some d → m[i]? = some k → c d = some ((file d).name, k)) ∧ ∀ d, d ∉ axes → c d = none

end Parcels.AutoChunks
