import Verif.Model.Layout

/-!
Vocabulary for the layout of particles: all the Variables that a class has by itself and by inheritance.
-/

namespace Parcels.Layout

mutual
/-- All Variables of a class and of the classes it inherits from. -/
def Cls.all : Cls → List Var
  | .mk own bases => allBases bases ++ own

def allBases : List Cls → List Var
  | [] => []
  | b :: bs => allBases bs ++ b.all
end

mutual
/-- In every class of the tree the Variables declared by that class itself have different names. -/
def Cls.ownDistinct : Cls → Prop
  | .mk own bases => (own.map Var.name).Nodup ∧ basesDistinct bases

def basesDistinct : List Cls → Prop
  | [] => True
  | b :: bs => b.ownDistinct ∧ basesDistinct bs
end

/-- The fields of a layout are in order and do not overlap, starting at `off` and ending at `fin`. -/
inductive Tiles : ℕ → List (Var × ℕ) → ℕ → Prop where
  | nil {off fin} : off ≤ fin → Tiles off [] fin
  | cons {off v o l fin} : off ≤ o → Tiles (o + width v) l fin → Tiles off ((v, o) :: l) fin

end Parcels.Layout
