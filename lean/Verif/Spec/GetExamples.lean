import Verif.Model.GetExamples

/-!
Vocabulary for C131.
-/

namespace Parcels.GetExamples

/-- A directory that does not exist has no folders and no files. -/
def Sound (t : Target) : Prop := t.there = false → (∀ d, t.dirs d = false) ∧ ∀ n, t.files n = none

/-- In the directory `s` the file `n` is there, but it is none of: the file that was there before, that of the package, that of the server. -/
def Broken (before package : Target) (server : Name → Option String) (s : Target) (n : Name) : Prop :=
  ∃ c, s.files n = some c ∧ before.files n ≠ some c ∧ package.files n ≠ some c ∧ server n ≠ some c

end Parcels.GetExamples
