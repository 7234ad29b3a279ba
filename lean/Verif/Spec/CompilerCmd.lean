import Verif.Model.CompilerCmd

/-!
Vocabulary for C132.
-/

namespace Parcels.CompilerCmd

/-- The argument begins with `p`. -/
def Begins (p s : String) : Bool := p.toList.isPrefixOf s.toList

/-- The optimisation for which a compiler is asked: the last of the arguments that begin with `-O`. -/
def optimisation (l : List String) : Option String := (l.filter (Begins "-O")).getLast?

end Parcels.CompilerCmd
