import Verif.Model.ChunkSpec

/-!
What a chunk dictionary asks for, for C86.
-/

namespace Parcels.ChunkSpec

/-- `n` is the dimension of the file, of length `len`, that is meant by the parcels dimension `d` and the name `nc` given for it: `nc` itself if the
file has it, otherwise the first of the usual names that the file has. -/
def Meant (m : Maps) (f : File) (d nc n : String) (len : Nat) : Prop :=
  f.lookup n = some len ∧
    (n = nc ∨ f.lookup nc = none ∧ ∃ before after, m d = before ++ n :: after ∧ ∀ x ∈ before, f.lookup x = none)

/-- The dictionary asks for blocks of `v` points along the dimension `n` of the file, which is the dimension `d` of the field: it has an entry for `d`
with a size larger than one, and blocks are not larger than the dimension. -/
def Wanted (m : Maps) (f : File) (dims : List String) (c : Dict) (d n : String) (v : Int) : Prop :=
  (d = "time" ∨ d = "depth" ∨ d = "lat" ∨ d = "lon") ∧ d ∈ dims ∧
    ∃ nc s len, c.lookup d = some (nc, s) ∧ 1 < s ∧ Meant m f d nc n len ∧ v = min (len : Int) s

/-- `n`, of length `len`, is the dimension of the file that automatic chunking takes for the dimension `d` of the field: the first of the usual
names that the file has. -/
def Usual (m : Maps) (f : File) (dims : List String) (d n : String) (len : Nat) : Prop :=
  d ∈ dims ∧ f.lookup n = some len ∧ ∃ before after, m d = before ++ n :: after ∧ ∀ x ∈ before, f.lookup x = none

/-- Different dimensions of the field are different dimensions of the file. -/
def Apart (m : Maps) (f : File) (dims : List String) (c : Dict) : Prop :=
  ∀ d d' n v v', Wanted m f dims c d n v → Wanted m f dims c d' n v' → d = d'

/-- Every entry of the dictionary for one of the four dimensions asks for blocks of this file. -/
def AllWanted (m : Maps) (f : File) (dims : List String) (c : Dict) : Prop :=
  ∀ d e, (d = "time" ∨ d = "depth" ∨ d = "lat" ∨ d = "lon") → c.lookup d = some e → ∃ n v, Wanted m f dims c d n v

/-- Fields with the same dimensions have entries for the same dimensions in their dictionaries. -/
def SameKeys (h : Heap) (rs : List Req) : Prop :=
  ∀ q ∈ rs, ∀ r ∈ rs, q.dimensions = r.dimensions → ∀ a b, q.chunk = .dict a → r.chunk = .dict b →
    ∀ d, ((h a).lookup d).isSome = ((h b).lookup d).isSome

end Parcels.ChunkSpec
