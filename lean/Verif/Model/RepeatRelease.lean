import Verif.Model.Base

/-!
Model of repeated release: which array the remembered release positions live in. Arrays are objects
in a store; names are references to them.
-/

namespace Parcels.RepeatRelease

/-- Store of arrays, the reference held by the particle data (`_collection.data['lon']`), the
reference held by `self.repeatlon`, and (ghost) the positions given to each released batch. One
column stands for lon, lat, depth and every keyword variable, which are treated alike.
Models: parcels/particlesets/particlesetsoa.py:137-150. -/
structure St (V : Type) where
  store : List (List V)
  data : Nat
  rep : Nat
  released : List (List V)

/-- Contents of an array. Models: particlesets/particlesetsoa.py:146-150. -/
def St.get {V : Type} (s : St V) (r : Nat) : List V := s.store.getD r []

/-- Construction with `repeatdt`: the collection makes its own array
(`self._data['lon'][:] = lon`), and `repeatlon` is set to that same array object.
Models: parcels/particlesets/collectionsoa.py:143-174, particlesetsoa.py:146-150. -/
def construct {V : Type} (lon : List V) : St V :=
  { store := [lon], data := 0, rep := 0, released := [] }

/-- What happens to the arrays during a run. Models: particlesets/baseparticleset.py:434-478. -/
inductive Op (V : Type) where
  /-- kernel or recovery functions assign to particle variables: in place
  (parcels/kernel.py:273-368, collectionsoa.py accessor `__setattr__`) -/
  | pass (f : List V → List V)
  /-- `remove_deleted_soa` after each pass: `np.delete` makes new arrays even if nothing is deleted
  (parcels/kernel.py:384-395, collectionsoa.py:634-647) -/
  | remove (f : List V → List V)
  /-- a repeated release: a new set at `repeatlon`, then concatenation into new arrays
  (parcels/particlesets/baseparticleset.py:449-460, collectionsoa.py:415-443) -/
  | release

/-- Effect of one operation. Models: kernel.py:294-368, 384-395; particlesets/baseparticleset.py:449-459; particlesets/collectionsoa.py:415-443, 634-647. -/
def step {V : Type} (s : St V) : Op V → St V
  | .pass f => { s with store := s.store.set s.data (f (s.get s.data)) }
  | .remove f => { s with store := s.store ++ [f (s.get s.data)], data := s.store.length }
  | .release =>
    { s with
      store := s.store ++ [s.get s.data ++ s.get s.rep]
      data := s.store.length
      released := s.released ++ [s.get s.rep] }

/-- A run: a sequence of operations. Models: particlesets/baseparticleset.py:434-478. -/
def run {V : Type} (lon : List V) (ops : List (Op V)) : St V := ops.foldl step (construct lon)

/-- Is the operation a repeated release?. Models: particlesets/baseparticleset.py:449-459. -/
def isRelease {V : Type} : Op V → Bool
  | .release => true
  | _ => false

end Parcels.RepeatRelease
