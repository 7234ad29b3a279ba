import Verif.Model.Construct

/-!
Model of the types of the coordinates, which belong to the particle classes and not to particle sets: creating a set assigns `dtype` of the variables lon, lat and
depth (parcels/particle.py:224-228, collectionsoa.py:130-147), and the C structure of a set in JIT mode is made from the types of the
variables and from the set's arrays (collectionsoa.py:798-813).
-/

namespace Parcels.Precision
open Parcels.Construct

/-- The type of the coordinates in the classes, and for each set that was made the one of its arrays. The variables are objects of the class `ScipyParticle`, shared by
all particle classes. Models: particle.py:149-151. -/
structure World where
  coord : DType
  sets : List DType

/-- A new set. Models: collectionsoa.py:136-147, particle.py:224-228. -/
def World.create (w : World) (t : DType) : World := { coord := t, sets := w.sets ++ [t] }

/-- A run: sets are made one after the other. Models: particlesets/particlesetsoa.py:78-158, called several times. -/
def run (ts : List DType) : World := ts.foldl World.create { coord := .f32, sets := [] }

/-- `ptype.variables` of a set made with type `own`, as they are when the class has type `now`. Models: particle.py:68-83, collectionsoa.py:139. -/
def ptype (own now : DType) (user : List PVar) : List PVar :=
  (classVars own user).map fun v => if v.name ∈ ["lon", "lat", "depth"] then { v with dtype := now } else v

/-- The types of the set's arrays. Models: collectionsoa.py:143-147. -/
def arrays (own : DType) (user : List PVar) : List DType := (classVars own user).map (·.dtype)

/-- `CParticles(*cdata)`: an array can be given for a pointer only if the types are the same, otherwise TypeError (false).
Models: collectionsoa.py:802-813. -/
def cstruct (own now : DType) (user : List PVar) : Bool :=
  ((ptype own now user).zip (arrays own user)).all fun p => decide (p.1.dtype = p.2)

/-- Executing set `i` in JIT mode gets past the creation of the C structure. Models: kernel.py:269. -/
def executable (w : World) (user : List PVar) (i : Nat) : Option Bool := w.sets[i]?.map fun own => cstruct own w.coord user

end Parcels.Precision
