import Verif.Model.Output
import Verif.Model.Npy

/-!
Model of the temporary files of a `ParticleFile` (parcels/particlefile.py:212-225), from what the calls of `write` stored.
-/

namespace Parcels.Output

open Parcels.Npy

variable {V : Type}

/-- The temporary files of a run, for one variable: calls without records leave no file.
Models: parcels/particlefile.py:215-219. -/
def filesOf {W : Type} (path : Nat → List Char) (val : P V → W) (outs : List (Out V)) : List (NpyFile W) :=
  ((outs.filter fun o => !o.data.isEmpty).zipIdx).map fun q =>
    { path := path q.2, recs := q.1.data.map fun p => (p.id.toNat, val p) }

end Parcels.Output
