import Verif.Model.WholeRun
import Verif.Model.Export
import Verif.Model.Restart

/-!
Model of what follows a run: the export of the output file (parcels/particlefile.py:282-325), and the particles of a set that was made from it
(parcels/particlesets/particlesetsoa.py:331-397).

Simplifications: those of Model/WholeRun, Model/Npy and Model/Restart; numbers are exact (the file stores times with 64 bits, positions with the bits they
have in the particle set, and other variables with 32 bits).
-/

namespace Parcels.ExportRun

open Recovery (TP)
open Collection (Coll)

variable {V W : Type}

/-- One array of the exported file, after a run on this file. Models: particlefile.py:282-325. -/
def exported (path : ℕ → List Char) (val : Output.P V → W) (s : WholeRun.St V) : Option (List (List (Option W))) :=
  Npy.readNpy s.file.maxid.toNat s.file.timeWritten.length (Output.filesOf path val s.outs)

/-- The particles of a collection, one by one: the variables of particle number `k` are number `k` of each array. (`make` puts the variables of one particle
together. Time step and state are set by the next run.) Models: particlesets/collectionsoa.py:905-951. -/
def particlesOf (make : (String → Option ℚ) → V) (c : Coll (Option ℚ)) : List (TP V) :=
  c.ids.zipIdx.map fun x =>
    let get : String → Option ℚ := fun n => ((c.cols.lookup n).bind fun l => l[x.2]?).join
    (x.1.toNat, ⟨(get "time").getD 0, 0, .evaluate, make get⟩)

end Parcels.ExportRun
