import Mathlib.Data.List.Basic
import Mathlib.Data.List.Induction

/-!
Model of the metadata of output files: `ParticleFile.add_metadata`, and what becomes of them when the file is written at the end or by the script
`parcels_convert_npydir_to_netcdf` (parcels/particlefile.py:62-66, 119-127, 184-185, 201-210, 227-249, 282-325; scripts/convert_npydir_to_netcdf.py:10-26).

Simplifications: one process; names and messages are strings, and names that netCDF4 keeps for itself (e.g. `dimensions`) are left out; setting an attribute of a closed
dataset is an error of netCDF4; everything else of the file is left out.
-/

namespace Parcels.Metadata

/-- A dictionary. Models: particlefile.py:63. -/
abbrev Dict := String → Option String

/-- `d[n] = v`. Models: particlefile.py:208. -/
def set (d : Dict) (n v : String) : Dict := fun m => if m = n then some v else d m

/-- `metadata`, the copy in `pset_info.npy`, whether there is a dataset, and the attributes of the NetCDF file. Models: particlefile.py:62-63, 119-127, 227-236. -/
structure State where
  metadata : Dict
  saved : Option Dict
  dataset : Bool
  file : Option Dict

/-- A new `ParticleFile`. Models: particlefile.py:62-63. -/
def new : State := ⟨fun _ => none, none, false, none⟩

/-- Attributes that every file has; the version of parcels and the mesh are arguments. Models: particlefile.py:123-127. -/
def standard (version mesh : String) : Dict :=
  set (set (set (set (set (fun _ => none) "feature_type" "trajectory") "Conventions" "CF-1.6/CF-1.7") "ncei_template_version" "NCEI_NetCDF_Trajectory_Template_v2.0")
    "parcels_version" version) "parcels_mesh" mesh

/-- `open_netcdf_file`: the standard attributes, then the metadata over them. Models: particlefile.py:123-127, 184-185. -/
def attributes (version mesh : String) (d : Dict) : Dict := fun n => match d n with
  | some v => some v
  | none => standard version mesh n

/-- Calls: `add_metadata`, `write`, `export`. Models: particlefile.py:201-210, 238-249, 282-325. -/
inductive Op where
  | add (n v : String)
  | write
  | export
deriving DecidableEq

/-- One call; `false`: an error. After the export the dataset is there, but closed, so its attributes cannot be set; without a `pset_info.npy` there is no export.
Models: particlefile.py:201-210, 227-249, 282-325. -/
def step (version mesh : String) (s : State) : Op → State × Bool
  | .add n v => if s.dataset then (s, false) else ({ s with metadata := set s.metadata n v }, true)
  | .write => ({ s with saved := some s.metadata }, true)
  | .export => match s.saved with
    | none => (s, false)
    | some _ => ({ s with dataset := true, file := some (attributes version mesh s.metadata) }, true)

/-- Calls one after the other. Models: particlefile.py:201-325. -/
def run (version mesh : String) (h : List Op) : State := h.foldl (fun s op => (step version mesh s op).1) new

/-- The script: a `ParticleFile` with the saved metadata is exported; `none`: ValueError, there is no `pset_info.npy`.
Models: scripts/convert_npydir_to_netcdf.py:10-26, particlefile.py:64-66. -/
def convert (version mesh : String) (s : State) : Option Dict := s.saved.map (attributes version mesh)

end Parcels.Metadata
