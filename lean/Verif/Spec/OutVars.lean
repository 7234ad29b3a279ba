import Verif.Model.OutVars

/-!
What an output file should contain (C81).
-/

namespace Parcels.OutVars

/-- The name of a variable in the NetCDF file. -/
def outName (v : String) : String := if v = "id" then "trajectory" else if v = "depth" then "z" else v

/-- The type of a variable in the NetCDF file; `prec` for coordinates. -/
def outType (prec : NcType) (v : String) : NcType :=
  if v = "id" then .i8 else if v = "time" then .f8 else if v ∈ ["lon", "lat", "depth"] then prec else .f4

/-- Names of variables that clash with something in the program. -/
def reserved : List String :=
  ["dataset", "metadata", "read_from_npy", "maxid_written", "time_written", "var_names", "var_names_once", "delete_tempwritedir",
   "tempwritedir_base", "trajectory"]

/-- The file has, for each variable of the class `vars` whose write status is on, a NetCDF variable with the arrays `data` (with an observation axis) or `once` (without
one), rounded to the type of the NetCDF variable, and nothing else but the time axis. -/
structure Holds {V : Type} (r32 : V → V) (prec : NcType) (data once : String → List (List V)) (vars : List VarObj)
    (file : String → Option (NcVar V)) : Prop where
  obs : ∀ v ∈ vars, v.status = .yes →
    file (outName v.name) = some ⟨true, outType prec v.name, some (if outType prec v.name = .f4 then (data v.name).map (·.map r32) else data v.name)⟩
  once : ∀ v ∈ vars, v.status = .once → file v.name = some ⟨false, .f4, some ((once v.name).map (·.map r32))⟩
  only : ∀ n, file n ≠ none → n = "time" ∨ (∃ v ∈ vars, v.status = .yes ∧ n = outName v.name) ∨ ∃ v ∈ vars, v.status = .once ∧ n = v.name

end Parcels.OutVars
