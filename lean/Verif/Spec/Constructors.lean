import Verif.Model.Constructors

/-!
Vocabulary for C85: what the constructors for the output of ocean models are documented to do.
-/

namespace Parcels.Constructors
open Parcels.FromNetcdf

variable {C : Type}

/-- The ocean models with a constructor of their own; for POP the unit of the depths is given. -/
inductive Source where
  | nemo | mitgcm | popMetres | popCentimetres | mom5
deriving DecidableEq

/-- The call of the constructor. -/
def Source.make (s : Source) (W : World C) (raw : String → Option ℚ) (a : Args) (vars : List (String × String)) : Option (FS C) :=
  match s with
  | .nemo => fromNemo W raw a vars
  | .mitgcm => fromMitgcm W raw a vars
  | .popMetres => fromPop W raw a "m" vars
  | .popCentimetres => fromPop W raw a "cm" vars
  | .mom5 => fromMom5 W raw a vars

/-- How the values of a variable are interpolated: NEMO and MITgcm have a C-grid, POP and MOM5 a B-grid. -/
def Source.method (s : Source) (tracer var : String) : String :=
  match s with
  | .nemo | .mitgcm => if var ∈ ["U", "V", "W"] then "cgrid_velocity" else tracer
  | .popMetres | .popCentimetres | .mom5 =>
    if var ∈ ["U", "V"] then "bgrid_velocity" else if var = "W" then "bgrid_w_velocity" else tracer

/-- The indexing of the grid. -/
def Source.indexing (s : Source) : String :=
  match s with
  | .nemo => "nemo"
  | .mitgcm => "mitgcm"
  | .popMetres | .popCentimetres => "pop"
  | .mom5 => "mom5"

/-- By how much values are multiplied. Positive W is downward in Parcels, as depths increase; it is upward in NEMO, POP and MOM5 output.
Velocities of POP are in cm/s, and are wanted in m/s, or for W in the unit of the depths per second. -/
def Source.factor (s : Source) (var : String) : ℚ :=
  match s with
  | .nemo | .mom5 => if var = "W" then -1 else 1
  | .mitgcm => 1
  | .popMetres => if var = "W" then -1 / 100 else if var = "U" ∨ var = "V" then 1 / 100 else 1
  | .popCentimetres => if var = "W" then -1 else if var = "U" ∨ var = "V" then 1 / 100 else 1

/-- The field of a variable. -/
def FS.field (fs : FS C) (var : String) : Option Fld := fs.res.fields.find? fun f => decide (f.name = var)

/-- The files that a pattern or list stands for now: all exist and there is at least one. -/
def Means (D : Disk) (p : Pat) (l : List String) : Prop :=
  l ≠ [] ∧ (∀ f ∈ l, D.there f = true) ∧ match p with
    | .one s => l = D.glob s
    | .many k => l = k

/-- The same for what is given for a variable. -/
def MeansFor (D : Disk) (p : VPaths) (f : Files) : Prop :=
  match p, f with
  | .pats q, .list l => Means D q l
  | .byDim d, .byDim m => d.map Prod.fst = m.map Prod.fst ∧ ∀ x ∈ d.zip m, Means D x.1.2 x.2.2
  | _, _ => False

/-- What the caller gave for a variable. -/
def FArg.given (a : FArg) (var : String) : Option VPaths :=
  match a with
  | .all p => some p
  | .each d => d.lookup var

/-- There are no patterns in dictionaries with an entry for each dimension. -/
def VPaths.NoNestedPattern (p : VPaths) : Prop :=
  match p with
  | .pats _ => True
  | .byDim d => ∀ e ∈ d, ∃ l, e.2 = .many l

end Parcels.Constructors
