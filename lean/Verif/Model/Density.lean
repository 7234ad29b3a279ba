import Verif.Model.Search

/-!
Model of `ParticleSet.density` (parcels/particlesets/particlesetsoa.py:481-535), for fields on rectilinear grids, after the search
kernel has been executed. `area_scale` is in Model/CellAreas.

Values are in any type `K`; `rnd` is the rounding of float32, the dtype of the result.
-/

namespace Parcels.Density

open Search (RGrid Pos searchRect)

/-- What `density` reads of a particle: position, and the time and cell indices that the last search on the grid of the field left
in it (`ti < 0`: there was none). Models: particlesets/particlesetsoa.py:500-530. -/
structure DP where
  lon : ℚ
  lat : ℚ
  ti : ℤ
  xi : ℤ
  yi : ℤ
deriving DecidableEq, Repr

/-- `field.search_indices(p.lon, p.lat, p.depth, 0, 0, search2D=True)`: the search without its depth part.
Models: parcels/field.py:764 (`if self.grid.zdim > 1 and not search2D`). -/
def search2D (g : RGrid) (x y : ℚ) : Except Search.Err Pos := searchRect { g with depth := [] } x y 0

/-- The cell of a particle: row and column. Models: parcels/particlesets/particlesetsoa.py:519-526. -/
def cell (g : RGrid) (p : DP) : Except Search.Err (ℤ × ℤ) :=
  if p.ti < 0 then (search2D g p.lon p.lat).map fun s => (s.yi, s.xi) else .ok (p.yi, p.xi)

/-- Indices of numpy: negative ones count from the end; none is an IndexError. Models: particlesetsoa.py:519-526. -/
def pyIndex (n : ℕ) (i : ℤ) : Option ℕ :=
  if 0 ≤ i ∧ i < n then some i.toNat else if i < 0 ∧ -n ≤ i then some (i + n).toNat else none

/-- Why `density` raises. Models: particlesetsoa.py:481-535. -/
inductive Err where
  | search (e : Search.Err)
  | index
  | truth
deriving DecidableEq, Repr

/-- The argument `particle_val`. `named`: the name of a variable, with its values. Models: particlesetsoa.py:481, 513-516. -/
inductive Val (K : Type) where
  | none
  | named (vals : List K)
  | list (vals : List K)
  | array (vals : List K)

section
variable {K : Type} [AddCommMonoid K] [One K] [DecidableEq K]

/-- The weights. The truth value of a numpy array with more than one element is a ValueError; that of an array with one element is
whether it is not 0; of an empty array, False. Models: parcels/particlesets/particlesetsoa.py:513-516. -/
def weights (size : ℕ) : Val K → Except Err (List K)
  | .none => .ok (List.replicate size 1)
  | .named vals => .ok vals
  | .list vals => .ok (if vals.isEmpty then List.replicate size 1 else vals)
  | .array [] => .ok (List.replicate size 1)
  | .array [v] => .ok (if v = 0 then List.replicate size 1 else [v])
  | .array _ => .error .truth

/-- `density[yi, xi] += val`. Models: parcels/particlesets/particlesetsoa.py:527. -/
def bump (rnd : K → K) (D : ℕ → ℕ → K) (j i : ℕ) (v : K) : ℕ → ℕ → K :=
  fun b a => if b = j ∧ a = i then rnd (D b a + v) else D b a

/-- The loop over the particles. Models: parcels/particlesets/particlesetsoa.py:519-527. -/
def count (rnd : K → K) (g : RGrid) : List DP → List K → (ℕ → ℕ → K) → Except Err (ℕ → ℕ → K)
  | [], _, D => .ok D
  | p :: ps, vals, D =>
    match cell g p with
    | .error e => .error (.search e)
    | .ok (yi, xi) =>
      match pyIndex g.lat.length yi, pyIndex g.lon.length xi, vals with
      | some j, some i, v :: vals => count rnd g ps vals (bump rnd D j i v)
      | _, _, _ => .error .index

/-- `density(particle_val=val)`, an array with `lat.size` rows and `lon.size` columns.
Models: parcels/particlesets/particlesetsoa.py:481-535. -/
def density (rnd : K → K) (g : RGrid) (ps : List DP) (val : Val K) : Except Err (ℕ → ℕ → K) :=
  match weights ps.length val with
  | .error e => .error e
  | .ok vals => count rnd g ps vals fun _ _ => 0

/-- `density(particle_val=val, relative=True)`, with exact division. Models: parcels/particlesets/particlesetsoa.py:529-530. -/
def relative (g : RGrid) (ps : List DP) (val : Val ℚ) : Except Err (ℕ → ℕ → ℚ) :=
  match weights ps.length val with
  | .error e => .error e
  | .ok vals => (count id g ps vals fun _ _ => 0).map fun D j i => D j i / vals.sum

end

end Parcels.Density
