import Verif.Model.Interp
import Verif.Model.Curvilinear

/-!
Model of the random release of particles according to a field, `ParticleSet.from_field` and
`ParticleSet.monte_carlo_sample` (parcels/particlesets/particlesetsoa.py:261-331).

Simplifications: exact arithmetic; the random numbers, in the order in which they are drawn, are an argument. What numpy does
(`np.random.choice`, `np.unravel_index`, `np.squeeze`, indexing with arrays of indices) is written out from its documentation.
-/

namespace Parcels.FromField
open Parcels.Interp

/-- `value`: ValueError; `index`: IndexError; `mode`: NotImplementedError. Models: particlesets/particlesetsoa.py:262-307 and the exceptions of numpy. -/
inductive Err where
  | value
  | index
  | mode
deriving DecidableEq, Repr

/-- An array of numbers: its shape and its entries. Models: the arrays of particlesetsoa.py:270-283. -/
structure Nd where
  shape : List Nat
  entry : List Nat → ℚ

/-- Number of entries. Models: particlesetsoa.py:281-282. -/
def size (shape : List Nat) : Nat := shape.foldr (· * ·) 1

/-- `np.unravel_index` for one index: the last index runs fastest. Models: particlesetsoa.py:285. -/
def unravel : List Nat → Nat → List Nat
  | [], _ => []
  | _ :: rest, n => n / size rest :: unravel rest (n % size rest)

/-- `np.reshape(a, (1, a.size))[0]`. Models: particlesetsoa.py:281. -/
def Nd.flat (a : Nd) : List ℚ := (List.range (size a.shape)).map fun n => a.entry (unravel a.shape n)

/-- `d[0, r, c]` for the first snapshot `d[0]`, where `r` is `:-1` (0) or `1:` (1), and likewise `c`. These are the first two indices after
the time, whatever they stand for. Models: particlesetsoa.py:276-280. -/
def Nd.cut (d : Nd) (r c : Nat) : Nd where
  shape := match d.shape with
    | a :: b :: rest => (a - 1) :: (b - 1) :: rest
    | s => s
  entry := fun
    | j :: i :: rest => d.entry ((j + r) :: (i + c) :: rest)
    | ix => d.entry ix

/-- Put back the indices of the axes of length one. Models: particlesetsoa.py:273. -/
def unsqueeze : List Nat → List Nat → List Nat
  | [], _ => []
  | n :: shape, ix =>
    if n = 1 then 0 :: unsqueeze shape ix
    else match ix with
      | i :: ix => i :: unsqueeze shape ix
      | [] => []

/-- `np.squeeze`. Models: particlesetsoa.py:273. -/
def Nd.squeeze (a : Nd) : Nd where
  shape := a.shape.filter (· ≠ 1)
  entry := fun ix => a.entry (unsqueeze a.shape ix)

/-- The grid of the field: rectilinear (with any levels) or curvilinear. Models: particlesetsoa.py:286-303. -/
inductive HGrid where
  | rect (lon lat : List ℚ)
  | curv (g : Curvilinear.CGrid ℚ)

/-- The start field: its first snapshot `data[0]`, the method and the grid. Models: particlesetsoa.py:271-272, 286. -/
structure Start where
  d : Nd
  method : Method
  grid : HGrid

/-- `p_interior`. Models: particlesetsoa.py:272-280. -/
def interior (f : Start) : Nd :=
  if f.method = .cgridTracer then (f.d.cut 1 1).squeeze
  else
    { shape := (f.d.cut 0 0).shape
      entry := fun ix =>
        let p := ((f.d.cut 0 0).entry ix + (f.d.cut 1 0).entry ix + (f.d.cut 0 1).entry ix + (f.d.cut 1 1).entry ix) / 4
        let p := if (f.d.cut 0 0).entry ix = 0 then 0 else p
        let p := if (f.d.cut 1 0).entry ix = 0 then 0 else p
        let p := if (f.d.cut 1 1).entry ix = 0 then 0 else p
        if (f.d.cut 0 1).entry ix = 0 then 0 else p }

/-- `np.cumsum`. Models: `np.random.choice` in particlesetsoa.py:282. -/
def cumsum : ℚ → List ℚ → List ℚ
  | _, [] => []
  | acc, x :: xs => (acc + x) :: cumsum (acc + x) xs

/-- `cdf.searchsorted(u, side='right')` on a cumulative distribution. Models: `np.random.choice` in particlesetsoa.py:282. -/
def searchRight (cdf : List ℚ) (u : ℚ) : Nat := (cdf.takeWhile fun c => decide (c ≤ u)).length

/-- `np.random.choice(len(p), size, replace=True, p=p / sum(p))` with the uniform random numbers `us`: an empty list, a probability
that is not a number (the sum is zero) and a negative one are ValueErrors. Models: particlesetsoa.py:281-282. -/
def choice (p us : List ℚ) : Except Err (List Nat) :=
  if p = [] then .error .value
  else if p.sum = 0 then .error .value
  else if (p.map (· / p.sum)).any fun q => decide (q < 0) then .error .value
  else .ok (us.map (searchRight (cumsum 0 (p.map (· / p.sum)))))

/-- Position in cell `(j, i)`; `none`: IndexError. Models: particlesetsoa.py:288-303. -/
def place (g : HGrid) (j i : Nat) (xsi eta : ℚ) : Option (ℚ × ℚ) :=
  match g with
  | .rect lon lat =>
    match lon[i]?, lon[i + 1]?, lat[j]?, lat[j + 1]? with
    | some a, some b, some c, some d => some (a + xsi * (b - a), c + eta * (d - c))
    | _, _, _, _ => none
  | .curv g =>
    if i + 1 < g.xdim ∧ j + 1 < g.ydim then
      let l0 := g.lon j i
      let fix := fun (p : ℚ) => bif g.spherical then Curvilinear.near l0 p else p
      some ((1 - xsi) * (1 - eta) * l0 + xsi * (1 - eta) * fix (g.lon j (i + 1)) + xsi * eta * fix (g.lon (j + 1) (i + 1))
          + (1 - xsi) * eta * fix (g.lon (j + 1) i),
        (1 - xsi) * (1 - eta) * g.lat j i + xsi * (1 - eta) * g.lat j (i + 1) + xsi * eta * g.lat (j + 1) (i + 1)
          + (1 - xsi) * eta * g.lat (j + 1) i)
    else none

/-- `j, i = np.unravel_index(ind, shape)` and the position; another number of indices than two is a ValueError.
Models: particlesetsoa.py:285-303. -/
def position (f : Start) (ind : Nat) (xsi eta : ℚ) : Except Err (ℚ × ℚ) :=
  match unravel (interior f).shape ind with
  | [j, i] => match place f.grid j i xsi eta with
    | some p => .ok p
    | none => .error .index
  | _ => .error .value

/-- All entries, or the first error. Models: particlesetsoa.py:288-304. -/
def collect : List (Except Err (ℚ × ℚ)) → Except Err (List (ℚ × ℚ))
  | [] => .ok []
  | .error e :: _ => .error e
  | .ok p :: rest => match collect rest with
    | .ok ps => .ok (p :: ps)
    | .error e => .error e

/-- `ParticleSet.monte_carlo_sample`, the positions of the particles of `ParticleSet.from_field`; `rnd` are the numbers drawn from the
uniform distribution on [0, 1): first `size` of them to choose cells, then `size` for `xsi`, then `size` for `eta`.
Simplification: that the shape has two axes is checked for each particle, so that a call with `size = 0` does not fail.
Models: particlesetsoa.py:262-306. -/
def monteCarlo (f : Start) (n : Nat) (rnd : Nat → ℚ) (mode : String) : Except Err (List (ℚ × ℚ)) :=
  if mode = "monte_carlo" then
    match choice (interior f).flat ((List.range n).map rnd) with
    | .error e => .error e
    | .ok inds => collect (inds.zipIdx.map fun q => position f q.1 (rnd (n + q.2)) (rnd (2 * n + q.2)))
  else .error .mode

end Parcels.FromField
