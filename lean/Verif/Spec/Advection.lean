import Verif.Model.Advection

/-!
Vocabulary for C49, C50 and C66.
-/

namespace Parcels.Advection

open KernelLoop (Exc)

section
variable {K : Type} [Field K]

/-- A flow that is the same everywhere and always. -/
def uniform (u v : K) : Flow K := fun _ _ _ _ => .ok (u, v)
def uniform3 (u v w : K) : Flow3 K := fun _ _ _ _ => .ok (u, v, w)

/-- A flow that depends on time only. -/
def timeFlow (u v : K → K) : Flow K := fun t _ _ _ => .ok (u t, v t)
def timeFlow3 (u v w : K → K) : Flow3 K := fun t _ _ _ => .ok (u t, v t, w t)

/-- A velocity that is a cubic polynomial of time. -/
def cubic (a : Fin 4 → K) (t : K) : K := a 0 + a 1 * t + a 2 * (t * t) + a 3 * (t * t * t)

/-- An antiderivative of it. -/
def primitive (a : Fin 4 → K) (t : K) : K := a 0 * t + a 1 * (t * t) / 2 + a 2 * (t * t * t) / 3 + a 3 * (t * t * t * t) / 4

/-- A flow that is defined everywhere. -/
def total (f : K → K → K × K → K × K) : Flow K := fun t d y x => .ok (f t d (x, y))

/-! ### Runge-Kutta methods in general -/

/-- A Butcher tableau of an explicit method: for each stage `c` and the row of `A`; and the weights `b`. -/
structure Tableau (K : Type) where
  stages : List (K × List K)
  b : List K

/-- Σ c_i k_i. -/
def comb (cs : List K) (ks : List (K × K)) : K × K :=
  ((List.zipWith (fun c k => c * k.1) cs ks).sum, (List.zipWith (fun c k => c * k.2) cs ks).sum)

/-- The slopes: `k_i = f (t + c_i h) (x + h Σ_j A_ij k_j)`. -/
def slopes (f : K → K × K → K × K) (t h : K) (x : K × K) : List (K × List K) → List (K × K) → List (K × K)
  | [], ks => ks
  | (c, row) :: rest, ks =>
    slopes f t h x rest (ks ++ [f (t + c * h) (x.1 + h * (comb row ks).1, x.2 + h * (comb row ks).2)])

/-- One step of the method: `x + h Σ b_i k_i`. -/
def Tableau.step (T : Tableau K) (f : K → K × K → K × K) (t h : K) (x : K × K) : K × K :=
  let ks := slopes f t h x T.stages []
  (x.1 + h * (comb T.b ks).1, x.2 + h * (comb T.b ks).2)

/-- Euler's method. -/
def euler : Tableau K := ⟨[(0, [])], [1]⟩

/-- The classical Runge-Kutta method. -/
def classical : Tableau K := ⟨[(0, []), (1 / 2, [1 / 2]), (1 / 2, [0, 1 / 2]), (1, [0, 0, 1])], [1 / 6, 1 / 3, 1 / 3, 1 / 6]⟩

/-- The stages of Fehlberg's method. -/
def fehlbergStages : List (K × List K) :=
  [(0, []), (1 / 4, [1 / 4]), (3 / 8, [3 / 32, 9 / 32]), (12 / 13, [1932 / 2197, -7200 / 2197, 7296 / 2197]),
   (1, [439 / 216, -8, 3680 / 513, -845 / 4104]), (1 / 2, [-8 / 27, 2, -3544 / 2565, 1859 / 4104, -11 / 40])]

/-- Fehlberg's method of order 4, and that of order 5. -/
def fehlberg4 : Tableau K := ⟨fehlbergStages, [25 / 216, 0, 1408 / 2565, 2197 / 4104, -1 / 5, 0]⟩
def fehlberg5 : Tableau K := ⟨fehlbergStages, [16 / 135, 0, 6656 / 12825, 28561 / 56430, -9 / 50, 2 / 55]⟩

end

/-- Rooted trees: a single node, or a tree `t` to whose root another tree `s` is attached. -/
inductive Tree where
  | leaf
  | graft (t s : Tree)
deriving DecidableEq

/-- Number of nodes. -/
def Tree.order : Tree → Nat
  | .leaf => 1
  | .graft t s => t.order + s.order

/-- The product, over all nodes, of the number of nodes above it and itself; without the root. -/
def Tree.branches : Tree → Nat
  | .leaf => 1
  | .graft t s => t.branches * (s.order * s.branches)

/-- The density of a tree. -/
def Tree.density (t : Tree) : Nat := t.order * t.branches

/-- The elementary weights of the stages. -/
def Tree.weights (A : List (List ℚ)) : Tree → List ℚ
  | .leaf => A.map fun _ => 1
  | .graft t s => List.zipWith (· * ·) (t.weights A) (A.map fun row => (List.zipWith (· * ·) row (s.weights A)).sum)

/-- Butcher's condition for a tree. -/
def Satisfies (T : Tableau ℚ) (t : Tree) : Prop :=
  (List.zipWith (· * ·) T.b (t.weights (T.stages.map Prod.snd))).sum = 1 / (t.density : ℚ)

/-- The conditions for order `n`: Butcher's condition for all trees with at most `n` nodes, and the rows of `A` have the
sums `c`. -/
def HasOrder (n : Nat) (T : Tableau ℚ) : Prop :=
  (∀ t : Tree, t.order ≤ n → Satisfies T t) ∧ ∀ r ∈ T.stages, r.2.sum = r.1

end Parcels.Advection
