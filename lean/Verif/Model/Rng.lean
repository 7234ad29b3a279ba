import Mathlib.Analysis.SpecialFunctions.Log.Basic
import Mathlib.Analysis.SpecialFunctions.Trigonometric.Inverse

/-!
Model of the random numbers of kernels (parcels/include/random.h, parcels/rng.py).

`draw` is what one call of the C library's `rand()` gives, any number in {0, ..., RAND_MAX}; RAND_MAX is 2^31-1 as in glibc.
Arithmetic is in real numbers with a rounding after every operation: `f` rounds to `float`, `d` to `double`. (With the identity
for both this is exact arithmetic.) Not modelled: overflow to infinity and denormal numbers. `log`, `sqrt`, `cos`, `acos`, `exp`
are the real functions, rounded.
-/

namespace Parcels.Rng

noncomputable section

/-- `RAND_MAX` of glibc. Models: random.h:21, 26, 43-44, 57, 74, 84-93. -/
def randMax : ℕ := 2 ^ 31 - 1

/-- The two roundings of C. Models: the types float and double of random.h:19-106. -/
structure Fl where
  f : ℝ → ℝ
  d : ℝ → ℝ

/-- Exact arithmetic. Models: simplification of random.h:19-106. -/
def exact : Fl := ⟨id, id⟩

variable (r : Fl)

/-- `parcels_random`. Models: parcels/include/random.h:19-22. -/
def random (draw : ℕ) : ℝ := r.f (r.f draw / r.f randMax)

/-- `parcels_uniform`; the arguments are floats. If `high = low` the inner quotient is infinite in C and the outer one 0; here
a division by 0 gives 0, and so does the next: the result is the same. Models: parcels/include/random.h:24-27. -/
def uniformC (low high : ℝ) (draw : ℕ) : ℝ := r.f (r.f (r.f draw / r.f (r.f randMax / r.f (high - low))) + low)

/-- `uniform(low, high)` of Python: the arguments are converted by `c_float`. Models: parcels/rng.py:144-149. -/
def uniform (low high : ℝ) (draw : ℕ) : ℝ := uniformC r (r.f low) (r.f high) draw

/-- `parcels_randint`; none is undefined behaviour: overflow of `high-low`, of the sum, or division by zero. The remainder of C
has the sign of the dividend. Models: parcels/include/random.h:29-32. -/
def randint (low high : ℤ) (draw : ℕ) : Option ℤ :=
  let span := high - low
  if span < -2 ^ 31 ∨ 2 ^ 31 ≤ span ∨ span = 0 then none
  else
    let v := (draw : ℤ).tmod span + low
    if v < -2 ^ 31 ∨ 2 ^ 31 ≤ v then none else some v

/-- One turn of the loop of `parcels_normalvariate`: x1, x2 and w. `2.0 * (float)rand()` is exact; the quotient and the
difference are `double`, the assignment rounds to `float`. Models: parcels/include/random.h:43-45. -/
def polar (draw1 draw2 : ℕ) : ℝ × ℝ × ℝ :=
  let x (n : ℕ) := r.f (r.d (r.d (2 * r.f n / r.f randMax) - 1))
  (x draw1, x draw2, r.f (r.f (x draw1 * x draw1) + r.f (x draw2 * x draw2)))

/-- `parcels_normalvariate` with the given draws: the result (none: the draws are used up in the loop). The intermediate `double`
roundings of the last lines are left out. Models: parcels/include/random.h:34-51. -/
def normalvariate (loc scale : ℝ) : List ℕ → Option ℝ
  | a :: b :: rest =>
    let (x1, _, w) := polar r a b
    if 1 ≤ w then normalvariate loc scale rest
    else some (r.f (loc + x1 * Real.sqrt (-2 * Real.log w / w) * scale))
  | _ => none

/-- The number `u` of `parcels_expovariate`. `(float)(RAND_MAX) + 1.0` is a `double`. Models: parcels/include/random.h:56-57. -/
def expoU (draw : ℕ) : ℝ := r.f (r.d (r.f draw / r.d (r.f randMax + 1)))

/-- `parcels_expovariate`. Models: parcels/include/random.h:53-59. -/
def expovariate (lamb : ℝ) (draw : ℕ) : ℝ := r.f (r.d (-(r.d (Real.log (r.d (1 - expoU r draw)))) / lamb))

/-- C's `fmod(x, y)` for y > 0: the remainder with the sign of x. Models: random.h:96, 99. -/
def fmod (x y : ℝ) : ℝ := x - y * (if 0 ≤ x then (⌊x / y⌋ : ℝ) else (⌈x / y⌉ : ℝ))

/-- The last lines of `parcels_vonmisesvariate`: from the cosine `c` of the accepted angle to the result.
Models: parcels/include/random.h:91-105. -/
def vonMisesEnd (mu c : ℝ) (draw : ℕ) : ℝ :=
  let u3 := r.f (r.f draw / r.f randMax)
  let theta := if 1 / 2 < u3 then r.f (fmod (r.d (mu + Real.arccos c)) (2 * Real.pi))
    else r.f (fmod (r.d (mu - Real.arccos c)) (2 * Real.pi))
  if theta < 0 then r.f (r.d (2 * Real.pi + theta)) else theta

/-- `parcels_vonmisesvariate` with the given draws (none: used up in the loop); `float` roundings only where a float variable is
assigned. Models: parcels/include/random.h:61-106. -/
def vonmisesvariate (mu kappa : ℝ) (draws : List ℕ) : Option ℝ :=
  if kappa ≤ 1 / 1000000 then draws.head?.map fun (n : ℕ) => r.f (r.d (r.d (2 * Real.pi * r.f n) / r.f randMax))
  else
    let s := r.f (1 / 2 / kappa)
    if |s| ≤ 1 / 2 ^ 23 * |s| then some mu
    else
      let rr := r.f (s + Real.sqrt (1 + s * s))
      let rec go : List ℕ → Option ℝ
        | a :: b :: rest =>
          let z := r.f (Real.cos (r.d (Real.pi * r.f (r.f a / r.f randMax))))
          let dd := r.f (z / r.f (rr + z))
          let u2 := r.f (r.f b / r.f randMax)
          if u2 ≥ 1 - dd * dd ∧ u2 > (1 - dd) * Real.exp dd then go rest
          else
            let q := r.f (1 / rr)
            let c := r.f (r.d (q + z) / r.d (1 + q * z))
            rest.head?.map fun n => vonMisesEnd r mu c n
        | _ => none
      go draws

end

end Parcels.Rng
