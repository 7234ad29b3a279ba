import Verif.Model.Scaling
import Mathlib.Tactic.Ring
import Mathlib.Tactic.Linarith

/-!
C41: deferred and direct loading scale and mask data alike. The code masks before scaling in one case and after it in
the other, so they agree exactly when that makes no difference.
-/

namespace Parcels.Scaling

/-- The datum of a field loaded directly: constructed with the data, then `set_scaling_factor` if wanted. -/
def directValue (vmin vmax factor x : Option ℚ) : Option (List ℚ) :=
  let s : FState := { factor := none, data := [construct vmin vmax x] }
  match factor with
  | none => some s.data
  | some f => (setScaling false s f).map (·.data)

/-- The datum of a field with deferred loading: `set_scaling_factor` if wanted, then the snapshot is loaded. -/
def deferredValue (vmin vmax factor x : Option ℚ) : Option (List ℚ) :=
  let s : FState := { factor := none, data := [] }
  match factor with
  | none => some (load vmin vmax s x).data
  | some f => (setScaling true s f).map fun s' => (load vmin vmax s' x).data

/-- The value is within the bounds that are set. -/
def Within (vmin vmax : Option ℚ) (x : ℚ) : Prop := (∀ m, vmin = some m → m ≤ x) ∧ (∀ m, vmax = some m → x ≤ m)

theorem mask_spec (vmin vmax : Option ℚ) (x : ℚ) :
    (Within vmin vmax x → maskMax vmax (maskMin vmin x) = x) ∧ (¬ Within vmin vmax x → maskMax vmax (maskMin vmin x) = 0) := by
  unfold Within maskMax maskMin
  cases vmin with
  | none =>
    cases vmax with
    | none => simp
    | some M =>
      by_cases h : M < x
      · have : ¬ x ≤ M := by linarith
        simp [h, this]
      · have : x ≤ M := by linarith
        simp [h, this]
  | some m =>
    cases vmax with
    | none =>
      by_cases h : x < m
      · have : ¬ m ≤ x := by linarith
        simp [h, this]
      · have : m ≤ x := by linarith
        simp [h, this]
    | some M =>
      by_cases h : x < m
      · have : ¬ m ≤ x := by linarith
        simp [h, this]
      · have h' : m ≤ x := by linarith
        by_cases h2 : M < x
        · have : ¬ x ≤ M := by linarith
          simp [h, h', h2, this]
        · have : x ≤ M := by linarith
          simp [h, h', h2, this]

theorem directValue_eq (vmin vmax x : Option ℚ) (f : ℚ) :
    directValue vmin vmax (some f) x = some [construct vmin vmax x * f] := rfl

theorem deferredValue_eq (vmin vmax x : Option ℚ) (f : ℚ) (hf : f ≠ 0) :
    deferredValue vmin vmax (some f) x = some [maskMax vmax (maskMin vmin (x.getD 0 * f))] := by
  simp [deferredValue, setScaling, truthy, load, rescale, noNaN, hf]

/-- C41: what a user gets without a scaling factor, in both ways of loading: the datum if it is within the bounds, and
0 if it is not or is missing. -/
theorem C41_no_factor (vmin vmax x : Option ℚ) :
    directValue vmin vmax none x = deferredValue vmin vmax none x ∧
      (∀ v, x = some v → Within vmin vmax v → directValue vmin vmax none x = some [v]) ∧
      (∀ v, x = some v → ¬ Within vmin vmax v → directValue vmin vmax none x = some [0]) ∧
      (x = none → directValue vmin vmax none x = some [0]) := by
  refine ⟨rfl, ?_, ?_, ?_⟩
  · rintro v rfl h
    show some [maskMax vmax (maskMin vmin v)] = _
    rw [(mask_spec vmin vmax v).1 h]
  · rintro v rfl h
    show some [maskMax vmax (maskMin vmin v)] = _
    rw [(mask_spec vmin vmax v).2 h]
  · rintro rfl
    show some [maskMax vmax (maskMin vmin 0)] = _
    by_cases h : Within vmin vmax 0
    · rw [(mask_spec vmin vmax 0).1 h]
    · rw [(mask_spec vmin vmax 0).2 h]

/-- C41 (partial): with a factor and no bounds, both ways of loading give the datum times the factor. Missing: the
factor 0, see `C41_zero`, and bounds, see `C41_agree_iff`. -/
theorem C41_no_bounds_partial (v f : ℚ) (hf : f ≠ 0) :
    directValue none none (some f) (some v) = some [v * f] ∧ deferredValue none none (some f) (some v) = some [v * f] := by
  exact ⟨rfl, by rw [deferredValue_eq _ _ _ _ hf]; rfl⟩

/-- C41 (partial), with bounds and a factor: the two ways of loading agree exactly if the scaled datum is 0, or the
datum and the scaled datum are both within the bounds, or both outside. -/
theorem C41_agree_iff (vmin vmax : Option ℚ) (v f : ℚ) (hf : f ≠ 0) :
    directValue vmin vmax (some f) (some v) = deferredValue vmin vmax (some f) (some v) ↔
      v * f = 0 ∨ (Within vmin vmax v ↔ Within vmin vmax (v * f)) := by
  rw [directValue_eq, deferredValue_eq _ _ _ _ hf]
  show some [maskMax vmax (maskMin vmin v) * f] = some [maskMax vmax (maskMin vmin (v * f))] ↔ _
  have A := mask_spec vmin vmax v
  have B := mask_spec vmin vmax (v * f)
  by_cases h1 : Within vmin vmax v <;> by_cases h2 : Within vmin vmax (v * f)
  · rw [A.1 h1, B.1 h2]; simp [h1, h2]
  · rw [A.1 h1, B.2 h2]
    simp only [h1, h2, Option.some.injEq, List.cons.injEq, and_true, iff_false, not_true, or_false]
  · rw [A.2 h1, B.1 h2]
    simp only [h1, h2, Option.some.injEq, List.cons.injEq, and_true, iff_true, or_false, zero_mul]
    exact eq_comm
  · rw [A.2 h1, B.2 h2]; simp [h1, h2]

/-- Both sides of the equivalence can hold with a datum that is kept. -/
example : Within (some 0) (some 100) 50 ∧ Within (some 0) (some 100) (50 * (1 / 2)) := by
  refine ⟨⟨?_, ?_⟩, ⟨?_, ?_⟩⟩ <;> intro m hm <;> cases hm <;> norm_num

/-- C41 with the factor 0: loaded directly the field is 0; with deferred loading the factor is ignored. -/
theorem C41_zero (vmin vmax x : Option ℚ) :
    directValue vmin vmax (some 0) x = some [0] ∧ deferredValue vmin vmax (some 0) x = deferredValue vmin vmax none x := by
  refine ⟨?_, ?_⟩
  · rw [directValue_eq, mul_zero]
  · simp [deferredValue, setScaling, truthy, load, rescale]

/-- The full claim of C41 is false of the code: `vmax=100` and the factor 1/100 used for velocities in cm/s, with a
datum of 500 cm/s. Loaded directly it is 0, with deferred loading it is 5. -/
theorem C41_full_false : ¬ ∀ vmin vmax factor x, directValue vmin vmax factor x = deferredValue vmin vmax factor x :=
  fun h => absurd (h none (some 100) (some (1 / 100)) (some 500)) (by decide +kernel)

example : directValue none (some 100) (some (1 / 100)) (some 500) = some [0] ∧
    deferredValue none (some 100) (some (1 / 100)) (some 500) = some [5] := by decide +kernel

/-! ### Histories: when the factor is set -/

/-- Load snapshots one after the other. -/
def loadAll (vmin vmax : Option ℚ) (s : FState) (xs : List (Option ℚ)) : FState := xs.foldl (load vmin vmax) s

theorem loadAll_spec (vmin vmax : Option ℚ) : ∀ (xs : List (Option ℚ)) (s : FState),
    loadAll vmin vmax s xs = { factor := s.factor, data := s.data ++ xs.map (rescale vmin vmax s.factor) }
  | [], s => by simp [loadAll]
  | x :: xs, s => by
    show loadAll vmin vmax (load vmin vmax s x) xs = _
    rw [loadAll_spec vmin vmax xs]
    simp [load]

/-- C41 over histories (partial): if the factor is set before the first snapshot is loaded, every snapshot ever loaded
holds the values of the direct way without bounds. Missing: setting the factor after snapshots have been loaded, for
which it is false, see `C41_late_false`. -/
theorem C41_history_partial (f : ℚ) (hf : f ≠ 0) (vs : List ℚ) :
    (setScaling true { factor := none, data := [] } f).map (fun s => (loadAll none none s (vs.map some)).data) =
      (setScaling false { factor := none, data := vs.map fun v => construct none none (some v) } f).map (·.data) := by
  simp only [setScaling, truthy, Option.isSome_none, Bool.false_eq_true, if_false, Option.map_some, loadAll_spec, if_true]
  congr 1
  rw [List.nil_append, List.map_map, List.map_map]
  apply List.map_congr_left
  intro v _
  simp [rescale, truthy, hf, noNaN, maskMax, maskMin, construct]

example : (setScaling true { factor := none, data := [] } 2).map
    (fun s => (loadAll none none s [some 1, some 3]).data) = some [2, 6] := by decide +kernel

/-- Setting the factor when a snapshot has been loaded leaves that snapshot unscaled, while the next one is scaled. -/
theorem C41_late_false :
    (setScaling true (loadAll none none { factor := none, data := [] } [some 1]) 2).map
      (fun s => (loadAll none none s [some 1]).data) = some [1, 2] := by decide +kernel

/-- C41: a second factor is refused, and the first one stays. Only the factor 0 can be replaced. -/
theorem C41_once (d : Bool) (s s' : FState) (f g : ℚ) (h : setScaling d s f = some s') :
    (f ≠ 0 → setScaling d s' g = none) ∧ (f = 0 → setScaling d s' g ≠ none) := by
  unfold setScaling at h
  by_cases h0 : (truthy s.factor).isSome = true
  · rw [if_pos h0] at h; cases h
  · rw [if_neg h0] at h
    obtain rfl := (Option.some.inj h).symm
    constructor
    · intro hf; simp [setScaling, truthy, hf]
    · rintro rfl; simp [setScaling, truthy]

example : setScaling false { factor := none, data := [3] } 2 = some { factor := some 2, data := [6] } := by decide +kernel

end Parcels.Scaling
