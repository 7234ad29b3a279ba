import Verif.Model.Precision
import Verif.Proofs.Construct

/-!
C61, types of coordinates: creating a particle set changes the sets made before.
-/

namespace Parcels.Precision
open Parcels.Construct

theorem zip_map_all {α β γ : Type} (l : List α) (f : α → β) (g : α → γ) (p : β × γ → Bool) :
    (((l.map f).zip (l.map g)).all p) = l.all fun x => p (f x, g x) := by
  induction l with
  | nil => rfl
  | cons a l ih => simp [ih]

theorem cstruct_iff (own now : DType) (user : List PVar) (hu : ∀ v ∈ user, v.name ∉ ["lon", "lat", "depth"]) :
    cstruct own now user = true ↔ own = now := by
  unfold cstruct ptype arrays
  rw [zip_map_all, List.all_eq_true]
  constructor
  · intro h
    have := h ⟨"lon", own, .const (some 0)⟩ (mem_classVars.mpr (by simp [builtin]))
    exact (by simpa using this : now = own).symm
  · rintro rfl v hv
    rw [decide_eq_true_eq]
    split_ifs with hn
    · dsimp only
      rcases List.mem_append.mp (mem_classVars.mp hv) with h | h
      · simp only [builtin, List.mem_cons, List.not_mem_nil, or_false] at h
        rcases h with rfl | rfl | rfl | rfl | rfl | rfl | rfl | rfl | rfl <;> first | rfl | simp at hn
      · exact absurd hn (hu v h)
    · rfl

theorem run_sets (ts : List DType) : (run ts).sets = ts := by
  have : ∀ (ts : List DType) (w : World), (ts.foldl World.create w).sets = w.sets ++ ts := by
    intro ts
    induction ts with
    | nil => intro w; simp
    | cons t ts ih => intro w; rw [List.foldl_cons, ih]; simp [World.create]
  rw [run, this]; rfl

theorem run_coord (ts : List DType) (t : DType) : (run (ts ++ [t])).coord = t := by
  rw [run, List.foldl_append]; rfl

/-- C61 for the types of coordinates: whichever sets have been made, a set can be executed (in JIT mode) if its coordinates have the type of those of the last one that
was made. -/
theorem C61_precision_partial (user : List PVar) (hu : ∀ v ∈ user, v.name ∉ ["lon", "lat", "depth"]) (ts : List DType) (t : DType) (i : Nat)
    (h : (ts ++ [t])[i]? = some t) : executable (run (ts ++ [t])) user i = some true := by
  unfold executable
  rw [run_sets, h, run_coord]
  simp only [Option.map_some, Option.some.injEq]
  exact (cstruct_iff t t user hu).mpr rfl

/-- C61 fails for the types of coordinates: as soon as a set with the other type is made (for instance on a C-grid, where the default is float64), none of the sets made
before with this type can be executed in JIT mode (TypeError), whatever their class. -/
theorem C61_precision_fails (user : List PVar) (hu : ∀ v ∈ user, v.name ∉ ["lon", "lat", "depth"]) (ts : List DType) (t own : DType) (i : Nat)
    (h : (ts ++ [t])[i]? = some own) (hne : own ≠ t) : executable (run (ts ++ [t])) user i = some false := by
  unfold executable
  rw [run_sets, h, run_coord]
  simp only [Option.map_some, Option.some.injEq]
  rw [← Bool.not_eq_true, cstruct_iff own t user hu]
  exact hne

example : executable (run [.f32]) [] 0 = some true ∧ executable (run [.f32, .f64]) [] 0 = some false ∧
    executable (run [.f32, .f64]) [] 1 = some true := by decide

end Parcels.Precision
