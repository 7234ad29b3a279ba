import Verif.Proofs.CGridRun

/-!
C120: velocities on C-grids, sampled at a time and a position.
-/

namespace Parcels.CGridRun

open Search Interp
open CGrid (Metric)
open Curvilinear (IsSqrt)
open KernelLoop (Exc)
open GridRun (Fld Hint Sound)

/-- C120 (Scipy mode): wherever the field covers the position and the time, the sampled velocity is the one in a cell that contains the position: the first component between the western and the eastern face, the second between the southern and the northern one, and both in time. -/
theorem C120_scipy (m : Metric ℚ) (hs : IsSqrt m.sqrt) (mit per : Bool) (f : Fld) (hf : Sound f) (dV : Nat → Arr) (hp : per = true → Closed f dV) (t z y x : ℚ) (h : Covers per f t z y x) :
    ∃ u v, eval m mit per f dV t z y x = .ok (u, v) ∧ Gives mit per f dV t z y x u v :=
  (gives hs mit hf dV hp h).1

/-- C120 (JIT mode): the same for every remembered cell, if no cell is wider than 180 (`C51_flat_jit_fails`). -/
theorem C120_jit_partial (m : Metric ℚ) (hs : IsSqrt m.sqrt) (mit per : Bool) (f : Fld) (hf : Sound f) (hn : NarrowCells f) (dV : Nat → Arr) (hp : per = true → Closed f dV)
    (t z y x : ℚ) (h : Covers per f t z y x) (hint : Hint) (hh : Remembered f hint) :
    ∃ u v, cEval m mit per f dV t z y x hint = .ok (u, v) ∧ Gives mit per f dV t z y x u v :=
  (gives hs mit hf dV hp h).2 hn hint hh

/-- C120: where the field does not cover the position or the time, both modes raise an error. -/
theorem C120_raise (m : Metric ℚ) (mit per : Bool) (f : Fld) (hf : Sound f) (dV : Nat → Arr) (t z y x : ℚ) (h : ¬ Covers per f t z y x) :
    (∃ e, eval m mit per f dV t z y x = .error e) ∧ ∀ hint, Remembered f hint → ∃ e, cEval m mit per f dV t z y x hint = .error e :=
  raises m mit hf dV h

/-- C120: between the rows of the grid (and between its levels) the first component is the same in both modes, whatever the remembered cell; between its columns the second one is. In the interior of cells both modes give the same velocity. -/
theorem C120_modes_partial (m : Metric ℚ) (hs : IsSqrt m.sqrt) (mit per : Bool) (f : Fld) (hf : Sound f) (hn : NarrowCells f) (dV : Nat → Arr) (hp : per = true → Closed f dV)
    (t z y x u v u' v' : ℚ) (hint : Hint) (hh : Remembered f hint) (h : eval m mit per f dV t z y x = .ok (u, v)) (h' : cEval m mit per f dV t z y x hint = .ok (u', v'))
    (hz : f.grid.depth.length ≤ 1 ∨ z ∉ f.grid.depth) : (y ∉ f.grid.lat → u = u') ∧ (x ∉ f.grid.lon → v = v') := by
  by_cases c : Covers per f t z y x
  · obtain ⟨⟨a, b, e, g⟩, j⟩ := gives hs mit hf dV hp c
    obtain ⟨a', b', e', g'⟩ := j hn hint hh
    rw [e] at h
    rw [e'] at h'
    injection h with h
    injection h' with h'
    obtain ⟨rfl, rfl⟩ := Prod.mk.inj h
    obtain ⟨rfl, rfl⟩ := Prod.mk.inj h'
    exact ⟨fun hy => gives_u hf hp g g' hy hz, fun hx => gives_v hf hp g g' hx hz⟩
  · obtain ⟨e, he⟩ := (raises m mit hf dV c).1
    rw [he] at h
    cases h

/-- C120: the velocity through a face is the given one, in both modes: at the `n`-th longitude the first component is the velocity given on the western face of a cell `(m, n)` that the position touches, interpolated in time only; at the `m`-th latitude the second component is the one given on the southern face. (By `C120_scipy` and `C120_jit_partial` the sampled velocity is one that `Gives` describes.) -/
theorem C120_face (mit per : Bool) (f : Fld) (hf : Sound f) (dV : Nat → Arr) (t z y x u v : ℚ) (h : Gives mit per f dV t z y x u v) :
    ∃ k m n : Nat, ∃ s r : ℚ, InCell f.grid z y x k m n s r ∧
      (∀ n' : Nat, f.grid.lon[n']? = some x → InTime per f t (fun i => western mit (f.data i) k m n') u) ∧
      (∀ m' : Nat, f.grid.lat[m']? = some y → InTime per f t (fun i => southern mit (dV i) k m' n) v) := by
  obtain ⟨k, m, n, s, r, c, hu, hv⟩ := h
  refine ⟨k, m, n, s, r, c, fun n' hx => ?_, fun m' hy => ?_⟩
  · rw [show (fun i => lerp r (western mit (f.data i) k m n) (western mit (f.data i) k m (n + 1))) = fun i => western mit (f.data i) k m n' from
      funext fun i => at_node hf.lonInc c.lon hx (fun a => western mit (f.data i) k m a)] at hu
    exact hu
  · rw [show (fun i => lerp s (southern mit (dV i) k m n) (southern mit (dV i) k (m + 1) n)) = fun i => southern mit (dV i) k m' n from
      funext fun i => at_node hf.latInc c.lat hy (fun a => southern mit (dV i) k a n)] at hv
    exact hv

/-! ### A case -/

/-- 2 x 2 cells, two times; the velocity differs between the rows and the columns. -/
def sea : Fld where
  grid := { lon := [0, 10, 20], lat := [0, 10, 20], depth := [0], spherical := false, zonalPeriodic := false, mom5 := false }
  time := [0, 100]
  extrap := false
  data := fun i => { nz := 1, ny := 3, nx := 3, v := fun _ j n => j + 2 * n + 10 * i }
  igrid := 0

def seaV : Nat → Arr := fun i => { nz := 1, ny := 3, nx := 3, v := fun _ j n => 3 * j - n + i }

def root : Metric ℚ := ⟨Rat.sqrt, fun _ => 1⟩

theorem root_sqrt : IsSqrt root.sqrt := fun x => Rat.sqrt_eq x

theorem sea_sound : Sound sea :=
  ⟨rfl, rfl, rfl, by unfold Increasing; decide +kernel, by decide, by unfold Increasing; decide +kernel, by decide, Or.inl (by decide), by unfold Increasing; decide +kernel, by decide, fun _ => ⟨rfl, rfl, rfl⟩⟩

theorem sea_narrow : NarrowCells sea := by
  intro i a b ha hb
  rcases i with _ | _ | _ | i
  · cases ha; cases hb; norm_num
  · cases ha; cases hb; norm_num
  · cases hb
  · cases hb

example : Sound sea ∧ NarrowCells sea ∧ IsSqrt root.sqrt ∧ Covers false sea 25 0 4 5 ∧ Remembered sea ⟨1, 1, 0, 0⟩ ∧ (5 : ℚ) ∉ sea.grid.lon ∧ (4 : ℚ) ∉ sea.grid.lat := by
  refine ⟨sea_sound, sea_narrow, root_sqrt, ⟨⟨0, 10, ?_⟩, ⟨0, 10, ?_⟩, fun h => absurd h (by decide), Or.inr (Or.inr ⟨0, 100, ?_⟩)⟩, ?_, ?_, ?_⟩
  all_goals first | decide +kernel | (unfold Remembered; decide +kernel)

example : (match eval root false false sea seaV 25 0 4 5, cEval root false false sea seaV 25 0 4 5 ⟨1, 1, 0, 0⟩ with
    | .ok a, .ok b => decide (a = (9/2, 9/20)) && decide (b = (9/2, 9/20))
    | _, _ => false) = true := by decide +kernel

theorem ok_of (a : Except Exc (ℚ × ℚ)) (b : ℚ × ℚ) (h : (match a with | .ok c => decide (c = b) | _ => false) = true) : a = .ok b := by
  cases a with
  | error e => cases h
  | ok c => rw [of_decide_eq_true h]

/-- C120 fails on the boundary between rows: there the first component is that of the southern or that of the northern row, according to the remembered cell in JIT mode, so the same position has two velocities, one of which differs from that of Scipy mode. -/
theorem C120_modes_fails : ∃ f dV, Sound f ∧ NarrowCells f ∧ ∃ t z y x h h' a b, Remembered f h ∧ Remembered f h' ∧ eval root false false f dV t z y x = .ok a ∧
    cEval root false false f dV t z y x h = .ok a ∧ cEval root false false f dV t z y x h' = .ok b ∧ a.1 ≠ b.1 := by
  refine ⟨sea, seaV, sea_sound, sea_narrow, 25, 0, 10, 5, ⟨0, 0, 0, 0⟩, ⟨1, 1, 0, 0⟩, (9/2, 9/4), (11/2, 9/4), ?_, ?_, ok_of _ _ ?_, ok_of _ _ ?_, ok_of _ _ ?_, by norm_num⟩
  all_goals first | (unfold Remembered; decide +kernel) | decide +kernel

/-- A position on a longitude and a latitude of the grid. -/
example : (match eval root true false sea seaV 25 0 10 10 with | .ok a => decide (a = (9/2, 13/4)) | _ => false) = true := by decide +kernel

/-- The field with the data of its first time at its last one. -/
def tide : Fld := { sea with time := [0, 50, 100], data := fun i => sea.data (i % 2) }
def tideV : Nat → Arr := fun i => seaV (i % 2)

example : Sound tide ∧ Closed tide tideV ∧ Covers true tide (-325) 0 4 5 ∧ ¬ Covers false tide (-325) 0 4 5 ∧ ¬ Covers true tide 25 0 21 5 := by
  refine ⟨⟨rfl, rfl, rfl, by unfold Increasing; decide +kernel, by decide, by unfold Increasing; decide +kernel, by decide, Or.inl (by decide), by unfold Increasing; decide +kernel, by decide, fun _ => ⟨rfl, rfl, rfl⟩⟩,
    ⟨by decide, rfl, rfl⟩, ⟨⟨0, 10, ?_⟩, ⟨0, 10, ?_⟩, fun h => absurd h (by decide), Or.inl rfl⟩, ?_, ?_⟩
  · decide +kernel
  · decide +kernel
  · rintro ⟨-, -, -, h | h | ⟨a, b, ha, -, h, -⟩⟩
    · cases h
    · cases h
    · simp only [tide, List.mem_cons, List.not_mem_nil, or_false] at ha
      rcases ha with rfl | rfl | rfl <;> norm_num at h
  · rintro ⟨-, ⟨a, b, -, hb, -, h⟩, -⟩
    simp only [tide, sea, List.mem_cons, List.not_mem_nil, or_false] at hb
    rcases hb with rfl | rfl | rfl <;> norm_num at h

example : (match eval root false true tide tideV (-325) 0 4 5, cEval root false true tide tideV (-325) 0 4 5 ⟨1, 1, 0, 2⟩ with
    | .ok a, .ok b => decide (a = b) && decide (a = (7, 7/10))
    | _, _ => false) = true := by decide +kernel

end Parcels.CGridRun
