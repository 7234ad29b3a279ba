import Verif.Proofs.JitLoop

/-!
C46: the JIT loop and the Scipy loop agree.

Full claim: for the same deterministic kernel behaviour, both loops bring every particle through the same sequence of
(time, dt) steps and end in the same time and state, for dt ≠ 0. It is false; witnesses are below. Proved: it holds for
kernels that are `Steady` (Spec/JitLoop) and particles whose own dt is not 0.
-/

namespace Parcels.JitLoop

open KernelLoop

variable {W V : Type}

/-- C46. If the Scipy loop ends, so does the JIT loop, with the same world, the same particles (time, dt, state and
variables) and the same kernel calls, in order, with the particles given to them; and no global is left set. -/
theorem C46_same_steps_partial (K : Kern W V) (hK : Steady K) (E dt : ℚ) (hdt : isclose dt 0 = false) (fuel : Nat)
    (ps : List (Particle V)) (h0 : ∀ p ∈ ps, p.dt ≠ 0) (w w' : W) (back back' : Option (Particle V))
    (rs : List (Particle V × List (Call V))) (h : KernelLoop.pass K E dt fuel w back ps = some (w', back', rs)) :
    pass K E dt fuel w none ps = some (w', none, rs) :=
  pass_same K hK E dt hdt fuel ps w w' back back' rs h0 h

/-- C46, the other way: if the JIT loop ends, so does the Scipy loop, with the same result. -/
theorem C46_same_steps_back_partial (K : Kern W V) (hK : Steady K) (E dt : ℚ) (hdt : isclose dt 0 = false) (fuel : Nat)
    (ps : List (Particle V)) (h0 : ∀ p ∈ ps, p.dt ≠ 0) (w w' : W) (back : Option (Particle V)) (g : Option ℚ)
    (rs : List (Particle V × List (Call V))) (h : pass K E dt fuel w none ps = some (w', g, rs)) :
    ∃ back', KernelLoop.pass K E dt (fuel + 1) w back ps = some (w', back', rs) :=
  pass_same_conv K hK E dt hdt fuel ps w w' back g rs h0 h

/-- Kernels that leave time and dt alone are steady, whatever they return. -/
theorem steady_of_leaves (K : Kern W V) (h : LeavesDtAlone K) : Steady K :=
  fun w p => ⟨.inl (h w p).2.1, fun hn => absurd (h w p).2.2 hn⟩

/-- An adaptive kernel, like AdvectionRK45: a step longer than 1 is halved and repeated; otherwise it is done, and the
next step is to be 1/2. -/
def adaptive : Kern Unit Nat := fun _ p =>
  ((), if 1 < |p.dt| then ⟨{ p with dt := p.dt / 2 }, none, .ret (some .repeat)⟩
    else ⟨{ p with vars := p.vars + 1 }, some (1 / 2), .ret none⟩)

example : Steady adaptive := by
  intro w p
  unfold adaptive
  by_cases h : 1 < |p.dt|
  · simp only [if_pos h]
    refine ⟨.inr ?_, fun hn => absurd rfl hn⟩
    unfold isclose
    rw [decide_eq_false_iff_not, not_le]
    have : p.dt / 2 - p.dt = -(p.dt / 2) := by ring
    rw [this, abs_neg, abs_div, abs_two]
    linarith
  · simp only [if_neg h]
    refine ⟨.inl trivial, fun _ => .inl ?_⟩
    simp [KernelLoop.resolve, isclose_self]

example : (KernelLoop.pass adaptive 3 2 20 () none [⟨0, 2, .evaluate, 0⟩, ⟨1, 1, .evaluate, 5⟩]).map (fun r => r.2.2.map (·.1)) =
    some [⟨0, 1, .repeat, 0⟩, ⟨3, 1/2, .success, 8⟩] := by decide +kernel

example : (pass adaptive 3 2 20 () none [⟨0, 2, .evaluate, 0⟩, ⟨1, 1, .evaluate, 5⟩]).map (fun r => r.2.2.map (·.1)) =
    some [⟨0, 1, .repeat, 0⟩, ⟨3, 1/2, .success, 8⟩] := by decide +kernel

/-! ### Where the loops differ -/

/-- A kernel that lengthens dt a little. -/
def stretch : Kern Unit Unit := fun _ p => ((), ⟨{ p with dt := p.dt * (1000001 / 1000000) }, none, .ret none⟩)

/-- A change of dt within the tolerance of `np.isclose` counts as done in Scipy mode and as Repeat in JIT mode. -/
theorem C46_tolerance_fails :
    (KernelLoop.pass stretch 1 1 9 () none [⟨0, 1, .evaluate, ()⟩]).map (fun r => r.2.2.map (·.1)) =
      some [⟨1000001 / 1000000, 1000001 / 1000000, .success, ()⟩] ∧
    (pass stretch 1 1 9 () none [⟨0, 1, .evaluate, ()⟩]).map (fun r => r.2.2.map (·.1)) =
      some [⟨0, 1000001 / 1000000, .repeat, ()⟩] := by decide +kernel

/-- A kernel that counts its calls. -/
def count : Kern Unit Nat := fun _ p => ((), ⟨{ p with vars := p.vars + 1 }, none, .ret none⟩)

/-- A particle whose own dt is 0 is skipped in Scipy mode and executed in JIT mode. -/
theorem C46_zero_dt_fails :
    (KernelLoop.pass count 1 1 9 () none [⟨0, 0, .evaluate, 0⟩]).map (fun r => r.2.2.map (·.1)) = some [⟨0, 0, .evaluate, 0⟩] ∧
    (pass count 1 1 9 () none [⟨0, 0, .evaluate, 0⟩]).map (fun r => r.2.2.map (·.1)) = some [⟨0, 0, .success, 1⟩] := by
  decide +kernel

/-- A kernel that asks for another next step and then leaves the domain if `vars = 1`. -/
def leaver : Kern Unit Nat := fun _ p =>
  ((), if p.vars = 1 then ⟨p, some 5, .exc .outOfBound⟩ else ⟨p, none, .ret none⟩)

/-- C46 and C03. A step that a failing particle asked for is given to the next particle in JIT mode. -/
theorem C46_leak_fails :
    (KernelLoop.pass leaver 1 1 9 () none [⟨0, 1, .evaluate, 1⟩, ⟨0, 1, .evaluate, 0⟩]).map (fun r => r.2.2.map (·.1)) =
      some [⟨0, 1, .errorOutOfBounds, 1⟩, ⟨1, 1, .success, 0⟩] ∧
    (pass leaver 1 1 9 () none [⟨0, 1, .evaluate, 1⟩, ⟨0, 1, .evaluate, 0⟩]).map (fun r => r.2.2.map (·.1)) =
      some [⟨0, 1, .errorOutOfBounds, 1⟩, ⟨1, 5, .success, 0⟩] := by decide +kernel

end Parcels.JitLoop
