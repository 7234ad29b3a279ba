import Verif.Spec.CGridSteps
import Verif.Proofs.CGridRun
import Verif.Proofs.PathRun2

/-!
Lemmas for Props/CGridSteps.
-/

namespace Parcels.CGridRun

open Search Interp
open CGrid (Metric)
open Curvilinear (IsSqrt)
open KernelLoop (Exc)
open GridRun (Fld Hint Sound TimeValue HintOk)
open RepairRun (Act)
open PathRun (Step)

variable {V : Type}

section Steps

variable {m : Metric ℚ} (hs : IsSqrt m.sqrt) (mit : Bool) {per : Bool} {f : Fld} (hf : Sound f) {dV : Nat → Arr} (hp : per = true → Closed f dV)

include hs hf hp

theorem scipy_follows (p : Prog V) : (∀ w, scipy m mit per f dV p = .ok w → Follows mit per f dV p w) ∧ (∀ e, scipy m mit per f dV p = .error e → Leaves mit per f dV p) := by
  induction p with
  | ret v => exact ⟨fun w h => by cases h; exact .ret v, fun e h => by cases h⟩
  | fail e => exact ⟨fun w h => by (cases h), fun _ _ => .fail e⟩
  | get t z y x k ih =>
    by_cases c : Covers per f t z y x
    · obtain ⟨u, v, he, hg⟩ := (gives hs mit hf dV hp c).1
      constructor
      · intro w h
        simp only [scipy, he] at h
        exact .get hg ((ih u v).1 w h)
      · intro e h
        simp only [scipy, he] at h
        exact .get hg ((ih u v).2 e h)
    · obtain ⟨e', he⟩ := (raises m mit hf dV c).1
      exact ⟨fun w h => (by simp only [scipy, he] at h; cases h), fun _ _ => .out c⟩

omit hs in
theorem remembered_next {h : Hint} (hh : Remembered f h) (t z y x : ℚ) : Remembered f (PeriodRun.remember per f t z y x h) :=
  PeriodRun.remember_ok hf (fun c => ⟨(hp c).two, (hp c).sameU⟩) t z y x (show HintOk f h from hh)

theorem jit_follows (hn : NarrowCells f) (p : Prog V) : ∀ h, Remembered f h →
    (∀ w, jit m mit per f dV p h = .ok w → Follows mit per f dV p w.1 ∧ Remembered f w.2) ∧ (∀ e, jit m mit per f dV p h = .error e → Leaves mit per f dV p) := by
  induction p with
  | ret v => exact fun h hh => ⟨fun w h => by cases h; exact ⟨.ret v, hh⟩, fun e h => by cases h⟩
  | fail e => exact fun h hh => ⟨fun w h => by (cases h), fun _ _ => .fail e⟩
  | get t z y x k ih =>
    intro hi hh
    by_cases c : Covers per f t z y x
    · obtain ⟨u, v, he, hg⟩ := (gives hs mit hf dV hp c).2 hn hi hh
      obtain ⟨i1, i2⟩ := ih u v _ (remembered_next hf hp hh t z y x)
      constructor
      · intro w h
        simp only [jit, he] at h
        exact ⟨.get hg (i1 w h).1, (i1 w h).2⟩
      · intro e h
        simp only [jit, he] at h
        exact .get hg (i2 e h)
    · obtain ⟨e', he⟩ := (raises m mit hf dV c).2 hi hh
      exact ⟨fun w h => (by simp only [jit, he] at h; cases h), fun _ _ => .out c⟩

theorem scipy_path (b : Body V) (act : Act V) {dt t : ℚ} {v : V} : ∀ {t' v'}, PathRun.Path (scipyScheme m mit per f dV b) act dt t v t' v' → FlowPath mit per f dV b act dt t v t' v' := by
  intro t' v' hq
  induction hq with
  | here => exact .here
  | step _ h1 h2 ih => exact .step ih h1 ((scipy_follows hs mit hf hp _).1 _ h2)
  | repair _ h1 h2 h3 ih => exact .repair ih h1 ((scipy_follows hs mit hf hp _).2 _ h2) h3

theorem jit_path (hn : NarrowCells f) (b : Body V) (act : Act V) {dt t : ℚ} {v : V × Hint} (hv : Remembered f v.2) :
    ∀ {t' v'}, PathRun.Path (jitScheme m mit per f dV b) (keeping act) dt t v t' v' → FlowPath mit per f dV b act dt t v.1 t' v'.1 ∧ Remembered f v'.2 := by
  intro t' v' hq
  induction hq with
  | here => exact ⟨.here, hv⟩
  | step _ h1 h2 ih =>
    obtain ⟨a, c⟩ := (jit_follows hs mit hf hp hn _ _ ih.2).1 _ h2
    exact ⟨.step ih.1 h1 a, c⟩
  | @repair t1 v1 h v2 e _ h1 h2 h3 ih =>
    have a := (jit_follows hs mit hf hp hn _ _ ih.2).2 _ h2
    unfold keeping at h3
    obtain ⟨v3, h4, rfl⟩ := Option.map_eq_some_iff.mp h3
    exact ⟨.repair ih.1 h1 a h4, ih.2⟩

end Steps

theorem follows_unique {mit per : Bool} {f : Fld} (hf : Sound f) {dV : Nat → Arr} (hp : per = true → Closed f dV) {p : Prog V} (ho : OffNodes mit per f dV p) :
    ∀ {w w'}, Follows mit per f dV p w → Follows mit per f dV p w' → w = w' := by
  induction ho with
  | ret v => intro w w' h h'; cases h; cases h'; rfl
  | fail e => intro w w' h; cases h
  | get hx hy hz _ ih =>
    intro w w' h h'
    cases h with
    | get g h =>
      cases h' with
      | get g' h' =>
        obtain rfl := gives_u hf hp g g' hy hz
        obtain rfl := gives_v hf hp g g' hx hz
        exact ih _ _ g h h'

/-- The value in time is between two of the given ones. -/
theorem in_time_mix {per : Bool} {f : Fld} {t w : ℚ} {v : Nat → ℚ} (h : InTime per f t v w) : ∃ (i j : Nat) (r : ℚ), 0 ≤ r ∧ r ≤ 1 ∧ w = lerp r (v i) (v j) := by
  have one : ∀ i, w = v i → ∃ (i j : Nat) (r : ℚ), 0 ≤ r ∧ r ≤ 1 ∧ w = lerp r (v i) (v j) := fun i e => ⟨i, i, 0, le_refl _, by norm_num, by rw [e]; unfold lerp; ring⟩
  cases per with
  | true =>
    obtain ⟨_, i, r, ⟨_, _, _, _, _, _, r0, r1, _⟩, e⟩ := h
    exact ⟨i, i + 1, r, r0, r1, e⟩
  | false =>
    rcases h with ⟨i, -, e⟩ | ⟨i, r, ⟨_, _, _, _, _, _, r0, r1, _⟩, e⟩ | ⟨-, -, e⟩ | ⟨-, -, e⟩
    · exact one _ e
    · exact ⟨i, i + 1, r, r0, r1, e⟩
    · exact one _ e
    · exact one _ e

/-- A set of numbers that contains everything between two of its members. -/
def Convex (P : ℚ → Prop) : Prop := ∀ a b r : ℚ, 0 ≤ r → r ≤ 1 → P a → P b → P (lerp r a b)

theorem gives_mix {mit per : Bool} {f : Fld} {dV : Nat → Arr} {P Q : ℚ → Prop} (hP : Convex P) (hQ : Convex Q) (h : OnFaces mit f dV P Q) {t z y x u v : ℚ}
    (hg : Gives mit per f dV t z y x u v) : P u ∧ Q v := by
  obtain ⟨k, m, n, s, r, c, hu, hv⟩ := hg
  have lx := locates_nat c.lon
  have ly := locates_nat c.lat
  obtain ⟨n', en, ln⟩ := lx
  obtain ⟨m', em, lm⟩ := ly
  obtain rfl : n = n' := by omega
  obtain rfl : m = m' := by omega
  obtain ⟨_, _, _, _, _, _, r0, r1, _⟩ := c.lon
  obtain ⟨_, _, _, _, _, _, s0, s1, _⟩ := c.lat
  obtain ⟨i, j, q, q0, q1, rfl⟩ := in_time_mix hu
  obtain ⟨i', j', q', q0', q1', rfl⟩ := in_time_mix hv
  constructor
  · exact hP _ _ _ q0 q1 (hP _ _ _ r0 r1 (h.1 _ _ _ _ lm (by omega)) (h.1 _ _ _ _ lm ln)) (hP _ _ _ r0 r1 (h.1 _ _ _ _ lm (by omega)) (h.1 _ _ _ _ lm ln))
  · exact hQ _ _ _ q0' q1' (hQ _ _ _ s0 s1 (h.2 _ _ _ _ (by omega) ln) (h.2 _ _ _ _ lm ln)) (hQ _ _ _ s0 s1 (h.2 _ _ _ _ (by omega) ln) (h.2 _ _ _ _ lm ln))

theorem convex_abs (B : ℚ) : Convex fun a => |a| ≤ B := by
  intro a b r r0 r1 ha hb
  rw [abs_le] at ha hb ⊢
  unfold lerp
  constructor <;> nlinarith [ha.1, ha.2, hb.1, hb.2]

theorem convex_eq (c : ℚ) : Convex fun a => a = c := by
  intro a b r _ _ ha hb
  subst ha
  subst hb
  unfold lerp
  ring

/-- A step of RK4 or EE moves the particle by the step times a velocity between those on faces. -/
theorem step_mean {mit per : Bool} {f : Fld} {dV : Nat → Arr} {P Q : ℚ → Prop} (hP : Convex P) (hQ : Convex Q) (h : OnFaces mit f dV P Q) {b : Body (ℚ × ℚ × ℚ)} (hb : b = rk4 ∨ b = ee)
    {t d : ℚ} {p p' : ℚ × ℚ × ℚ} (hw : Follows mit per f dV (b t d p) p') : ∃ u v, P u ∧ Q v ∧ p' = (p.1 + u * d, p.2.1 + v * d, p.2.2) := by
  rcases hb with rfl | rfl
  · unfold rk4 at hw
    cases hw with
    | get g1 hw =>
      cases hw with
      | get g2 hw =>
        cases hw with
        | get g3 hw =>
          cases hw with
          | get g4 hw =>
            cases hw
            obtain ⟨a1, b1⟩ := gives_mix hP hQ h g1
            obtain ⟨a2, b2⟩ := gives_mix hP hQ h g2
            obtain ⟨a3, b3⟩ := gives_mix hP hQ h g3
            obtain ⟨a4, b4⟩ := gives_mix hP hQ h g4
            have key : ∀ {R : ℚ → Prop}, Convex R → ∀ {w1 w2 w3 w4 : ℚ}, R w1 → R w2 → R w3 → R w4 → R ((w1 + 2 * w2 + 2 * w3 + w4) / 6) := by
              intro R hR w1 w2 w3 w4 r1 r2 r3 r4
              have e := hR _ _ (2/3) (by norm_num) (by norm_num) (hR _ _ (1/2) (by norm_num) (by norm_num) r1 r4) (hR _ _ (1/2) (by norm_num) (by norm_num) r2 r3)
              have e' : lerp (2/3) (lerp (1/2) w1 w4) (lerp (1/2) w2 w3) = (w1 + 2 * w2 + 2 * w3 + w4) / 6 := by unfold lerp; ring
              rwa [e'] at e
            exact ⟨_, _, key hP a1 a2 a3 a4, key hQ b1 b2 b3 b4, rfl⟩
  · unfold ee at hw
    cases hw with
    | get g1 hw =>
      cases hw
      obtain ⟨a1, b1⟩ := gives_mix hP hQ h g1
      exact ⟨_, _, a1, b1, rfl⟩

theorem sgn_abs {dt h : ℚ} (hh : 0 < h * sgn dt) : |h| = h * sgn dt := by
  have c : sgn dt = 1 ∨ sgn dt = -1 ∨ sgn dt = 0 := by
    unfold sgn
    split_ifs <;> simp
  rcases c with c | c | c <;> rw [c] at hh ⊢
  · rw [mul_one] at hh ⊢
    exact abs_of_pos hh
  · rw [mul_neg_one] at hh ⊢
    exact abs_of_neg (by linarith)
  · rw [mul_zero] at hh
    exact absurd hh (lt_irrefl _)

end Parcels.CGridRun
