import Verif.Spec.DriftRun
import Verif.Proofs.GridRun3
import Verif.Props.PathRun

namespace Parcels.DriftRun

open GridRun
open Search Interp
open KernelLoop (Exc)

variable {V : Type}

theorem mean_refl {a b x : ℚ} (h : a ≤ b) : Mean a b 0 x x := ⟨a, le_rfl, h, by ring⟩

theorem mean_trans {a b T U x y z s : ℚ} (h1 : 0 ≤ T * s) (h2 : 0 < U * s) (hx : Mean a b T x y) (hy : Mean a b U y z) : Mean a b (T + U) x z := by
  obtain ⟨c, c1, c2, rfl⟩ := hx
  obtain ⟨d, d1, d2, rfl⟩ := hy
  have hs : 0 < (T + U) * s := by rw [add_mul]; linarith
  have hne : T + U ≠ 0 := by intro h; rw [h] at hs; norm_num at hs
  have hs0 : s ≠ 0 := by rintro rfl; norm_num at h2
  have e : (c * T + d * U) / (T + U) = (c * (T * s) + d * (U * s)) / ((T + U) * s) := by
    rw [div_eq_div_iff hne (ne_of_gt hs)]; ring
  refine ⟨(c * T + d * U) / (T + U), ?_, ?_, ?_⟩
  · rw [e, le_div_iff₀ hs]
    nlinarith
  · rw [e, div_le_iff₀ hs]
    nlinarith
  · rw [div_mul_cancel₀ _ hne]; ring

theorem lerp_within {a b r x y : ℚ} (h0 : 0 ≤ r) (h1 : r ≤ 1) (hx : a ≤ x ∧ x ≤ b) (hy : a ≤ y ∧ y ≤ b) : a ≤ lerp r x y ∧ lerp r x y ≤ b := by
  unfold lerp
  constructor <;> nlinarith [hx.1, hx.2, hy.1, hy.2]

theorem locates_lt {l : List ℚ} {x r : ℚ} {n : ℕ} (h : Locates l x n r) : n + 1 < l.length ∧ 0 ≤ r ∧ r ≤ 1 := by
  obtain ⟨m, a, b, e, -, h2, h3, h4, -⟩ := h
  have : n = m := by exact_mod_cast e
  subst this
  exact ⟨(List.getElem?_eq_some_iff.mp h2).1, h3, h4⟩

/-- Sampled values lie within the bounds of the data. -/
theorem space_within {f : Fld} {a b : ℚ} (h : Within f a b) {i : ℕ} (hi : i < f.time.length) {z y x w : ℚ} (hw : SpaceValue f.grid (f.data i) z y x w) : a ≤ w ∧ w ≤ b := by
  obtain ⟨n, m, r, s, hn, hm, h1, h2⟩ := hw
  obtain ⟨n1, n2, n3⟩ := locates_lt hn
  obtain ⟨m1, m2, m3⟩ := locates_lt hm
  have bil : ∀ k, k < max f.grid.depth.length 1 → a ≤ bilinearAt (f.data i) k m n s r ∧ bilinearAt (f.data i) k m n s r ≤ b := fun k hk =>
    lerp_within m2 m3 (lerp_within n2 n3 (h _ _ _ _ hi hk (by omega) (by omega)) (h _ _ _ _ hi hk (by omega) (by omega)))
      (lerp_within n2 n3 (h _ _ _ _ hi hk (by omega) (by omega)) (h _ _ _ _ hi hk (by omega) (by omega)))
  by_cases c : f.grid.depth.length ≤ 1
  · rw [h1 c]
    exact bil 0 (by omega)
  · obtain ⟨k, q, hk, e⟩ := h2 (by omega)
    obtain ⟨k1, k2, k3⟩ := locates_lt hk
    rw [e]
    exact lerp_within k2 k3 (bil k (by omega)) (bil (k + 1) (by omega))

theorem value_within {f : Fld} (hf : Sound f) {a b : ℚ} (h : Within f a b) {t z y x w : ℚ} (hw : FieldValue f t z y x w) : a ≤ w ∧ w ≤ b := by
  obtain ⟨v, hv, ht⟩ := hw
  have key : ∀ i, i < f.time.length → a ≤ v i ∧ v i ≤ b := fun i hi => space_within h hi (hv i hi)
  rcases ht with ⟨i, hi, rfl⟩ | ⟨i, r, hr, rfl⟩ | ⟨-, -, rfl⟩ | ⟨-, -, rfl⟩
  · exact key i (List.getElem?_eq_some_iff.mp hi).1
  · obtain ⟨r1, r2, r3⟩ := locates_lt hr
    exact lerp_within r2 r3 (key i (by omega)) (key (i + 1) r1)
  · exact key 0 hf.timeLen
  · exact key _ (by have := hf.timeLen; omega)

/-- Whatever values in the bounds are sampled, the program ends with variables of which `Q` holds. -/
def Leads (lo hi : Nat → ℚ) (Q : V → Prop) : Prog V → Prop
  | .ret v => Q v
  | .fail _ => True
  | .get f _ _ _ _ k => ∀ w, lo f ≤ w → w ≤ hi f → Leads lo hi Q (k w)

theorem leads_scipy {fs : Nat → Fld} (hf : ∀ i, Sound (fs i)) {lo hi : Nat → ℚ} (hb : ∀ i, Within (fs i) (lo i) (hi i)) {Q : V → Prop} :
    ∀ (p : Prog V) (v : V), Leads lo hi Q p → scipy fs p = .ok v → Q v := by
  intro p
  induction p with
  | ret v => intro v' h e; obtain rfl := Except.ok.inj e; exact h
  | fail e => intro v' _ h; cases h
  | get f t z y x k ih =>
    intro v' h e
    rw [scipy] at e
    split at e
    · cases e
    · rename_i w hw
      have := value_within (hf f) (hb f) ((eval_iff (hf f) t z y x w).mp hw)
      exact ih w v' (h w this.1 this.2) e

theorem leads_jit {fs : Nat → Fld} (hf : ∀ i, Sound (fs i)) (hg : Grids fs) {lo hi : Nat → ℚ} (hb : ∀ i, Within (fs i) (lo i) (hi i)) {Q : V → Prop} :
    ∀ (p : Prog V) (hs : Nat → Hint) (r : V × (Nat → Hint)), Hints fs hs → Leads lo hi Q p → jit fs p hs = .ok r → Q r.1 ∧ Hints fs r.2 := by
  intro p
  induction p with
  | ret v => intro hs r hh h e; obtain rfl := Except.ok.inj e; exact ⟨h, hh⟩
  | fail e => intro hs r _ _ h; cases h
  | get f t z y x k ih =>
    intro hs r hh h e
    rw [jit] at e
    split at e
    · cases e
    · rename_i w h' hw
      have hk := hint_ok hh f
      have e2 := cEval_shape hw
      rw [e2] at hw
      have := value_within (hf f) (hb f) ((cEval_iff (hf f) hk t z y x w).mp hw)
      refine ih w _ r (hints_update hg hh f ?_) (h w this.1 this.2) e
      rw [e2]
      exact remember_ok (hf f) t z y x hk

theorem average {a b u1 u2 u3 u4 : ℚ} (h1 : a ≤ u1) (h2 : a ≤ u2) (h3 : a ≤ u3) (h4 : a ≤ u4) (k1 : u1 ≤ b) (k2 : u2 ≤ b) (k3 : u3 ≤ b) (k4 : u4 ≤ b) (d x : ℚ) :
    Mean a b d x (x + (u1 + 2 * u2 + 2 * u3 + u4) / 6 * d) := ⟨(u1 + 2 * u2 + 2 * u3 + u4) / 6, by linarith, by linarith, rfl⟩

/-- One step. -/
theorem advects_leads {lo hi : Nat → ℚ} {b : Body (ℚ × ℚ × ℚ)} {zl zh : ℚ} (h : Advects lo hi b zl zh) (t d : ℚ) (v : ℚ × ℚ × ℚ) :
    Leads lo hi (fun v' => Mean (lo 0) (hi 0) d v.1 v'.1 ∧ Mean (lo 1) (hi 1) d v.2.1 v'.2.1 ∧ Mean zl zh d v.2.2 v'.2.2) (b t d v) := by
  have still : Mean 0 0 d v.2.2 v.2.2 := ⟨0, le_rfl, le_rfl, by ring⟩
  rcases h with ⟨rfl | rfl, rfl, rfl⟩ | ⟨rfl, rfl, rfl⟩
  · unfold ee uv
    intro u u1 u2 w w1 w2
    exact ⟨⟨u, u1, u2, rfl⟩, ⟨w, w1, w2, rfl⟩, still⟩
  · unfold rk4 uv
    intro u1 a1 b1 v1 c1 d1 u2 a2 b2 v2 c2 d2 u3 a3 b3 v3 c3 d3 u4 a4 b4 v4 c4 d4
    exact ⟨average a1 a2 a3 a4 b1 b2 b3 b4 d _, average c1 c2 c3 c4 d1 d2 d3 d4 d _, still⟩
  · unfold rk4_3D uvw
    intro u1 a1 b1 v1 c1 d1 w1 e1 f1 u2 a2 b2 v2 c2 d2 w2 e2 f2 u3 a3 b3 v3 c3 d3 w3 e3 f3 u4 a4 b4 v4 c4 d4 w4 e4 f4
    exact ⟨average a1 a2 a3 a4 b1 b2 b3 b4 d _, average c1 c2 c3 c4 d1 d2 d3 d4 d _, average e1 e2 e3 e4 f1 f2 f3 f4 d _⟩

theorem drift_refl {ul uh vl vh zl zh t : ℚ} {p : ℚ × ℚ × ℚ} (hu : ul ≤ uh) (hv : vl ≤ vh) (hz : zl ≤ zh) : Drift ul uh vl vh zl zh t p t p := by
  unfold Drift
  rw [sub_self]
  exact ⟨mean_refl hu, mean_refl hv, mean_refl hz⟩

theorem drift_step {ul uh vl vh zl zh t t1 d s : ℚ} {p p1 p2 : ℚ × ℚ × ℚ} (h1 : 0 ≤ (t1 - t) * s) (h2 : 0 < d * s) (h : Drift ul uh vl vh zl zh t p t1 p1)
    (hd : Mean ul uh d p1.1 p2.1 ∧ Mean vl vh d p1.2.1 p2.2.1 ∧ Mean zl zh d p1.2.2 p2.2.2) : Drift ul uh vl vh zl zh t p (t1 + d) p2 := by
  have e : t1 + d - t = t1 - t + d := by ring
  unfold Drift
  rw [e]
  exact ⟨mean_trans h1 h2 h.1 hd.1, mean_trans h1 h2 h.2.1 hd.2.1, mean_trans h1 h2 h.2.2 hd.2.2⟩

theorem within_le {f : Fld} (hf : Sound f) {a b : ℚ} (h : Within f a b) : a ≤ b := by
  have := h 0 0 0 0 (by have := hf.timeLen; omega) (by omega) (by have := hf.latLen; omega) (by have := hf.lonLen; omega)
  linarith

end Parcels.DriftRun
