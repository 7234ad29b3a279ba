import Verif.Spec.TurnRun
import Verif.Proofs.UnitRun
import Verif.Proofs.SphereRun6

/-!
Lemmas for C117.
-/

namespace Parcels.TurnRun

open Search Interp
open WholeRun (Scheme solution trajectory record core outputTimes)
open Recovery (TP)
open GridRun (Fld Prog Body Hint TimeValue refScheme)
open SphereRun (SFld Sound SpaceValue FieldValue Places Regional Cyclic Hints Grids Interpolates)
open UnitRun (Units Axis change moved read Covariant Alike)

variable {V : Type}

theorem to_add (u : Units) (hu : Turn u) (x d : ℚ) : u.x.to (x + d) = u.x.to x + d := by
  unfold Axis.to
  rw [hu.lon]
  ring

theorem to_lat (u : Units) (hu : Turn u) (y : ℚ) : u.y.to y = y := by
  unfold Axis.to
  rw [hu.lat.1, hu.lat.2]
  ring

theorem head_to (a : Axis) : ∀ l : List ℚ, l ≠ [] → (l.map a.to).headD 0 = a.to (l.headD 0)
  | [], h => absurd rfl h
  | _ :: _, _ => rfl

theorem last_to (a : Axis) (l : List ℚ) (h : l ≠ []) : (l.map a.to).getLastD 0 = a.to (l.getLastD 0) := by
  obtain ⟨l, b, rfl⟩ := l.eq_nil_or_concat.resolve_left h
  simp

theorem eastward_ne {l U : List ℚ} (h : EastwardAxis l U) : U ≠ [] := by
  obtain ⟨A, B, rfl, rfl, -, h, -⟩ := h
  simp [h]

theorem mod360_map (u : Units) (hu : Turn u) (l : List ℚ) (x : ℚ) (i : ℤ) (r : ℚ) : LocatesMod360 (l.map u.x.to) (u.x.to x) i r ↔ LocatesMod360 l x i r := by
  have key : ∀ a x : ℚ, u.x.to a - u.x.to x = a - x := by
    intro a x
    unfold Axis.to
    rw [hu.lon]
    ring
  constructor
  · rintro ⟨n, a, b, w, p, q, hi, ha, hb, hw, h1, h2, h3, h4, hx⟩
    rw [List.getElem?_map, Option.map_eq_some_iff] at ha hb
    obtain ⟨a, ha, rfl⟩ := ha
    obtain ⟨b, hb, rfl⟩ := hb
    refine ⟨n, a, b, w, p, q, hi, ha, hb, by rw [hw, key], h1, h2, h3, h4, ?_⟩
    have := key x a
    linarith
  · rintro ⟨n, a, b, w, p, q, hi, ha, hb, hw, h1, h2, h3, h4, hx⟩
    refine ⟨n, u.x.to a, u.x.to b, w, p, q, hi, by rw [List.getElem?_map, ha]; rfl, by rw [List.getElem?_map, hb]; rfl, by rw [hw, key], h1, h2, h3, h4, ?_⟩
    have := key x a
    linarith

theorem eastward_map (u : Units) (hu : Turn u) {l U : List ℚ} (h : EastwardAxis l U) : EastwardAxis (l.map u.x.to) (U.map u.x.to) := by
  obtain ⟨A, B, rfl, rfl, h1, h2, h3, h4, h5⟩ := h
  refine ⟨A.map u.x.to, B.map u.x.to, List.map_append, ?_, by simpa using h1, by simpa using h2, ?_, UnitRun.increasing_map u.x h4, ?_⟩
  · rw [List.map_append, List.map_map, List.map_map]
    congr 1
    refine List.map_congr_left fun x _ => ?_
    exact to_add u hu x 360
  · intro b hb a ha
    rw [List.head?_map, Option.mem_map] at hb
    obtain ⟨b, hb, rfl⟩ := hb
    obtain ⟨a, ha', rfl⟩ := List.mem_map.mp ha
    exact (UnitRun.to_lt u.x b a).mpr (h3 b hb a ha')
  · intro n a b ha hb
    rw [List.getElem?_map, Option.map_eq_some_iff] at ha hb
    obtain ⟨a, ha, rfl⟩ := ha
    obtain ⟨b, hb, rfl⟩ := hb
    have := h5 n a b ha hb
    unfold Axis.to
    rw [hu.lon]
    linarith

theorem length_to (u : Units) (hu : Turn u) {U : List ℚ} (h : U ≠ []) : (U.map u.x.to).getLastD 0 - (U.map u.x.to).headD 0 = U.getLastD 0 - U.headD 0 := by
  rw [head_to _ _ h, last_to _ _ h]
  unfold Axis.to
  rw [hu.lon]
  ring

theorem cyclic_change (u : Units) (hu : Turn u) (c : ℚ) (f : Fld) (i : Nat) {U : List ℚ} (hU : U ≠ []) (h : Cyclic U (f.data i)) : Cyclic (U.map u.x.to) ((change u c f).data i) := by
  unfold Cyclic
  rw [length_to u hu hU]
  refine h.imp_right ?_
  rintro ⟨n, h1, h2, h3⟩
  refine ⟨n, h1, by simpa using h2, fun j a b ha hb => ?_⟩
  rw [List.getElem?_map, Option.map_eq_some_iff] at ha hb
  obtain ⟨a, ha, rfl⟩ := ha
  obtain ⟨b, hb, rfl⟩ := hb
  obtain ⟨e, d⟩ := h3 j a b ha hb
  refine ⟨by rw [e, to_add u hu], fun k j' => ?_⟩
  show c * (f.data i).v k j' j = c * (f.data i).v k j' (j + n)
  rw [d]

theorem sound_turn (u : Units) (hu : Turn u) (c : ℚ) {f : Fld} {U : List ℚ} (h : Sound f U) : Sound (change u c f) (U.map u.x.to) where
  sphere := ⟨h.sphere.sph, eastward_map u hu h.sphere.lon, UnitRun.increasing_map u.y h.sphere.latInc, by
    show 2 ≤ (f.grid.lat.map u.y.to).length; rw [List.length_map]; exact h.sphere.latLen⟩
  narrow := by
    intro n a b ha hb
    rw [List.getElem?_map, Option.map_eq_some_iff] at ha hb
    obtain ⟨a, ha, rfl⟩ := ha
    obtain ⟨b, hb, rfl⟩ := hb
    have := h.narrow n a b ha hb
    unfold Axis.to
    rw [hu.lon]
    linarith
  number := by show (f.grid.lon.map u.x.to).length ≤ 5000; rw [List.length_map]; exact h.number
  span := by
    rw [length_to u hu (eastward_ne h.sphere.lon)]
    refine h.span.imp_right fun d => ⟨?_, d.2⟩
    show f.grid.lon.map u.x.to = _
    rw [d.1]
  mom5 := h.mom5
  depth := by
    refine h.depth.imp (fun c => ?_) (UnitRun.increasing_map u.z)
    show (f.grid.depth.map u.z.to).length ≤ 1
    rw [List.length_map]
    exact c
  timeInc := UnitRun.increasing_map u.t h.timeInc
  timeLen := by show 1 ≤ (f.time.map u.t.to).length; rw [List.length_map]; exact h.timeLen
  fits := by
    intro i
    obtain ⟨a, b, d⟩ := h.fits i
    refine ⟨?_, ?_, ?_⟩
    · show (f.data i).nx = (f.grid.lon.map u.x.to).length
      rw [List.length_map, a]
    · show (f.data i).ny = (f.grid.lat.map u.y.to).length
      rw [List.length_map, b]
    · show (f.data i).nz = (f.grid.depth.map u.z.to).length
      rw [List.length_map, d]
  cyclic := fun i => cyclic_change u hu c f i (eastward_ne h.sphere.lon) (h.cyclic i)

theorem regional_turn (u : Units) (hu : Turn u) (c : ℚ) {f : Fld} {U : List ℚ} (hU : U ≠ []) (h : Regional f.grid U) : Regional (change u c f).grid (U.map u.x.to) :=
  ⟨h.1, by rw [length_to u hu hU]; exact h.2⟩

theorem inRange_to (a : Axis) (l : List ℚ) (x : ℚ) : InRange (l.map a.to) (a.to x) ↔ InRange l x := by
  constructor
  · rintro ⟨p, q, hp, hq, h1, h2⟩
    obtain ⟨p, hp', rfl⟩ := List.mem_map.mp hp
    obtain ⟨q, hq', rfl⟩ := List.mem_map.mp hq
    exact ⟨p, q, hp', hq', (UnitRun.to_le a _ _).mp h1, (UnitRun.to_le a _ _).mp h2⟩
  · rintro ⟨p, q, hp, hq, h1, h2⟩
    exact ⟨_, _, List.mem_map_of_mem hp, List.mem_map_of_mem hq, (UnitRun.to_le a _ _).mpr h1, (UnitRun.to_le a _ _).mpr h2⟩

theorem places_turn (u : Units) (hu : Turn u) (c : ℚ) (f : Fld) {U : List ℚ} (hU : U ≠ []) (x : ℚ) : Places (change u c f).grid (U.map u.x.to) (u.x.to x) ↔ Places f.grid U x := by
  have on : ∀ s : ℤ, OnAxis (U.map u.x.to) (u.x.to x) s ↔ OnAxis U x s := by
    intro s
    unfold OnAxis
    rw [head_to _ _ hU, last_to _ _ hU, ← to_add u hu, UnitRun.to_le, UnitRun.to_le]
  unfold Places Accepted
  rw [on, on, length_to u hu hU, head_to _ _ hU, UnitRun.to_lt, show (change u c f).grid.lon = f.grid.lon.map u.x.to from rfl, inRange_to]
  rfl

theorem space_turn (u : Units) (hu : Turn u) (c : ℚ) (hc : c ≠ 0) (f : Fld) (i : Nat) (z y x w : ℚ) :
    SpaceValue (change u c f).grid ((change u c f).data i) (u.z.to z) (u.y.to y) (u.x.to x) (c * w) ↔ SpaceValue f.grid (f.data i) z y x w := by
  have b : ∀ k m n s r, bilinearAt ((change u c f).data i) k m n s r = c * bilinearAt (f.data i) k m n s r := by
    intro k m n s r
    unfold bilinearAt lerp change
    ring
  have t : ∀ k m n q s r, trilinearAt ((change u c f).data i) k m n q s r = c * trilinearAt (f.data i) k m n q s r := by
    intro k m n q s r
    unfold trilinearAt
    rw [b, b]
    unfold lerp
    ring
  unfold SpaceValue
  simp only [b, t]
  show (∃ n m : Nat, ∃ r s : ℚ, LocatesMod360 (f.grid.lon.map u.x.to) (u.x.to x) n r ∧ Locates (f.grid.lat.map u.y.to) (u.y.to y) m s ∧
    ((f.grid.depth.map u.z.to).length ≤ 1 → c * w = c * bilinearAt (f.data i) 0 m n s r) ∧
    (2 ≤ (f.grid.depth.map u.z.to).length → ∃ k : Nat, ∃ q : ℚ, Locates (f.grid.depth.map u.z.to) (u.z.to z) k q ∧ c * w = c * trilinearAt (f.data i) k m n q s r)) ↔ _
  simp only [UnitRun.locates_map, mod360_map u hu, List.length_map, mul_right_inj' hc]

theorem degrees_mul (cosd : ℚ → ℚ) (c : Converters.Unit') (y k v : ℚ) : SphereRun.degrees cosd c y (k * v) = k * SphereRun.degrees cosd c y v := by
  unfold SphereRun.degrees
  cases c <;> dsimp only <;> ring

theorem value_turn (cosd : ℚ → ℚ) (u : Units) (hu : Turn u) (c : ℚ) (hc : c ≠ 0) (f : SFld) (t z y x w : ℚ) :
    FieldValue cosd (turn u c f) (u.t.to t) (u.z.to z) (u.y.to y) (u.x.to x) (c * w) ↔ FieldValue cosd f t z y x w := by
  have len : (turn u c f).fld.time.length = f.fld.time.length := List.length_map _
  constructor
  · rintro ⟨v, a, hv, ht, hw⟩
    have e : v = fun i => c * (v i / c) := by
      funext i
      field_simp
    have ea : a = c * (a / c) := by field_simp
    refine ⟨fun i => v i / c, a / c, fun i hi => ?_, ?_, ?_⟩
    · have := hv i (by rw [len]; exact hi)
      rw [← space_turn u hu c hc, show c * (v i / c) = v i by field_simp]
      exact this
    · rw [e, ea] at ht
      exact (UnitRun.time_change u c _ _ _ _ _ hc).mp ht
    · rw [ea, degrees_mul, to_lat u hu] at hw
      exact mul_left_cancel₀ hc hw
  · rintro ⟨v, a, hv, ht, hw⟩
    refine ⟨fun i => c * v i, c * a, fun i hi => ?_, (UnitRun.time_change u c _ _ _ _ _ hc).mpr ht, ?_⟩
    · rw [len] at hi
      exact (space_turn u hu c hc f.fld i z y x (v i)).mpr (hv i hi)
    · rw [hw, to_lat u hu, ← degrees_mul]
      rfl

theorem grids_turn (u : Units) (c : Nat → ℚ) {fs : Nat → SFld} (h : Grids fs) : Grids fun i => turn u (c i) (fs i) :=
  UnitRun.grids_change u c (fs := fun i => (fs i).fld) h

theorem hints_turn (u : Units) (c : Nat → ℚ) {fs : Nat → SFld} {hs : Nat → Hint} (h : Hints fs hs) : Hints (fun i => turn u (c i) (fs i)) hs :=
  UnitRun.hints_change u c (fs := fun i => (fs i).fld) h

theorem ref_turn {cosd : ℚ → ℚ} {u : Units} (hu : Turn u) {c : Nat → ℚ} (hc : ∀ i, c i ≠ 0) {g : V → V} {fs : Nat → SFld} {U : Nat → List ℚ} (hf : ∀ i, Sound (fs i).fld (U i))
    {val val' : Nat → (t z y x : ℚ) → Option ℚ} (hv : Interpolates cosd fs U val) (hv' : Interpolates cosd (fun i => turn u (c i) (fs i)) (fun i => (U i).map u.x.to) val')
    {b : Body V} (hb : Covariant u c g b) : Alike u g (refScheme val b) (refScheme val' b) := by
  intro t dt v
  have e : ∀ i t z y x, val' i (u.t.to t) (u.z.to z) (u.y.to y) (u.x.to x) = (val i t z y x).map (c i * ·) := by
    intro i t z y x
    ext w
    show val' i _ _ _ _ = some w ↔ (val i t z y x).map (c i * ·) = some w
    rw [hv', Option.map_eq_some_iff]
    have hw : w = c i * (w / c i) := by rw [mul_div_cancel₀]; exact hc i
    have hp := places_turn u hu (c i) (fs i).fld (eastward_ne (hf i).sphere.lon) x
    constructor
    · rintro ⟨h1, h⟩
      rw [hw] at h
      exact ⟨w / c i, (hv i t z y x _).mpr ⟨hp.mp h1, (value_turn cosd u hu (c i) (hc i) _ _ _ _ _ _).mp h⟩, hw.symm⟩
    · rintro ⟨w', h, rfl⟩
      obtain ⟨h1, h⟩ := (hv i t z y x _).mp h
      exact ⟨hp.mpr h1, (value_turn cosd u hu (c i) (hc i) _ _ _ _ _ _).mpr h⟩
  unfold refScheme
  rw [hb, UnitRun.follow_convert hc e]
  cases GridRun.follow val (b t dt v) <;> rfl

end Parcels.TurnRun
