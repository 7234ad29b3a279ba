import Verif.Spec.MixedChunks
import Verif.Proofs.ChunksLoad

/-!
Lemmas for C88: fields of a grid that are split in the same way.
-/

namespace Parcels.MixedChunks

open Parcels.Chunks

variable {α : Type}

/-- Blocks that are loaded according to the grid are missing (only allowed if the C code does not use them) or current. -/
structure FOk (A : List (List Nat)) (d : Bool) (r : Bool) (load : List Nat) (f : Fld α) : Prop where
  ax : f.axes = A
  dk : f.dask = d
  rdy : r = true → f.used = true → f.isSet = true
  len : f.isSet = true → f.chunks.length = nparts A
  unset : f.isSet = false → f.chunks = []
  data : f.isSet = true → ∀ (b x : Nat), load[b]? = some x → 2 ≤ x →
    (f.chunks[b]? = some none ∧ ¬ (r = true ∧ f.used = true)) ∨ f.chunks[b]? = some (some (loadBlock A f.data b))

/-- The grid: set up for the common layout, or not at all. -/
structure GOk (A : List (List Nat)) (g : List (List Nat) × List Nat) : Prop where
  le : ∀ (b x : Nat), g.2[b]? = some x → x ≤ 3
  len : g.2 = [] ∨ g.1 = A ∧ g.2.length = nparts A

structure Inv (A : List (List Nat)) (d r : Bool) (s : St α) : Prop where
  grid : GOk A (s.info, s.load)
  set : ∀ f ∈ s.fields, f.isSet = true → s.info = A ∧ s.load.length = nparts A
  fields : ∀ f ∈ s.fields, FOk A d r s.load f

theorem getElem?_zeros {n b x : Nat} (h : (List.replicate n 0)[b]? = some x) : x = 0 := by
  rw [List.getElem?_replicate] at h
  split at h
  · exact (Option.some.inj h).symm
  · cases h

theorem FOk.weaken {A : List (List Nat)} {d r : Bool} {load : List Nat} {f : Fld α} (h : FOk A d r load f) :
    FOk A d false load f :=
  ⟨h.ax, h.dk, (fun h' => by cases h'), h.len, h.unset, fun hs b x hx h2 => by
    rcases h.data hs b x hx h2 with ⟨h1, _⟩ | h1
    · exact .inl ⟨h1, by simp⟩
    · exact .inr h1⟩

/-- If fewer blocks are loaded, all is well still. -/
theorem FOk.fewer {A : List (List Nat)} {d r : Bool} {load load' : List Nat} {f : Fld α} (h : FOk A d r load f)
    (hl : ∀ (b x : Nat), load'[b]? = some x → 2 ≤ x → ∃ y, load[b]? = some y ∧ 2 ≤ y) : FOk A d r load' f :=
  ⟨h.ax, h.dk, h.rdy, h.len, h.unset, fun hs b x hx h2 => by
    obtain ⟨y, hy, hy2⟩ := hl b x hx h2
    exact h.data hs b y hy hy2⟩

theorem again_get {load : List Nat} {b x : Nat} (hle : ∀ (b x : Nat), load[b]? = some x → x ≤ 3) (h : (again load)[b]? = some x) :
    x ≤ 1 := by
  obtain ⟨y, hy, e⟩ := map_get h
  obtain ⟨z, hz, e'⟩ := map_get hy
  have := hle b z hz
  split at e <;> split at e' <;> omega

theorem again_length (load : List Nat) : (again load).length = load.length := by simp [again]

/-- Every load state is at most 1. -/
def Low (load : List Nat) : Prop := ∀ (b x : Nat), load[b]? = some x → x ≤ 1

theorem FOk.low {A : List (List Nat)} {d r : Bool} {load load' : List Nat} {f : Fld α} (h : FOk A d r load f) (hl : Low load') :
    FOk A d false load' f :=
  h.weaken.fewer fun b x hx h2 => by have := hl b x hx; omega

theorem FOk.newData {A : List (List Nat)} {d r : Bool} {load load' : List Nat} {f : Fld α} (h : FOk A d r load f) (hl : Low load')
    (d' : Data α) : FOk A d false load' { f with data := d' } :=
  ⟨h.ax, h.dk, (fun h' => by cases h'), h.len, h.unset, fun _ b x hx h2 => by have := hl b x hx; omega⟩

theorem fresh_ok {A : List (List Nat)} {d r : Bool} {load : List Nat} {f : Fld α} (h : FOk A d r load f) (r' : Bool) :
    FOk A d r' (freshLoad f) (setUp f) :=
  ⟨h.ax, h.dk, fun _ _ => rfl, fun _ => by simp [setUp, h.ax], (fun hs => by cases hs), fun _ b x hx h2 => by
    have := getElem?_zeros hx
    omega⟩

theorem freshLoad_low (f : Fld α) : Low (freshLoad f) := fun b x hx => by have := getElem?_zeros hx; omega

/-! ### First load -/

theorem firstLoad_ok {A : List (List Nat)} {d r : Bool} : ∀ (fs : List (Fld α × Data α)) (g : List (List Nat) × List Nat)
    (load : List Nat), GOk A g → (∀ p ∈ fs, FOk A d r load p.1) →
    (∀ p ∈ fs, p.1.isSet = true → g.1 = A ∧ g.2.length = nparts A) → (fs = [] → Low g.2) →
    GOk A (firstLoad g fs).1 ∧ Low (firstLoad g fs).1.2 ∧
    (g.1 = A ∧ g.2.length = nparts A → (firstLoad g fs).1.1 = A ∧ (firstLoad g fs).1.2.length = nparts A) ∧
    (∀ f ∈ (firstLoad g fs).2, f.isSet = true ∧ (firstLoad g fs).1.1 = A ∧ (firstLoad g fs).1.2.length = nparts A) ∧
    ∀ f ∈ (firstLoad g fs).2, ∀ l, Low l → FOk A d false l f
  | [], g, load, hg, hf, hs, hlow => ⟨hg, hlow rfl, fun h => h, (fun f hf => nomatch hf), (fun f hf => nomatch hf)⟩
  | (f, dat) :: fs, g, load, hg, hf, hs, _ => by
    have h0 := hf (f, dat) List.mem_cons_self
    have key : ∀ r : (List (List Nat) × List Nat) × Fld α, r = ensure g { f with data := dat } →
        r.1.1 = A ∧ r.1.2.length = nparts A ∧ (∀ (b x : Nat), r.1.2[b]? = some x → x ≤ 3) ∧ r.2.isSet = true ∧
        (∀ l, Low l → FOk A d false l r.2) := by
      intro r hr
      unfold ensure at hr
      by_cases hset : f.isSet = true
      · have := hs (f, dat) List.mem_cons_self hset
        rw [if_pos (show ({ f with data := dat } : Fld α).isSet = true from hset)] at hr
        subst hr
        exact ⟨this.1, this.2, hg.le, hset, fun l hl => h0.newData hl dat⟩
      · rw [if_neg (show ¬ ({ f with data := dat } : Fld α).isSet = true from hset)] at hr
        subst hr
        have h1 : FOk A d false [] ({ f with data := dat } : Fld α) := h0.newData (fun b x hx => by simp at hx) dat
        have hax : f.axes = A := h0.ax
        refine ⟨h0.ax, by simp [freshLoad, hax], fun b x hx => ?_, rfl, fun l hl => (fresh_ok h1 false).low hl⟩
        have := getElem?_zeros hx
        omega
    obtain ⟨k1, k2, k3, k4, k5⟩ := key _ rfl
    have hl : Low (again (ensure g { f with data := dat }).1.2) := fun b x hx => again_get k3 hx
    have ih := firstLoad_ok fs ((ensure g { f with data := dat }).1.1, again (ensure g { f with data := dat }).1.2) load
      ⟨fun b x hx => by have := hl b x hx; omega, .inr ⟨k1, by rw [again_length]; exact k2⟩⟩
      (fun p hp => hf p (List.mem_cons_of_mem _ hp))
      (fun p hp _ => ⟨k1, by simp only [again_length]; exact k2⟩) (fun _ => hl)
    obtain ⟨i1, i2, i3, i4, i5⟩ := ih
    have i3' := i3 ⟨k1, by simp only [again_length]; exact k2⟩
    have e : firstLoad g ((f, dat) :: fs) =
      ((firstLoad ((ensure g { f with data := dat }).1.1, again (ensure g { f with data := dat }).1.2) fs).1,
        (ensure g { f with data := dat }).2 ::
          (firstLoad ((ensure g { f with data := dat }).1.1, again (ensure g { f with data := dat }).1.2) fs).2) := rfl
    rw [e]
    refine ⟨i1, i2, fun _ => i3', ?_, ?_⟩
    · intro f' hf'
      rcases List.mem_cons.mp hf' with rfl | hf'
      · exact ⟨k4, i3'⟩
      · exact i4 f' hf'
    · intro f' hf' l hl'
      rcases List.mem_cons.mp hf' with rfl | hf'
      · exact k5 l hl'
      · exact i5 f' hf' l hl'

/-! ### Before the C code runs -/

/-- After `chunk_data` of the fields: fields of the kernel have every block whose load state is not 0. -/
structure Ready (A : List (List Nat)) (d : Bool) (load : List Nat) (f : Fld α) : Prop where
  ax : f.axes = A
  dk : f.dask = d
  unset : f.isSet = false → f.chunks = []
  len : f.isSet = true → f.chunks.length = nparts A
  used : f.used = true → f.isSet = true ∧ ∀ (b x : Nat), load[b]? = some x → x ≠ 0 → f.chunks[b]? = some (some (loadBlock A f.data b))
  unused : f.used = false → ∀ c ∈ f.chunks, c = none

theorem loadDask_get {load : List Nat} {f : Fld α} {b x : Nat} (hb : b < f.chunks.length) (hx : load[b]? = some x) (hne : x ≠ 0)
    (hle : x ≤ 3) (hc : 2 ≤ x → f.chunks[b]? = some none ∨ f.chunks[b]? = some (some (loadBlock f.axes f.data b))) :
    (loadDask load f)[b]? = some (some (loadBlock f.axes f.data b)) := by
  unfold loadDask
  have hgb : f.chunks[b]? = some f.chunks[b] := List.getElem?_eq_getElem hb
  rw [List.getElem?_map, List.getElem?_zipIdx, hgb]
  simp only [Option.map_some, Nat.zero_add, Option.some.injEq]
  rw [hx]
  simp only
  by_cases h1 : x = 1
  · rw [if_pos (.inl h1)]
  · rcases hc (by omega) with hn | hd
    · rw [hgb] at hn
      rw [if_pos (.inr ⟨by omega, by rw [Option.some.inj hn]; rfl⟩)]
    · rw [hgb] at hd
      rw [Option.some.inj hd, if_neg (by
        rintro (h' | ⟨_, h'⟩)
        · exact h1 h'
        · cases h'), if_neg (by omega)]

theorem loadDask_length (load : List Nat) (f : Fld α) : (loadDask load f).length = f.chunks.length := by simp [loadDask]

/-- What the loop over dask arrays does to the grid. -/
def Stp (A : List (List Nat)) (g g' : List (List Nat) × List Nat) : Prop := g' = g ∨ g' = (A, List.replicate (nparts A) 0)

theorem ready_stp {A : List (List Nat)} {d : Bool} {g g' : List (List Nat) × List Nat} {f : Fld α} (h : Ready A d g.2 f)
    (hs : Stp A g g') : Ready A d g'.2 f := by
  rcases hs with rfl | rfl
  · exact h
  · exact ⟨h.ax, h.dk, h.unset, h.len, fun hu => ⟨(h.used hu).1, fun b x hx hne => absurd (getElem?_zeros hx) hne⟩, h.unused⟩

theorem fok_stp {A : List (List Nat)} {d r : Bool} {g g' : List (List Nat) × List Nat} {f : Fld α} (h : FOk A d r g.2 f)
    (hs : Stp A g g') : FOk A d r g'.2 f := by
  rcases hs with rfl | rfl
  · exact h
  · exact h.fewer fun b x hx h2 => by have := getElem?_zeros hx; omega

theorem gok_stp {A : List (List Nat)} {g g' : List (List Nat) × List Nat} (h : GOk A g) (hs : Stp A g g') : GOk A g' := by
  rcases hs with rfl | rfl
  · exact h
  · exact ⟨fun b x hx => by have := getElem?_zeros hx; omega, .inr ⟨rfl, by simp⟩⟩

theorem set_stp {A : List (List Nat)} {g g' : List (List Nat) × List Nat} (h : g.1 = A ∧ g.2.length = nparts A) (hs : Stp A g g') :
    g'.1 = A ∧ g'.2.length = nparts A := by
  rcases hs with rfl | rfl
  · exact h
  · exact ⟨rfl, by simp⟩

theorem ready_unused {A : List (List Nat)} {d r : Bool} {load : List Nat} {f : Fld α} (h : FOk A d r load f) (hu : ¬ f.used = true)
    (l : List Nat) : Ready A d l { f with chunks := f.chunks.map fun _ => none } :=
  ⟨h.ax, h.dk, fun hs => by simp [h.unset hs], fun hs => by simpa using h.len hs, fun h' => absurd h' hu, fun _ c hc => by
    simp only [List.mem_map] at hc
    obtain ⟨_, _, rfl⟩ := hc
    rfl⟩

theorem chunkData_dask {A : List (List Nat)} {r : Bool} {g : List (List Nat) × List Nat} {f : Fld α} (hg : GOk A g)
    (hf : FOk A true r g.2 f) (hs : f.isSet = true → g.1 = A ∧ g.2.length = nparts A) (hu : f.used = true) :
    ∃ g' f', chunkData g f = some (g', f') ∧ Stp A g g' ∧ g'.1 = A ∧ g'.2.length = nparts A ∧ Ready A true g'.2 f' ∧
      f'.isSet = true ∧ f'.used = true ∧ f'.data = f.data := by
  unfold chunkData ensure
  by_cases hset : f.isSet = true
  · obtain ⟨s1, s2⟩ := hs hset
    have hlen := hf.len hset
    rw [if_pos hset]
    simp only
    rw [if_pos hf.dk, if_neg (by omega)]
    refine ⟨_, _, rfl, .inl rfl, s1, s2, ⟨hf.ax, hf.dk, fun h => ?_, fun _ => ?_, fun _ => ⟨hset, ?_⟩, fun h => ?_⟩, hset, hu, rfl⟩
    · simp only at h; rw [h] at hset; cases hset
    · simp only [loadDask_length]; exact hlen
    · intro b x hx hne
      have hb : b < f.chunks.length := by
        obtain ⟨hlt, _⟩ := List.getElem?_eq_some_iff.mp hx
        omega
      have := loadDask_get hb hx hne (hg.le b x hx) (fun h2 => by
        rw [hf.ax]
        rcases hf.data hset b x hx h2 with ⟨h1, _⟩ | h1
        · exact .inl h1
        · exact .inr h1)
      rw [hf.ax] at this
      exact this
    · simp only at h; rw [h] at hu; cases hu
  · rw [if_neg hset]
    simp only
    rw [if_pos (show (setUp f).dask = true from hf.dk), if_neg (by simp [setUp, freshLoad])]
    refine ⟨_, _, rfl, .inr ?_, hf.ax, by simp [freshLoad, hf.ax], ⟨hf.ax, hf.dk, fun h => ?_, fun _ => ?_, fun _ => ⟨rfl, ?_⟩, fun h => ?_⟩, rfl, hu, rfl⟩
    · simp [freshLoad, hf.ax]
    · cases h
    · simp only [loadDask_length]; simp [setUp, hf.ax]
    · intro b x hx hne
      exact absurd (getElem?_zeros hx) hne
    · have h' : f.used = false := h
      rw [h'] at hu; cases hu

theorem prepFields_dask {A : List (List Nat)} {r : Bool} : ∀ (fs : List (Fld α)) (g : List (List Nat) × List Nat),
    GOk A g → (∀ f ∈ fs, FOk A true r g.2 f) → (∀ f ∈ fs, f.isSet = true → g.1 = A ∧ g.2.length = nparts A) →
    ∃ g' fs', prepFields g fs = some (g', fs') ∧ Stp A g g' ∧ GOk A g' ∧ (∀ f ∈ fs', Ready A true g'.2 f) ∧
      ∀ f ∈ fs', f.isSet = true → g'.1 = A ∧ g'.2.length = nparts A
  | [], g, hg, _, _ => ⟨g, [], rfl, .inl rfl, hg, (fun f hf => nomatch hf), (fun f hf => nomatch hf)⟩
  | f :: fs, g, hg, hf, hs => by
    have h0 := hf f List.mem_cons_self
    unfold prepFields
    by_cases hu : f.used = true
    · rw [if_pos hu]
      obtain ⟨g1, f1, e1, k1, k2, k3, k4, k5, k6, k7⟩ := chunkData_dask hg h0 (hs f List.mem_cons_self) hu
      rw [e1]
      simp only
      obtain ⟨g', fs', e, i1, i2, i3, i4⟩ := prepFields_dask fs g1 (gok_stp hg k1)
        (fun f' hf' => fok_stp (hf f' (List.mem_cons_of_mem _ hf')) k1) (fun _ _ _ => ⟨k2, k3⟩)
      rw [e]
      refine ⟨g', f1 :: fs', rfl, ?_, i2, ?_, ?_⟩
      · rcases i1 with rfl | rfl
        · exact k1
        · exact .inr rfl
      · intro f' hf'
        rcases List.mem_cons.mp hf' with rfl | hf'
        · exact ready_stp k4 i1
        · exact i3 f' hf'
      · intro _ _ _
        exact set_stp ⟨k2, k3⟩ i1
    · rw [if_neg hu]
      obtain ⟨g', fs', e, i1, i2, i3, i4⟩ := prepFields_dask fs g hg
        (fun f' hf' => hf f' (List.mem_cons_of_mem _ hf')) (fun f' hf' => hs f' (List.mem_cons_of_mem _ hf'))
      rw [e]
      refine ⟨g', _ :: fs', rfl, i1, i2, ?_, ?_⟩
      · intro f' hf'
        rcases List.mem_cons.mp hf' with rfl | hf'
        · exact ready_unused h0 hu _
        · exact i3 f' hf'
      · intro f' hf' hs'
        rcases List.mem_cons.mp hf' with rfl | hf'
        · exact set_stp (hs f List.mem_cons_self hs') i1
        · exact i4 f' hf' hs'

/-- For numpy arrays: whatever the load states, the only block is there. -/
theorem chunkData_numpy {A : List (List Nat)} {r : Bool} {g : List (List Nat) × List Nat} {f : Fld α} {load0 : List Nat} (hA : nparts A = 1)
    (hg : GOk A g) (hf : FOk A false r load0 f) (hs : f.isSet = true → g.1 = A ∧ g.2.length = nparts A) (hu : f.used = true) :
    ∃ g' f', chunkData g f = some (g', f') ∧ GOk A g' ∧ g'.1 = A ∧ g'.2.length = nparts A ∧ (∀ l : List Nat, l.length = 1 → Ready A false l f') := by
  have hrd : ∀ (c : List (Option (List α))), c.length = 1 → ∀ l : List Nat, l.length = 1 →
      Ready A false l { f with isSet := true, chunks := c.set 0 (some (loadBlock f.axes f.data 0)) } := by
    intro c hc l hl
    refine ⟨hf.ax, hf.dk, (fun h => by cases h), fun _ => by simp [hc, hA], fun _ => ⟨rfl, fun b x hx _ => ?_⟩, fun h => ?_⟩
    · obtain ⟨hlt, _⟩ := List.getElem?_eq_some_iff.mp hx
      have hb : b = 0 := by omega
      subst hb
      simp only
      rw [List.getElem?_set_self (by omega), hf.ax]
    · have h' : f.used = false := h
      rw [h'] at hu; cases hu
  unfold chunkData ensure
  by_cases hset : f.isSet = true
  · obtain ⟨s1, s2⟩ := hs hset
    have hlen := hf.len hset
    rw [if_pos hset]
    simp only
    rw [if_neg (by rw [hf.dk]; simp), if_neg (by omega)]
    refine ⟨_, _, rfl, ⟨fun b x hx => ?_, .inr ⟨s1, by simpa using s2⟩⟩, s1, by simpa using s2, ?_⟩
    · simp only at hx
      rw [List.getElem?_set] at hx
      split at hx
      · split at hx
        · have := Option.some.inj hx; omega
        · cases hx
      · exact hg.le b x hx
    · have := hrd f.chunks (by omega)
      rw [← hset] at this
      exact this
  · rw [if_neg hset]
    simp only
    rw [if_neg (show ¬ (setUp f).dask = true by rw [show (setUp f).dask = f.dask from rfl, hf.dk]; simp),
      if_neg (by simp [setUp, freshLoad, hf.ax, hA])]
    refine ⟨_, _, rfl, ⟨fun b x hx => ?_, .inr ⟨hf.ax, by simp [freshLoad, hf.ax]⟩⟩, hf.ax, by simp [freshLoad, hf.ax], ?_⟩
    · simp only at hx
      rw [List.getElem?_set] at hx
      split at hx
      · split at hx
        · have := Option.some.inj hx; omega
        · cases hx
      · have := getElem?_zeros hx; omega
    · exact hrd (List.replicate (nparts f.axes) none) (by simp [hf.ax, hA])

theorem prepFields_numpy {A : List (List Nat)} {r : Bool} (hA : nparts A = 1) (load0 : List Nat) :
    ∀ (fs : List (Fld α)) (g : List (List Nat) × List Nat),
    GOk A g → (∀ f ∈ fs, FOk A false r load0 f) → (∀ f ∈ fs, f.isSet = true → g.1 = A ∧ g.2.length = nparts A) →
    ∃ g' fs', prepFields g fs = some (g', fs') ∧ GOk A g' ∧ (g.1 = A ∧ g.2.length = nparts A → g'.1 = A ∧ g'.2.length = nparts A) ∧
      (∀ f ∈ fs', ∀ l : List Nat, l.length = 1 → Ready A false l f) ∧
      ∀ f ∈ fs', f.isSet = true → g'.1 = A ∧ g'.2.length = nparts A
  | [], g, hg, _, _ => ⟨g, [], rfl, hg, fun h => h, (fun f hf => nomatch hf), (fun f hf => nomatch hf)⟩
  | f :: fs, g, hg, hf, hs => by
    have h0 := hf f List.mem_cons_self
    unfold prepFields
    by_cases hu : f.used = true
    · rw [if_pos hu]
      obtain ⟨g1, f1, e1, k1, k2, k3, k4⟩ := chunkData_numpy hA hg h0 (hs f List.mem_cons_self) hu
      rw [e1]
      simp only
      obtain ⟨g', fs', e, i1, i2, i3, i4⟩ := prepFields_numpy hA load0 fs g1 k1
        (fun f' hf' => hf f' (List.mem_cons_of_mem _ hf')) (fun _ _ _ => ⟨k2, k3⟩)
      rw [e]
      refine ⟨g', f1 :: fs', rfl, i1, fun _ => i2 ⟨k2, k3⟩, ?_, fun _ _ _ => i2 ⟨k2, k3⟩⟩
      intro f' hf'
      rcases List.mem_cons.mp hf' with rfl | hf'
      · exact k4
      · exact i3 f' hf'
    · rw [if_neg hu]
      obtain ⟨g', fs', e, i1, i2, i3, i4⟩ := prepFields_numpy hA load0 fs g hg
        (fun f' hf' => hf f' (List.mem_cons_of_mem _ hf')) (fun f' hf' => hs f' (List.mem_cons_of_mem _ hf'))
      rw [e]
      refine ⟨g', _ :: fs', rfl, i1, i2, ?_, ?_⟩
      · intro f' hf'
        rcases List.mem_cons.mp hf' with rfl | hf'
        · exact fun l _ => ready_unused h0 hu l
        · exact i3 f' hf'
      · intro f' hf' hs'
        rcases List.mem_cons.mp hf' with rfl | hf'
        · exact i2 (hs f List.mem_cons_self hs')
        · exact i4 f' hf' hs'

theorem nparts_one : ∀ (A : List (List Nat)), (∀ ax ∈ A, ax.length = 1) → nparts A = 1
  | [], _ => rfl
  | ax :: A, h => by
    have := nparts_one A fun a ha => h a (List.mem_cons_of_mem _ ha)
    unfold nparts at this ⊢
    rw [List.map_cons, List.prod_cons, this, h ax List.mem_cons_self]

theorem prepFields_ok {A : List (List Nat)} {d r : Bool} (hd : d = false → ∀ ax ∈ A, ax.length = 1) {s : St α} (h : Inv A d r s) :
    ∃ g' fs', prepFields (s.info, s.load) s.fields = some (g', fs') ∧ GOk A g' ∧ (∀ f ∈ fs', f.isSet = true → Ready A d g'.2 f) ∧
      (∀ f ∈ fs', f.axes = A ∧ f.dask = d ∧ (f.isSet = false → f.chunks = [] ∧ f.used = false)) ∧
      ∀ f ∈ fs', f.isSet = true → g'.1 = A ∧ g'.2.length = nparts A := by
  have side : ∀ (f : Fld α) (l : List Nat), Ready A d l f → f.axes = A ∧ f.dask = d ∧ (f.isSet = false → f.chunks = [] ∧ f.used = false) := by
    intro f l hr
    refine ⟨hr.ax, hr.dk, fun hs => ⟨hr.unset hs, ?_⟩⟩
    by_contra hu
    have := (hr.used (by simpa using hu)).1
    rw [hs] at this
    cases this
  cases d with
  | true =>
    obtain ⟨g', fs', e, _, i2, i3, i4⟩ := prepFields_dask s.fields (s.info, s.load) h.grid h.fields h.set
    exact ⟨g', fs', e, i2, fun f hf _ => i3 f hf, fun f hf => side f _ (i3 f hf), i4⟩
  | false =>
    have hA := nparts_one A (hd rfl)
    obtain ⟨g', fs', e, i1, _, i3, i4⟩ := prepFields_numpy hA s.load s.fields (s.info, s.load) h.grid h.fields h.set
    refine ⟨g', fs', e, i1, fun f hf hs => i3 f hf _ ?_, fun f hf => side f [0] (i3 f hf _ rfl), i4⟩
    rw [(i4 f hf hs).2, hA]

theorem prepare_ok {A : List (List Nat)} {d r : Bool} (hd : d = false → ∀ ax ∈ A, ax.length = 1) {s : St α} (h : Inv A d r s) :
    ∃ s', prepare s = some s' ∧ Inv A d true s' := by
  obtain ⟨g, fs, e, i1, i2, i3, i4⟩ := prepFields_ok hd h
  have hget : ∀ (b x : Nat), (g.2.map fun x => if x = 1 then 2 else x)[b]? = some x →
      ∃ y, g.2[b]? = some y ∧ y ≤ 3 ∧ (x = 0 ↔ y = 0) ∧ x ≠ 1 ∧ x ≤ 3 := by
    intro b x hx
    obtain ⟨y, hy, e⟩ := map_get hx
    have := i1.le b y hy
    exact ⟨y, hy, this, by split at e <;> omega, by split at e <;> omega, by split at e <;> omega⟩
  unfold prepare
  rw [e]
  simp only
  have hp : (fs.filter (·.used)).all (passes (g.2.map fun x => if x = 1 then 2 else x)) = true := by
    rw [List.all_eq_true]
    intro f hf
    obtain ⟨hf, hu⟩ := List.mem_filter.mp hf
    have hset : f.isSet = true := by
      by_contra hn
      rw [((i3 f hf).2.2 (by simpa using hn)).2] at hu
      cases hu
    unfold passes
    rw [List.all_eq_true]
    intro p hp
    obtain ⟨y, hy, _, h0, h1, h3⟩ := hget p.2 p.1 (List.mem_zipIdx_iff_getElem?.mp hp)
    by_cases hz : p.1 = 0
    · simp [hz]
    · have := ((i2 f hf hset).used hu).2 p.2 y hy (by omega)
      rw [this]
      simp only [Bool.and_true, Bool.or_eq_true, decide_eq_true_eq]
      omega
  rw [if_pos hp]
  refine ⟨_, rfl, ⟨⟨fun b x hx => (hget b x hx).choose_spec.2.2.2.2, ?_⟩, ?_, ?_⟩⟩
  · rcases i1.len with hl | hl
    · exact .inl (by simp [hl])
    · exact .inr ⟨hl.1, by simpa using hl.2⟩
  · intro f hf hs
    exact ⟨(i4 f hf hs).1, by simpa using (i4 f hf hs).2⟩
  · intro f hf
    obtain ⟨a1, a2, a3⟩ := i3 f hf
    refine ⟨a1, a2, fun _ hu => ?_, fun hs => (i2 f hf hs).len hs, fun hs => (a3 hs).1, ?_⟩
    · by_contra hn
      rw [(a3 (by simpa using hn)).2] at hu
      cases hu
    · intro hs b x hx h2
      obtain ⟨y, hy, _, h0, _, _⟩ := hget b x hx
      by_cases hu : f.used = true
      · exact .inr (((i2 f hf hs).used hu).2 b y hy (by omega))
      · left
        have hb : b < f.chunks.length := by
          rw [(i2 f hf hs).len hs, ← (i4 f hf hs).2]
          obtain ⟨hlt, _⟩ := List.getElem?_eq_some_iff.mp hy
          exact hlt
        refine ⟨?_, fun hc => hu hc.2⟩
        rw [List.getElem?_eq_getElem hb, (i2 f hf hs).unused (by simpa using hu) _ (List.getElem_mem hb)]

/-! ### Histories -/

theorem evalField_moved (s : St α) (a : Access) (l : List Nat) (h : (evalField s a).load? = some l) : Moved s.load l := by
  unfold evalField at h
  split at h
  · cases h
  · exact getCell_moved _ _ _ _ _ _ _ h

theorem inv_moved {A : List (List Nat)} {d r : Bool} {s : St α} (h : Inv A d r s) {l : List Nat} (hm : Moved s.load l) :
    Inv A d r { s with load := l } := by
  refine ⟨⟨fun b x hx => ?_, ?_⟩, fun f hf hs => ⟨(h.set f hf hs).1, hm.1.trans (h.set f hf hs).2⟩, fun f hf => ?_⟩
  · obtain ⟨y, hy⟩ := getElem?_of_length hm.1.symm hx
    have := h.grid.le b y hy
    have := hm.2 b y x hy hx
    omega
  · rcases h.grid.len with hl | hl
    · left
      have := hm.1
      have hl' : s.load = [] := hl
      rw [hl'] at this
      exact List.length_eq_zero_iff.mp this
    · exact .inr ⟨hl.1, hm.1.trans hl.2⟩
  · exact (h.fields f hf).fewer fun b x hx h2 => by
      obtain ⟨y, hy⟩ := getElem?_of_length hm.1.symm hx
      have := hm.2 b y x hy hx
      exact ⟨y, hy, by omega⟩

theorem inv_low {A : List (List Nat)} {d : Bool} {info : List (List Nat)} {load : List Nat} {fs : List (Fld α)}
    (hg : GOk A (info, load)) (hs : ∀ f ∈ fs, f.isSet = true → info = A ∧ load.length = nparts A)
    (hf : ∀ f ∈ fs, FOk A d false load f) : Inv A d false ⟨info, load, fs⟩ := ⟨hg, hs, hf⟩

theorem mem_zipWith {β γ : Type} {k : Fld α → β → γ} {fs : List (Fld α)} {new : List β} {f : γ}
    (h : f ∈ List.zipWith k fs new) : ∃ g ∈ fs, ∃ e, f = k g e := by
  rw [List.mem_iff_getElem] at h
  obtain ⟨n, hn, rfl⟩ := h
  rw [List.length_zipWith] at hn
  rw [List.getElem_zipWith]
  exact ⟨_, List.getElem_mem (by omega), _, rfl⟩

theorem inv_first {A : List (List Nat)} {d r : Bool} {s : St α} (h : Inv A d r s) (new : List (Data α)) (hl : new.length = s.fields.length) :
    Inv A d false (snapshotFirst new s) := by
  unfold snapshotFirst
  simp only
  by_cases he : s.fields.zip new = []
  · have hnil : s.fields = [] := by
      rcases List.zip_eq_nil_iff.mp he with h' | h'
      · exact h'
      · rw [h'] at hl
        exact List.length_eq_zero_iff.mp hl.symm
    rw [he]
    exact ⟨h.grid, (fun f hf => nomatch hf), (fun f hf => nomatch hf)⟩
  · have hmem : ∀ p ∈ s.fields.zip new, p.1 ∈ s.fields := fun p hp => (List.of_mem_zip hp).1
    obtain ⟨i1, i2, _, i4, i5⟩ := firstLoad_ok (A := A) (d := d) (r := r) (s.fields.zip new) (s.info, s.load) s.load h.grid
      (fun p hp => h.fields p.1 (hmem p hp)) (fun p hp => h.set p.1 (hmem p hp)) (fun h' => absurd h' he)
    exact ⟨i1, fun f hf _ => (i4 f hf).2, fun f hf => i5 f hf _ i2⟩

theorem inv_next {A : List (List Nat)} {d r : Bool} {s : St α} (h : Inv A d r s) (new : List (Data α)) :
    Inv A d false (snapshotNext new s) := by
  have hlow : Low (again s.load) := fun b x hx => again_get h.grid.le hx
  refine ⟨⟨fun b x hx => by have := hlow b x hx; omega, ?_⟩, ?_, ?_⟩
  · rcases h.grid.len with hl | hl
    · left
      have hl' : s.load = [] := hl
      simp [snapshotNext, again, hl']
    · exact .inr ⟨hl.1, by simpa [snapshotNext, again_length] using hl.2⟩
  · intro f hf hs
    obtain ⟨g, hg, e, rfl⟩ := mem_zipWith hf
    exact ⟨(h.set g hg hs).1, by simpa [snapshotNext, again_length] using (h.set g hg hs).2⟩
  · intro f hf
    obtain ⟨g, hg, e, rfl⟩ := mem_zipWith hf
    exact (h.fields g hg).newData hlow e

theorem inv_markOld {A : List (List Nat)} {d r : Bool} {s : St α} (h : Inv A d r s) : Inv A d false (markOld s) := by
  refine ⟨⟨fun b x hx => ?_, ?_⟩, fun f hf hs => ⟨(h.set f hf hs).1, by simpa [markOld] using (h.set f hf hs).2⟩, fun f hf => ?_⟩
  · obtain ⟨y, hy, e⟩ := map_get hx
    have := h.grid.le b y hy
    split at e <;> omega
  · rcases h.grid.len with hl | hl
    · left
      have hl' : s.load = [] := hl
      simp [markOld, hl']
    · exact .inr ⟨hl.1, by simpa [markOld] using hl.2⟩
  · exact (h.fields f hf).weaken.fewer fun b x hx h2 => by
      obtain ⟨y, hy, e⟩ := map_get hx
      exact ⟨y, hy, by split at e <;> omega⟩

theorem inv_use {A : List (List Nat)} {d r : Bool} {s : St α} (h : Inv A d r s) (used : List Bool) : Inv A d false (useFields used s) := by
  refine ⟨h.grid, ?_, ?_⟩
  · intro f hf hs
    obtain ⟨g, hg, e, rfl⟩ := mem_zipWith hf
    exact h.set g hg hs
  · intro f hf
    obtain ⟨g, hg, e, rfl⟩ := mem_zipWith hf
    have hw := (h.fields g hg).weaken
    exact ⟨hw.ax, hw.dk, (fun h' => by cases h'), hw.len, hw.unset, fun hs b x hx h2 => by
      rcases hw.data hs b x hx h2 with ⟨h1, _⟩ | h1
      · exact .inl ⟨h1, by simp⟩
      · exact .inr h1⟩

theorem inv_start {A : List (List Nat)} {d : Bool} {fs : List (List (List Nat) × Bool × Bool × Data α)} (h : SameSplit A d fs) :
    Inv A d false (start fs) := by
  refine ⟨⟨fun b x hx => by simp [start] at hx, .inl rfl⟩, ?_, ?_⟩
  · intro f hf hs
    unfold start at hf
    simp only [List.mem_map] at hf
    obtain ⟨p, _, rfl⟩ := hf
    cases hs
  · intro f hf
    unfold start at hf
    simp only [List.mem_map] at hf
    obtain ⟨p, hp, rfl⟩ := hf
    have := h.1 p hp
    exact ⟨this.1, this.2, (fun h' => by cases h'), fun h' => (by cases h'), fun _ => rfl, fun h' => (by cases h')⟩

theorem reach_inv {A : List (List Nat)} {d : Bool} {fs : List (List (List Nat) × Bool × Bool × Data α)} (h : SameSplit A d fs)
    {r : Bool} {s : St α} (hr : Reach fs r s) : Inv A d r s := by
  induction hr with
  | start => exact inv_start h
  | first _ hl ih => exact inv_first ih _ hl
  | next _ _ ih => exact inv_next ih _
  | execute _ ih => exact inv_markOld ih
  | call _ hp ih =>
    obtain ⟨s', e, hi⟩ := prepare_ok h.2 ih
    rw [e] at hp
    rw [← Option.some.inj hp]
    exact hi
  | ok _ he ih => exact inv_moved ih (evalField_moved _ _ _ (by rw [he]; rfl))
  | rep _ he ih => exact inv_moved ih (evalField_moved _ _ _ (by rw [he]; rfl))
  | use _ _ ih => exact inv_use ih _

theorem inv_inMemory {A : List (List Nat)} {d : Bool} {s : St α} (h : Inv A d true s) {f : Fld α} (hf : f ∈ s.fields) (hu : f.used = true) :
    s.info = A ∧ InMemory A f.data s.load f.chunks := by
  have hs := (h.fields f hf).rdy rfl hu
  refine ⟨(h.set f hf hs).1, (h.set f hf hs).2, (h.fields f hf).len hs, fun b x hx h2 => ?_⟩
  rcases (h.fields f hf).data hs b x hx h2 with ⟨_, h1⟩ | h1
  · exact absurd ⟨rfl, hu⟩ h1
  · exact h1

end Parcels.MixedChunks
