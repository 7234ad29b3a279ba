import Verif.Spec.HaloSet
import Verif.Props.Halo

/-!
Lemmas for C72.
-/

namespace Parcels.HaloSet
open Parcels.Halo

def extAxis (h : Option Nat) (l : List ℚ) : List ℚ := match h with | none => l | some h => extendAxis h l
def extG (hz hm : Option Nat) (g : HGrid) : HGrid := ⟨extAxis hz g.lon, extAxis hm g.lat, hz.getD 0, hm.getD 0⟩
def extX (h : Option Nat) (d : Rows) : Rows := match h with | none => d | some h => d.map (extend h)
def extY (h : Option Nat) (d : Rows) : Rows := match h with | none => d | some h => extend h d
def ext1 {α : Type} (h : Option Nat) (d : List α) : List α := match h with | none => d | some h => extend h d
def extD (hz hm : Option Nat) (d : Rows) : Rows := extY hm (extX hz d)

theorem pyLast_map {α β : Type} (h : Nat) (l : List α) (f : α → β) : pyLast h (l.map f) = (pyLast h l).map f := by
  unfold pyLast; split_ifs <;> simp [List.map_drop]

theorem extend_map {α β : Type} (h : Nat) (l : List α) (f : α → β) : extend h (l.map f) = (extend h l).map f := by
  unfold extend; rw [pyLast_map]; simp [List.map_take]

theorem extX_extY (hz hm : Option Nat) (d : Rows) : extX hz (extY hm d) = extY hm (extX hz d) := by
  cases hz <;> cases hm <;> simp [extX, extY, extend_map]

theorem pyLast_len {α : Type} (h : Nat) (l : List α) : (pyLast h l).length = if h = 0 then l.length else min h l.length := by
  unfold pyLast; split_ifs <;> simp; omega

theorem extend_len {α β : Type} (h : Nat) (l : List α) (k : List β) (e : l.length = k.length) : (extend h l).length = (extend h k).length := by
  unfold extend; simp [pyLast_len, e]

theorem extendAxis_len (h : Nat) (l : List ℚ) : (extendAxis h l).length = (extend h l).length := by
  unfold extendAxis extend; simp

theorem mem_extend {α : Type} {h : Nat} {l : List α} {a : α} (ha : a ∈ extend h l) : a ∈ l := by
  unfold extend pyLast at ha
  simp only [List.mem_append] at ha
  rcases ha with (ha | ha) | ha
  · split_ifs at ha
    · exact ha
    · exact List.mem_of_mem_drop ha
  · exact ha
  · exact List.mem_of_mem_take ha

theorem Fits.extX {lon lat : List ℚ} {d : Rows} (h : Fits lon lat d) (hz : Option Nat) : Fits (extAxis hz lon) lat (extX hz d) := by
  cases hz with
  | none => exact h
  | some k =>
    refine ⟨by simp [HaloSet.extX, h.1], ?_⟩
    intro r hr
    simp only [HaloSet.extX, List.mem_map] at hr
    obtain ⟨r0, hr0, rfl⟩ := hr
    simp only [extAxis, extendAxis_len]
    exact extend_len k r0 lon (h.2 r0 hr0)

theorem Fits.extY {lon lat : List ℚ} {d : Rows} (h : Fits lon lat d) (hm : Option Nat) : Fits lon (extAxis hm lat) (extY hm d) := by
  cases hm with
  | none => exact h
  | some k =>
    refine ⟨?_, ?_⟩
    · simp only [HaloSet.extY, extAxis, extendAxis_len]
      exact extend_len k d lat h.1
    · intro r hr
      exact h.2 r (mem_extend hr)

theorem Fits.ext {lon lat : List ℚ} {d : Rows} (h : Fits lon lat d) (hz hm : Option Nat) :
    Fits (extAxis hz lon) (extAxis hm lat) (extD hz hm d) := (h.extX hz).extY hm

/-- The axis of an extended grid: each node is a node of the original, moved by whole periods; and the same node for data. -/
theorem axis_node {l : List ℚ} (h : Option Nat) (h2 : 2 ≤ l.length) (hh : ∀ k, h = some k → 1 ≤ k ∧ k ≤ l.length) (j : Nat) (y : ℚ)
    (hy : (extAxis h l)[j]? = some y) : ∃ (j0 : Nat) (k : ℤ), l[j0]? = some (y + k * period l) ∧
      ∀ {α : Type} (d : List α), d.length = l.length → (ext1 h d)[j]? = d[j0]? := by
  cases h with
  | none =>
    refine ⟨j, 0, ?_, fun d _ => rfl⟩
    simpa [extAxis] using hy
  | some h =>
    obtain ⟨k1, k2⟩ := hh h rfl
    obtain ⟨a, b, rest, rfl⟩ : ∃ a b rest, l = a :: b :: rest := by
      match l, h2 with
      | a :: b :: rest, _ => exact ⟨a, b, rest, rfl⟩
    obtain ⟨e1, e2, _⟩ := C38_coordinates (a :: b :: rest) h k1 k2 a b ((a :: b :: rest).getLast (by simp)) rfl rfl (List.getLast?_eq_some_getLast (by simp))
    have hj : j < (a :: b :: rest).length + 2 * h := by
      rw [← e1]
      simp only [extAxis] at hy
      rw [List.getElem?_eq_some_iff] at hy
      exact hy.1
    obtain ⟨c, e3, e4⟩ := e2 j hj
    simp only [extAxis] at hy
    rw [hy] at e4
    injection e4 with e4
    refine ⟨source (a :: b :: rest).length h j, - turns (a :: b :: rest).length h j, ?_, ?_⟩
    · rw [e3]
      congr 1
      have : period (a :: b :: rest) = ((a :: b :: rest).getLast (by simp) - a) + (b - a) := by
        unfold period
        rw [List.getLastD_eq_getLast?, List.getLast?_eq_some_getLast (by simp)]
        rfl
      rw [this, e4]
      simp only [zsmul_eq_mul]
      push_cast
      ring
    · intro α d hd
      have := (C38_data d h k1 (by rw [hd]; exact k2)).2.1 j (by rw [hd]; exact hj)
      rw [hd] at this
      exact this

theorem continues_ext {lon lat : List ℚ} {d : Rows} (hf : Fits lon lat d) (hz hm : Option Nat) (hx : 2 ≤ lon.length) (hy : 2 ≤ lat.length)
    (h1 : ∀ k, hz = some k → 1 ≤ k ∧ k ≤ lon.length) (h2 : ∀ k, hm = some k → 1 ≤ k ∧ k ≤ lat.length) :
    Continues lon lat d (extAxis hz lon) (extAxis hm lat) (extD hz hm d) := by
  refine ⟨hf.ext hz hm, ?_⟩
  intro j i y x v ey ex ev
  obtain ⟨j0, k, a1, a2⟩ := axis_node hm hy h2 j y ey
  obtain ⟨i0, l, b1, b2⟩ := axis_node hz hx h1 i x ex
  refine ⟨j0, i0, k, l, a1, b1, ?_⟩
  unfold valueAt at ev ⊢
  have e1 : (extD hz hm d)[j]? = (extX hz d)[j0]? := by
    have := a2 (extX hz d) (hf.extX hz).1
    rw [← this]
    unfold extD extY
    cases hm <;> rfl
  rw [e1] at ev
  cases hr : d[j0]? with
  | none =>
    have : (extX hz d)[j0]? = none := by
      cases hz with
      | none => exact hr
      | some h => simp only [extX, List.getElem?_map, hr]; rfl
    rw [this] at ev; simp at ev
  | some r =>
    have hrl : r.length = lon.length := hf.2 r (List.mem_of_getElem? hr)
    have : (extX hz d)[j0]? = some (ext1 hz r) := by
      cases hz with
      | none => exact hr
      | some h => simp only [extX, List.getElem?_map, hr]; rfl
    rw [this] at ev
    simp only [Option.bind_some] at ev ⊢
    rw [← b2 r hrl]
    exact ev

/-- A size once the call with flag `b` and size `h` is made. -/
def after (b : Bool) (h : Nat) (o : Option Nat) : Option Nat := if b then some h else o

theorem gridHalo_ext {z m : Bool} {h : Nat} {hz hm : Option Nat} {g : HGrid} (h1 : z = true → hz = none) (h2 : m = true → hm = none)
    (sx : 2 ≤ g.lon.length) (sy : 2 ≤ g.lat.length) :
    gridHalo z m h (extG hz hm g) = some (extG (after z h hz) (after m h hm) g) := by
  cases z <;> cases m <;> simp_all [gridHalo, extG, after, extAxis]

theorem dataHalo_ext {z m : Bool} {h : Nat} {hz hm : Option Nat} {g : HGrid} {d : Rows} (h1 : z = true → hz = none) (h2 : m = true → hm = none)
    (hf : Fits g.lon g.lat d) :
    dataHalo z m h (extG (after z h hz) (after m h hm) g) (extD hz hm d) = some (extD (after z h hz) (after m h hm) d) := by
  have step1 : (if z then
      let d' := (extD hz hm d).map (extend h)
      if d'.all (fun r => decide (r.length = (extG (after z h hz) (after m h hm) g).lon.length)) then some d' else none
     else some (extD hz hm d)) = some (extD (after z h hz) hm d) := by
    cases z with
    | false => simp [after]
    | true =>
      rw [h1 rfl]
      have e : (extD none hm d).map (extend h) = extD (some h) hm d := by
        show extX (some h) (extY hm (extX none d)) = extY hm (extX (some h) d)
        rw [extX_extY]; rfl
      have hl := (hf.ext (some h) hm).2
      simp only [if_true, e, after, extG]
      rw [if_pos]
      simp only [List.all_eq_true, decide_eq_true_eq]
      exact hl
  unfold dataHalo
  rw [step1]
  simp only [Option.bind_some]
  cases m with
  | false => simp [after]
  | true =>
    rw [h2 rfl]
    have e : extend h (extD (after z h hz) none d) = extD (after z h hz) (some h) d := rfl
    have hl := (hf.ext (after z h hz) (some h)).1
    simp only [if_true, e, extG]
    rw [if_pos]
    · rfl
    · exact hl

/-- The field once its data are replaced. -/
def put (G : HField → Rows) (f : HField) : HField := if f.deferred then f else { f with data := G f }

theorem allAttrs_spec {z m : Bool} {h : Nat} {grids : List HGrid} (G : HField → Rows) :
    ∀ (as : List Attr) (fs : List HField), (as.filterMap fun | .field i => some i | .list _ => none).Nodup →
      (∀ i, Attr.field i ∈ as → ∃ f, fs[i]? = some f ∧
        (f.deferred = false → ∃ g, grids[f.grid]? = some g ∧ dataHalo z m h g f.data = some (G f))) →
      ∃ fs', allAttrs z m h grids as fs = some fs' ∧ ∀ i, (Attr.field i ∈ as → fs'[i]? = fs[i]?.map (put G)) ∧ (Attr.field i ∉ as → fs'[i]? = fs[i]?) := by
  intro as
  induction as with
  | nil => intro fs _ _; exact ⟨fs, rfl, fun i => ⟨fun hi => by simp at hi, fun _ => rfl⟩⟩
  | cons a as ih =>
    intro fs nd hyp
    cases a with
    | list l =>
      obtain ⟨fs', e1, e2⟩ := ih fs (by simpa using nd) (fun i hi => hyp i (List.mem_cons_of_mem _ hi))
      refine ⟨fs', by simpa [allAttrs, oneAttr] using e1, fun i => ?_⟩
      simpa using e2 i
    | field k =>
      have nd' : k ∉ (as.filterMap fun | .field i => some i | .list _ => none) ∧ (as.filterMap fun | .field i => some i | .list _ => none).Nodup := by
        simpa [List.filterMap_cons] using nd
      have hk : Attr.field k ∉ as := by
        intro hc
        exact nd'.1 (List.mem_filterMap.2 ⟨_, hc, rfl⟩)
      obtain ⟨f, f1, f2⟩ := hyp k List.mem_cons_self
      have hlt : k < fs.length := (List.getElem?_eq_some_iff.1 f1).1
      have hone : oneAttr z m h grids fs (.field k) = some (fs.set k (put G f)) := by
        simp only [oneAttr, f1, Option.bind_some]
        cases hd : f.deferred with
        | true =>
          have : put G f = f := by simp [put, hd]
          rw [this]
          simp only [if_true]
          congr 1
          apply List.ext_getElem?
          intro n
          rw [List.getElem?_set]
          split_ifs with hn
          · rw [← hn]; exact f1
          · rfl
        | false =>
          obtain ⟨g, g1, g2⟩ := f2 hd
          simp [g1, g2, put, hd]
      have hget : ∀ i, i ≠ k → (fs.set k (put G f))[i]? = fs[i]? := by
        intro i hi
        rw [List.getElem?_set_ne (Ne.symm hi)]
      obtain ⟨fs', e1, e2⟩ := ih (fs.set k (put G f)) nd'.2 (by
        intro i hi
        have : i ≠ k := fun e => hk (e ▸ hi)
        rw [hget i this]
        exact hyp i (List.mem_cons_of_mem _ hi))
      refine ⟨fs', by simp [allAttrs, hone, e1], fun i => ?_⟩
      by_cases hik : i = k
      · subst hik
        refine ⟨fun _ => ?_, fun hn => absurd List.mem_cons_self hn⟩
        rw [(e2 i).2 hk, List.getElem?_set_self hlt, f1]; rfl
      · have hne : Attr.field i ≠ Attr.field k := fun e => hik (by injection e)
        constructor
        · intro hi
          have := List.mem_cons.1 hi
          rw [(e2 i).1 (this.resolve_left hne), hget i hik]
        · intro hi
          rw [(e2 i).2 (fun hc => hi (List.mem_cons_of_mem _ hc)), hget i hik]

/-- The FieldSet when halos of these sizes are there. -/
def extS (hz hm : Option Nat) (s : FSet) : FSet :=
  ⟨s.attrs, s.fields.map (put fun f => extD hz hm f.data), s.grids.map (extG hz hm)⟩

theorem extG_none {g : HGrid} (h : g.zonal = 0 ∧ g.meridional = 0) : extG none none g = g := by
  cases g; simp_all [extG, extAxis]

theorem extS_none {s : FSet} {h : Nat} (hs : s.Fresh h) : extS none none s = s := by
  obtain ⟨a, f, g⟩ := s
  simp only [extS, FSet.mk.injEq, true_and]
  refine ⟨?_, ?_⟩
  · refine (List.map_congr_left fun f _ => ?_).trans (List.map_id f)
    cases f with
    | mk a b c => cases b <;> simp [put, extD, extX, extY]
  · refine (List.map_congr_left fun x hx => ?_).trans (List.map_id g)
    exact extG_none (hs.none x hx)

theorem mapM_some {α β : Type} (f : α → Option β) (g : α → β) : ∀ l : List α, (∀ a ∈ l, f a = some (g a)) → l.mapM f = some (l.map g)
  | [], _ => rfl
  | a :: l, h => by
    rw [List.mapM_cons, h a List.mem_cons_self, mapM_some f g l (fun b hb => h b (List.mem_cons_of_mem _ hb))]
    rfl

theorem addHalo_ext {s : FSet} {n : Nat} (hs : s.Fresh n) (hp : s.Plain) {z m : Bool} {h : Nat} {hz hm : Option Nat} (h1 : z = true → hz = none)
    (h2 : m = true → hm = none) : addHalo z m h (extS hz hm s) = some (extS (after z h hz) (after m h hm) s) := by
  have hg : ((extS hz hm s).grids.mapM (gridHalo z m h)) = some (s.grids.map (extG (after z h hz) (after m h hm))) := by
    have := mapM_some (gridHalo z m h) (fun g => (gridHalo z m h g).getD g) (s.grids.map (extG hz hm)) (by
      intro a ha
      obtain ⟨g, hg, rfl⟩ := List.mem_map.1 ha
      rw [gridHalo_ext h1 h2 (hs.size g hg).1 (hs.size g hg).2.1]; rfl)
    simp only [extS]
    rw [this]
    congr 1
    rw [List.map_map]
    apply List.map_congr_left
    intro g hg
    simp only [Function.comp]
    rw [gridHalo_ext h1 h2 (hs.size g hg).1 (hs.size g hg).2.1]; rfl
  unfold addHalo
  rw [hg]
  simp only [Option.bind_some]
  have key := allAttrs_spec (z := z) (m := m) (h := h) (grids := s.grids.map (extG (after z h hz) (after m h hm)))
    (fun f => (s.grids[f.grid]?.bind fun g => dataHalo z m h (extG (after z h hz) (after m h hm) g) f.data).getD f.data) s.attrs
    (s.fields.map (put fun f => extD hz hm f.data)) hp.once (by
      intro i hi
      have hlt := hp.exist i hi
      have hf : s.fields[i]? = some s.fields[i] := List.getElem?_eq_getElem hlt
      refine ⟨_, by rw [List.getElem?_map, hf]; rfl, ?_⟩
      intro hd
      have hd0 : (s.fields[i]).deferred = false := by
        cases hc : (s.fields[i]).deferred with
        | false => rfl
        | true => simp [put, hc] at hd
      obtain ⟨g, g1, g2⟩ := hs.fits s.fields[i] (List.getElem_mem hlt)
      have e := dataHalo_ext (z := z) (m := m) (h := h) (hz := hz) (hm := hm) h1 h2 g2
      refine ⟨extG (after z h hz) (after m h hm) g, ?_, ?_⟩
      · simp [put, hd0, g1]
      · simp [put, hd0, g1, e])
  obtain ⟨fs', e1, e2⟩ := key
  simp only [extS]
  rw [e1]
  simp only [Option.bind_some, Option.some.injEq, FSet.mk.injEq, true_and, and_true]
  apply List.ext_getElem?
  intro i
  rw [List.getElem?_map]
  by_cases hi : Attr.field i ∈ s.attrs
  · rw [(e2 i).1 hi, List.getElem?_map]
    have hlt := hp.exist i hi
    have hf : s.fields[i]? = some s.fields[i] := List.getElem?_eq_getElem hlt
    rw [hf]
    simp only [Option.map_some, Option.some.injEq]
    cases hd0 : (s.fields[i]).deferred with
    | true => simp [put, hd0]
    | false =>
      obtain ⟨g, g1, g2⟩ := hs.fits s.fields[i] (List.getElem_mem hlt)
      have e := dataHalo_ext (z := z) (m := m) (h := h) (hz := hz) (hm := hm) h1 h2 g2
      simp [put, hd0, g1, e]
  · rw [(e2 i).2 hi, List.getElem?_map]
    cases hf : s.fields[i]? with
    | none => rfl
    | some f =>
      simp only [Option.map_some, Option.some.injEq]
      have hd0 : f.deferred = true := by
        cases hc : f.deferred with
        | true => rfl
        | false => exact absurd (hp.named i f hf hc) hi
      simp [put, hd0]

/-- The size of the halo after some calls, if there is one call at most. -/
def sizeAfter (which : Bool × Bool × Nat → Bool) : List (Bool × Bool × Nat) → Option Nat → Option Nat
  | [], o => o
  | c :: rest, o => sizeAfter which rest (after (which c) c.2.2 o)

theorem addHalos_ext {s : FSet} {n : Nat} (hs : s.Fresh n) (hp : s.Plain) : ∀ (calls : List (Bool × Bool × Nat)) (hz hm : Option Nat),
    (calls.filter fun c => c.1).length + hz.toList.length ≤ 1 → (calls.filter fun c => c.2.1).length + hm.toList.length ≤ 1 →
    addHalos calls (extS hz hm s) = some (extS (sizeAfter (fun c => c.1) calls hz) (sizeAfter (fun c => c.2.1) calls hm) s) := by
  intro calls
  induction calls with
  | nil => intro hz hm _ _; rfl
  | cons c calls ih =>
    obtain ⟨z, m, h⟩ := c
    intro hz hm h1 h2
    have a1 : z = true → hz = none := by
      rintro rfl
      cases hz with
      | none => rfl
      | some k => simp at h1
    have a2 : m = true → hm = none := by
      rintro rfl
      cases hm with
      | none => rfl
      | some k => simp at h2
    simp only [addHalos, addHalo_ext hs hp a1 a2, Option.bind_some]
    rw [ih]
    · rfl
    · cases z with
      | false => simpa [after] using h1
      | true => simpa [after, a1 rfl] using h1
    · cases m with
      | false => simpa [after] using h2
      | true => simpa [after, a2 rfl] using h2

theorem sizeAfter_once (which : Bool × Bool × Nat → Bool) : ∀ (calls : List (Bool × Bool × Nat)) (o : Option Nat),
    (calls.filter which).length + o.toList.length ≤ 1 →
      (sizeAfter which calls o).getD 0 = total calls which + o.getD 0 ∧
      ∀ k, sizeAfter which calls o = some k → o = some k ∨ ∃ c ∈ calls, which c = true ∧ c.2.2 = k := by
  intro calls
  induction calls with
  | nil => intro o _; exact ⟨by simp [sizeAfter, total], fun k hk => Or.inl hk⟩
  | cons c calls ih =>
    intro o ho
    cases hc : which c with
    | false =>
      have := ih o (by simpa [hc] using ho)
      simp only [sizeAfter, after, hc, Bool.false_eq_true, if_false, total, List.filter_cons]
      refine ⟨this.1, fun k hk => ?_⟩
      rcases this.2 k hk with h | ⟨c', h1, h2⟩
      · exact Or.inl h
      · exact Or.inr ⟨c', List.mem_cons_of_mem _ h1, h2⟩
    | true =>
      have ho' : o = none := by
        cases o with
        | none => rfl
        | some k => simp [hc] at ho
      subst ho'
      have := ih (some c.2.2) (by simpa [hc] using ho)
      simp only [sizeAfter, after, hc, if_true, total, List.filter_cons, List.map_cons, List.sum_cons]
      refine ⟨by have h := this.1; simp only [total, Option.getD_some] at h; simp only [Option.getD_none]; omega, fun k hk => ?_⟩
      rcases this.2 k hk with h | ⟨c', h1, h2⟩
      · refine Or.inr ⟨c, List.mem_cons_self, hc, by injection h⟩
      · exact Or.inr ⟨c', List.mem_cons_of_mem _ h1, h2⟩

theorem extAxis_length {h : Option Nat} {l : List ℚ} (hh : ∀ k, h = some k → 1 ≤ k ∧ k ≤ l.length) : (extAxis h l).length = l.length + 2 * h.getD 0 := by
  cases h with
  | none => rfl
  | some k =>
    obtain ⟨h1, h2⟩ := hh k rfl
    simp only [extAxis, extendAxis_len, extend, List.length_append, pyLast_len, List.length_take, Option.getD_some]
    rw [if_neg (by omega)]
    omega

/-- Data loaded later get the same halo if the sizes are the same in both directions. -/
theorem loadedHalo_ext {g : HGrid} {d : Rows} {hz hm : Option Nat} (hf : Fits g.lon g.lat d)
    (h1 : ∀ k, hz = some k → 1 ≤ k ∧ k ≤ g.lon.length) (h2 : ∀ k, hm = some k → 1 ≤ k ∧ k ≤ g.lat.length)
    (he : ∀ a b, hz = some a → hm = some b → a = b) : loadedHalo (extG hz hm g) d = some (extD hz hm d) := by
  unfold loadedHalo
  rw [if_pos]
  · cases hz with
    | none =>
      cases hm with
      | none => simp [extG, extD, extX, extY]
      | some b =>
        have hb := (h2 b rfl).1
        have := dataHalo_ext (z := false) (m := true) (h := b) (hz := none) (hm := none) (by simp) (fun _ => rfl) hf
        simp only [after, if_true, Bool.false_eq_true, if_false] at this
        have e : extD none none d = d := rfl
        rw [e] at this
        simpa [extG, hb, Nat.pos_of_ne_zero (by omega : b ≠ 0)] using this
    | some a =>
      have ha := (h1 a rfl).1
      cases hm with
      | none =>
        have := dataHalo_ext (z := true) (m := false) (h := a) (hz := none) (hm := none) (fun _ => rfl) (by simp) hf
        simp only [after, if_true, Bool.false_eq_true, if_false] at this
        have e : extD none none d = d := rfl
        rw [e] at this
        simpa [extG, Nat.pos_of_ne_zero (by omega : a ≠ 0)] using this
      | some b =>
        have hab := he a b rfl rfl
        subst hab
        have := dataHalo_ext (z := true) (m := true) (h := a) (hz := none) (hm := none) (fun _ => rfl) (fun _ => rfl) hf
        simp only [after, if_true] at this
        have e : extD none none d = d := rfl
        rw [e] at this
        simpa [extG, Nat.pos_of_ne_zero (by omega : a ≠ 0)] using this
  · refine ⟨?_, ?_⟩
    · simp only [extG]
      rw [extAxis_length h2, hf.1]
    · rw [List.all_eq_true]
      intro r hr
      apply decide_eq_true
      show r.length + 2 * hz.getD 0 = (extAxis hz g.lon).length
      rw [extAxis_length h1, hf.2 r hr]

end Parcels.HaloSet
