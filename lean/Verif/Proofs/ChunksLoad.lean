import Verif.Proofs.ChunksCell

/-!
Lemmas for C48: load states over a history.
-/

namespace Parcels.Chunks

variable {α : Type}

/-- What an evaluation can do to load states. -/
def Moved (load load' : List Nat) : Prop :=
  load'.length = load.length ∧
    ∀ (b s s' : Nat), load[b]? = some s → load'[b]? = some s' → s' = s ∨ (s < 2 ∧ s' = 1) ∨ (2 ≤ s ∧ s' = 2)

theorem moved_refl (load : List Nat) : Moved load load :=
  ⟨rfl, fun b s s' h h' => by rw [h] at h'; exact .inl (Option.some.inj h').symm⟩

theorem moved_trans {a b c : List Nat} (h : Moved a b) (h' : Moved b c) : Moved a c := by
  refine ⟨h'.1.trans h.1, fun k s s' hs hs' => ?_⟩
  obtain ⟨x, hx⟩ := getElem?_of_length h.1 hs
  have := h.2 k s x hs hx
  have := h'.2 k x s' hx hs'
  omega

theorem access_moved (load load' : List Nat) (bid : ℤ) (r : Bool) (h : access load bid = some (load', r)) : Moved load load' := by
  unfold access at h
  cases hs : at? load bid with
  | none => rw [hs] at h; cases h
  | some s =>
    rw [hs] at h
    simp only at h
    have hb : load[bid.toNat]? = some s := by
      unfold at? at hs
      split at hs
      · cases hs
      · exact hs
    obtain ⟨hlt, _⟩ := List.getElem?_eq_some_iff.mp hb
    have key : ∀ v, (s < 2 ∧ v = 1 ∨ 2 ≤ s ∧ v = 2) → Moved load (load.set bid.toNat v) := by
      intro v hv
      refine ⟨by simp, fun c x x' hx hx' => ?_⟩
      by_cases hc : c = bid.toNat
      · rw [hc] at hx hx'
        rw [List.getElem?_set_self hlt] at hx'
        rw [hb] at hx
        have e := Option.some.inj hx
        have e' := Option.some.inj hx'
        omega
      · rw [List.getElem?_set_ne (Ne.symm hc), hx] at hx'
        exact .inl (Option.some.inj hx').symm
    split at h
    · rename_i h2
      simp only [Option.some.injEq, Prod.mk.injEq] at h
      rw [← h.1]
      exact key 1 (.inl ⟨h2, rfl⟩)
    · rename_i h2
      simp only [Option.some.injEq, Prod.mk.injEq] at h
      rw [← h.1]
      exact key 2 (.inr ⟨by omega, rfl⟩)

/-- The load states of an outcome. -/
def Out.load? : Out α → Option (List Nat)
  | .undef => none
  | .rep l => some l
  | .ok l _ => some l

theorem gather_moved (info : List Nat) (chunks : List (Option (List α))) (index : List ℤ) (ti : ℤ) :
    ∀ (todo : List (ℤ × List ℤ)) (load : List Nat) (cell : List α) (l : List Nat),
    (gather info chunks index ti todo load cell).load? = some l → Moved load l
  | [], load, cell, l, h => by
    simp only [gather, Out.load?, Option.some.injEq] at h
    rw [← h]
    exact moved_refl load
  | s :: todo, load, cell, l, h => by
    unfold gather at h
    simp only at h
    cases ha : access load (getBlock info (List.zipWith (· + ·) index s.2)).id with
    | none => rw [ha] at h; cases h
    | some r =>
      obtain ⟨load', b⟩ := r
      have hm := access_moved _ _ _ _ ha
      rw [ha] at h
      cases b with
      | false =>
        simp only [Out.load?, Option.some.injEq] at h
        rw [← h]
        exact hm
      | true =>
        simp only at h
        cases hd : chunkDims info (getBlock info (List.zipWith (· + ·) index s.2)).block with
        | none => rw [hd] at h; cases h
        | some ds =>
          rw [hd] at h
          simp only at h
          cases hr : readAt chunks (getBlock info (List.zipWith (· + ·) index s.2)).id ds (ti + s.1)
              (getBlock info (List.zipWith (· + ·) index s.2)).loc with
          | none => rw [hr] at h; cases h
          | some a =>
            rw [hr] at h
            exact moved_trans hm (gather_moved info chunks index ti todo load' _ l h)

theorem getCell_moved (info : List Nat) (chunks : List (Option (List α))) (load : List Nat) (index : List ℤ) (ti : ℤ) (f : Bool)
    (l : List Nat) (h : (getCell info chunks load index ti f).load? = some l) : Moved load l := by
  unfold getCell at h
  simp only at h
  cases ha : access load (getBlock info index).id with
  | none => rw [ha] at h; cases h
  | some r =>
    obtain ⟨load', b⟩ := r
    have hm := access_moved _ _ _ _ ha
    rw [ha] at h
    cases b with
    | false =>
      simp only [Out.load?, Option.some.injEq] at h
      rw [← h]
      exact hm
    | true =>
      simp only at h
      cases hd : chunkDims info (getBlock info index).block with
      | none => rw [hd] at h; cases h
      | some ds =>
        rw [hd] at h
        simp only at h
        split at h
        · exact moved_trans hm (gather_moved _ _ _ _ _ _ _ _ h)
        · split at h
          · cases h
          · simp only [Out.load?, Option.some.injEq] at h
            rw [← h]
            exact hm

theorem evalField_moved (s : Sys α) (a : Access) (l : List Nat) (h : (evalField s a).load? = some l) : Moved s.load l := by
  unfold evalField at h
  split at h
  · cases h
  · exact getCell_moved _ _ _ _ _ _ _ h

/-- Holds at all times. -/
structure Inv (axes : List (List Nat)) (running : Bool) (s : Sys α) : Prop where
  ax : s.axes = axes
  len : s.load.length = nparts axes
  le : ∀ (b x : Nat), s.load[b]? = some x → x ≤ 3
  clen : ∀ f ∈ s.fields, f.chunks.length = nparts axes
  data : ∀ f ∈ s.fields, ∀ (b x : Nat), s.load[b]? = some x → 2 ≤ x →
    (f.chunks[b]? = some none ∧ ¬ (running = true ∧ f.used = true)) ∨ f.chunks[b]? = some (some (loadBlock axes f.data b))

theorem inv_setup (axes : List (List Nat)) (fs : List (Bool × Data α)) : Inv axes false (setup axes fs) := by
  have hl : ∀ (b x : Nat), (setup axes fs).load[b]? = some x → x = 0 := by
    intro b x h
    unfold setup at h
    simp only [List.getElem?_replicate] at h
    split at h
    · exact (Option.some.inj h).symm
    · cases h
  refine ⟨rfl, by simp [setup], fun b x h => by rw [hl b x h]; omega, ?_, fun f _ b x h h2 => by rw [hl b x h] at h2; omega⟩
  intro f hf
  unfold setup at hf
  simp only [List.mem_map] at hf
  obtain ⟨g, _, rfl⟩ := hf
  simp

theorem map_get {l : List Nat} {g : Nat → Nat} {b x : Nat} (h : (l.map g)[b]? = some x) : ∃ y, l[b]? = some y ∧ g y = x := by
  rw [List.getElem?_map] at h
  cases hy : l[b]? with
  | none => rw [hy] at h; cases h
  | some y => rw [hy] at h; exact ⟨y, rfl, Option.some.inj h⟩

theorem inv_markOld {axes : List (List Nat)} {r : Bool} {s : Sys α} (h : Inv axes r s) : Inv axes false (markOld s) := by
  refine ⟨h.ax, by simpa [markOld] using h.len, ?_, h.clen, ?_⟩
  · intro b x hx
    obtain ⟨y, hy, e⟩ := map_get hx
    have := h.le b y hy
    split at e <;> omega
  · intro f hf b x hx h2
    obtain ⟨y, hy, e⟩ := map_get hx
    have hy2 : 2 ≤ y := by split at e <;> omega
    rcases h.data f hf b y hy hy2 with ⟨h1, _⟩ | h1
    · exact .inl ⟨h1, by simp⟩
    · exact .inr h1

theorem inv_snapshot {axes : List (List Nat)} {r : Bool} {s : Sys α} (h : Inv axes r s) (new : List (Data α)) :
    Inv axes false (snapshot new s) := by
  have hl : ∀ (b x : Nat), (snapshot new s).load[b]? = some x → x ≤ 1 := by
    intro b x hx
    obtain ⟨y, hy, e⟩ := map_get hx
    obtain ⟨z, hz, e'⟩ := map_get hy
    have := h.le b z hz
    split at e <;> split at e' <;> omega
  refine ⟨h.ax, by simpa [snapshot] using h.len, fun b x hx => by have := hl b x hx; omega, ?_, ?_⟩
  · intro f hf
    unfold snapshot at hf
    simp only at hf
    rw [List.mem_iff_getElem] at hf
    obtain ⟨n, hn, rfl⟩ := hf
    rw [List.length_zipWith] at hn
    rw [List.getElem_zipWith]
    exact h.clen (s.fields[n]'(by omega)) (List.getElem_mem (by omega))
  · intro f _ b x hx h2
    have := hl b x hx
    omega

theorem inv_use {axes : List (List Nat)} {r : Bool} {s : Sys α} (h : Inv axes r s) (used : List Bool) :
    Inv axes false (useFields used s) := by
  have hmem : ∀ f ∈ (useFields used s).fields, ∃ g ∈ s.fields, f.chunks = g.chunks ∧ f.data = g.data := by
    intro f hf
    unfold useFields at hf
    simp only at hf
    rw [List.mem_iff_getElem] at hf
    obtain ⟨n, hn, rfl⟩ := hf
    rw [List.length_zipWith] at hn
    rw [List.getElem_zipWith]
    exact ⟨_, List.getElem_mem (by omega), rfl, rfl⟩
  refine ⟨h.ax, h.len, h.le, ?_, ?_⟩
  · intro f hf
    obtain ⟨g, hg, e, _⟩ := hmem f hf
    rw [e]
    exact h.clen g hg
  · intro f hf b x hx h2
    obtain ⟨g, hg, e, e'⟩ := hmem f hf
    rw [e, e']
    rcases h.data g hg b x hx h2 with ⟨h1, _⟩ | h1
    · exact .inl ⟨h1, by simp⟩
    · exact .inr h1

theorem inv_prepare {axes : List (List Nat)} {r : Bool} {s : Sys α} (h : Inv axes r s) : Inv axes true (prepare s) := by
  refine ⟨h.ax, by simpa [prepare] using h.len, ?_, ?_, ?_⟩
  · intro b x hx
    obtain ⟨y, hy, e⟩ := map_get hx
    have := h.le b y hy
    split at e <;> omega
  · intro f hf
    unfold prepare at hf
    simp only [List.mem_map] at hf
    obtain ⟨g, hg, rfl⟩ := hf
    have := h.clen g hg
    split <;> simp [chunkData, this]
  · intro f hf b x hx h2
    obtain ⟨y, hy, e⟩ := map_get hx
    have hle := h.le b y hy
    have hb : b < nparts axes := by
      obtain ⟨hlt, _⟩ := List.getElem?_eq_some_iff.mp hy
      rw [h.len] at hlt
      exact hlt
    unfold prepare at hf
    simp only [List.mem_map] at hf
    obtain ⟨g, hg, rfl⟩ := hf
    have hcl := h.clen g hg
    by_cases hu : g.used = true
    · rw [if_pos hu]
      right
      simp only
      unfold chunkData
      have hgb : g.chunks[b]? = some g.chunks[b] := List.getElem?_eq_getElem (by omega)
      rw [List.getElem?_map, List.getElem?_zipIdx, hgb]
      simp only [Option.map_some, Nat.zero_add, Option.some.injEq]
      have hld : s.load.getD b 0 = y := by rw [List.getD_eq_getElem?_getD, hy]; rfl
      rw [hld, h.ax]
      by_cases h1 : y = 1
      · rw [if_pos (.inl h1)]
      · have hy2 : 2 ≤ y := by rw [if_neg h1] at e; omega
        rcases h.data g hg b y hy hy2 with ⟨hn, _⟩ | hd
        · rw [hgb] at hn
          rw [if_pos (.inr ⟨by omega, by rw [Option.some.inj hn]; rfl⟩)]
        · rw [hgb] at hd
          have hd' := Option.some.inj hd
          rw [hd', if_neg (by
            rintro (h' | ⟨_, h'⟩)
            · exact h1 h'
            · cases h'), if_neg (by omega)]
    · rw [if_neg hu]
      left
      refine ⟨?_, fun hc => hu hc.2⟩
      simp only [List.getElem?_map]
      rw [List.getElem?_eq_getElem (by omega)]
      rfl

theorem inv_moved {axes : List (List Nat)} {s : Sys α} (h : Inv axes true s) {l : List Nat} (hm : Moved s.load l) :
    Inv axes true { s with load := l } := by
  refine ⟨h.ax, hm.1.trans h.len, ?_, h.clen, ?_⟩
  · intro b x hx
    obtain ⟨y, hy⟩ := getElem?_of_length hm.1.symm hx
    have := h.le b y hy
    have := hm.2 b y x hy hx
    omega
  · intro f hf b x hx h2
    obtain ⟨y, hy⟩ := getElem?_of_length hm.1.symm hx
    have := hm.2 b y x hy hx
    exact h.data f hf b y hy (by omega)

theorem reach_inv {axes : List (List Nat)} {fs : List (Bool × Data α)} {r : Bool} {s : Sys α} (h : Reach axes fs r s) :
    Inv axes r s := by
  induction h with
  | start => exact inv_setup axes fs
  | execute _ ih => exact inv_markOld ih
  | call _ ih => exact inv_prepare ih
  | ok _ he ih => exact inv_moved ih (evalField_moved _ _ _ (by rw [he]; rfl))
  | rep _ he ih => exact inv_moved ih (evalField_moved _ _ _ (by rw [he]; rfl))
  | snapshot _ _ ih => exact inv_snapshot ih _
  | use _ _ ih => exact inv_use ih _

theorem reach_inMemory {axes : List (List Nat)} {fs : List (Bool × Data α)} {s : Sys α} (h : Reach axes fs true s)
    (f : FieldSt α) (hf : f ∈ s.fields) (hu : f.used = true) : InMemory axes f.data s.load f.chunks := by
  have hi := reach_inv h
  refine ⟨hi.len, hi.clen f hf, fun b x hx h2 => ?_⟩
  rcases hi.data f hf b x hx h2 with ⟨_, h1⟩ | h1
  · exact absurd ⟨rfl, hu⟩ h1
  · exact h1

end Parcels.Chunks
