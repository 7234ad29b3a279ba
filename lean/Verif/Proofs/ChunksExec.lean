import Verif.Proofs.JitExec2
import Verif.Proofs.ChunksLoad

/-!
Lemmas for C48: kernels that sample fields with chunks.
-/

namespace Parcels.JitExec

open KernelLoop (Particle Kern KOut KRes Call)
open Chunks (Sys FieldSt Data Inv Copes evalField prepare markOld Moved)

variable {α V : Type}

/-- Number of chunks that are not loaded. -/
def absent (s : Sys α) : Nat := s.load.countP (· < 2)

/-- Some chunk is requested. -/
def asked (s : Sys α) : Prop := ∃ b : Nat, s.load[b]? = some 1

/-- While the C code runs: the invariant, and which fields there are. -/
def Running (axes : List (List Nat)) (fs : List (Bool × Data α)) (s : Sys α) : Prop :=
  Inv axes true s ∧ s.fields.map (fun f => (f.used, f.data)) = fs

theorem absent_moved {s s' : Sys α} (h : Moved s.load s'.load) : absent s' = absent s := by
  unfold absent
  have hmap : s'.load.map (fun x => decide (x < 2)) = s.load.map (fun x => decide (x < 2)) := by
    apply List.ext_getElem
    · simp [h.1]
    · intro i h1 h2
      simp only [List.length_map] at h1 h2
      simp only [List.getElem_map, decide_eq_decide]
      have := h.2 i _ _ (List.getElem?_eq_getElem h2) (List.getElem?_eq_getElem h1)
      omega
  have hc : ∀ l : List Nat, l.countP (· < 2) = (l.map (fun x => decide (x < 2))).countP id := by
    intro l
    rw [List.countP_map]
    rfl
  rw [hc, hc, hmap]

theorem asked_moved {s s' : Sys α} (h : Moved s.load s'.load) (ha : asked s) : asked s' := by
  obtain ⟨b, hb⟩ := ha
  obtain ⟨x, hx⟩ := Chunks.getElem?_of_length h.1 hb
  have := h.2 b 1 x hb hx
  refine ⟨b, ?_⟩
  rw [hx]
  congr 1
  omega

theorem count_prepare (l : List Nat) :
    (l.map fun x => if x = 1 then 2 else x).countP (· < 2) ≤ l.countP (· < 2) ∧
    (1 ∈ l → (l.map fun x => if x = 1 then 2 else x).countP (· < 2) < l.countP (· < 2)) := by
  induction l with
  | nil => simp
  | cons x l ih =>
    obtain ⟨h1, h2⟩ := ih
    simp only [List.map_cons, List.countP_cons]
    by_cases hx : x = 1
    · subst hx
      simp only [if_true]
      constructor
      · simp [-List.countP_map]; omega
      · intro _; simp [-List.countP_map]; omega
    · rw [if_neg hx]
      refine ⟨by omega, fun hm => ?_⟩
      rcases List.mem_cons.mp hm with h | h
      · exact absurd h.symm hx
      · have := h2 h
        omega

theorem absent_prepare (s : Sys α) : absent (prepare s) ≤ absent s ∧ (asked s → absent (prepare s) < absent s) := by
  obtain ⟨h1, h2⟩ := count_prepare s.load
  exact ⟨h1, fun ⟨b, hb⟩ => h2 (List.mem_of_getElem? hb)⟩

theorem running_prepare {axes : List (List Nat)} {fs : List (Bool × Data α)} {r : Bool} {s : Sys α} (h : Inv axes r s)
    (hf : s.fields.map (fun f => (f.used, f.data)) = fs) : Running axes fs (prepare s) := by
  refine ⟨Chunks.inv_prepare h, ?_⟩
  rw [← hf]
  unfold prepare
  simp only [List.map_map]
  apply List.map_congr_left
  intro f _
  simp only [Function.comp]
  split <;> rfl

theorem inMemory {axes : List (List Nat)} {s : Sys α} (h : Inv axes true s) (f : FieldSt α) (hf : f ∈ s.fields)
    (hu : f.used = true) : Chunks.InMemory axes f.data s.load f.chunks := by
  refine ⟨h.len, h.clen f hf, fun b x hx h2 => ?_⟩
  rcases h.data f hf b x hx h2 with ⟨_, h1⟩ | h1
  · exact absurd ⟨rfl, hu⟩ h1
  · exact h1

theorem run_spec {axes : List (List Nat)} (hc : Copes axes) {fs : List (Bool × Data α)} {p : Particle V} {prog : Prog α V}
    {out : KOut V} (h : Ideal axes fs p prog out) : ∀ s : Sys α, Running axes fs s →
    Running axes fs (run prog s).1 ∧ Moved s.load (run prog s).1.load ∧
    ((run prog s).2 = out ∨ Repeated p (run prog s).2 ∧ asked (run prog s).1) := by
  induction h with
  | done out => intro s hs; exact ⟨hs, Chunks.moved_refl _, .inl rfl⟩
  | @sample now field d idx ti first next out h0 h1 h2 h3 h4 ih =>
    intro s hs
    obtain ⟨hi, hf⟩ := hs
    have hfd : ∃ f, s.fields[field]? = some f ∧ f.used = true ∧ f.data = d := by
      rw [← hf, List.getElem?_map] at h1
      cases hx : s.fields[field]? with
      | none => rw [hx] at h1; cases h1
      | some f =>
        rw [hx] at h1
        have := Option.some.inj h1
        simp only [Prod.mk.injEq] at this
        exact ⟨f, rfl, this.1, this.2⟩
    obtain ⟨f, hf1, hf2, rfl⟩ := hfd
    have hm := inMemory hi f (List.mem_of_getElem? hf1) hf2
    have hr := Chunks.getCell_right hc h2 f.data s.load f.chunks hm ti first h3
    have he : evalField s ⟨field, idx.map fun (n : Nat) => (n : ℤ), (ti : ℤ), first⟩ =
        Chunks.getCell (Chunks.chunkInfo axes) f.chunks s.load (idx.map fun (n : Nat) => (n : ℤ)) (ti : ℤ) first := by
      unfold evalField
      rw [hf1, hi.ax]
    have hmv := Chunks.evalField_moved s ⟨field, idx.map fun (n : Nat) => (n : ℤ), (ti : ℤ), first⟩
    rw [he] at hmv
    rcases hr with ⟨load', e1, _, _⟩ | ⟨load', b, n, e1, _, _, e4⟩
    · have hmv' := hmv load' (by rw [e1]; rfl)
      have hrun : run (.sample now ⟨field, idx.map fun (n : Nat) => (n : ℤ), (ti : ℤ), first⟩ next) s =
          run (next (Chunks.cellData axes f.data idx ti first)) { s with load := load' } := by
        conv_lhs => unfold run
        rw [he, e1]
      rw [hrun]
      obtain ⟨g1, g2, g3⟩ := ih { s with load := load' } ⟨Chunks.inv_moved hi hmv', hf⟩
      exact ⟨g1, Chunks.moved_trans hmv' g2, g3⟩
    · have hmv' := hmv load' (by rw [e1]; rfl)
      have hrun : run (.sample now ⟨field, idx.map fun (n : Nat) => (n : ℤ), (ti : ℤ), first⟩ next) s =
          ({ s with load := load' }, ⟨now, none, .ret (some .repeat)⟩) := by
        conv_lhs => unfold run
        rw [he, e1]
      rw [hrun]
      exact ⟨⟨Chunks.inv_moved hi hmv', hf⟩, hmv', .inr ⟨⟨h0, rfl, rfl⟩, b, e4.2.2.1⟩⟩

theorem chunk_answers {axes : List (List Nat)} (hc : Copes axes) {fs : List (Bool × Data α)} {G : Particle V → Prog α V}
    {P : Particle V → KOut V} (hG : ∀ p, Ideal axes fs p (G p) (P p)) : Answers (kern G) P (Running axes fs) asked absent where
  inv w p h := (run_spec hc (hG p) w h).1
  res w p h := (run_spec hc (hG p) w h).2.2
  keep w p h := asked_moved (run_spec hc (hG p) w h).2.1
  le w p h := (absent_moved (run_spec hc (hG p) w h).2.1).le

end Parcels.JitExec
