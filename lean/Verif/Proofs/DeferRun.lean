import Verif.Spec.DeferRun
import Verif.Proofs.WholeRun4
import Verif.Proofs.GridRun3
import Verif.Props.NextInput

namespace Parcels.DeferRun

open GridRun (Fld Prog Body Hint)
open WholeRun
open Recovery (TP)
open Schedule (Args Ext After AfterExt NotBefore NB)

variable {V V' : Type}

/-! ### Particles without some of their variables -/

def mapP (π : V' → V) (q : TP V') : TP V := (q.1, { q.2 with vars := π q.2.vars })

def mapO (π : V' → V) (p : Output.P V') : Output.P V := ⟨p.id, p.time, p.dt, p.deleted, π p.vals⟩

def mapS (π : V' → V) (s : St V') : St V :=
  ⟨s.sched, s.ps.map (mapP π), s.file, s.outs.map fun o => ⟨o.time, o.data.map (mapO π), o.once.map (mapO π)⟩⟩

theorem view_map (π : V' → V) (q : TP V') : view (mapP π q) = mapO π (view q) := rfl

theorem filter_map {α β : Type} (g : α → β) (p : β → Bool) (l : List α) : (l.map g).filter p = (l.filter fun x => p (g x)).map g := by
  rw [List.filter_map]; rfl

theorem maxWith_map (π : V' → V) (m : ℤ) (l : List (Output.P V')) : Output.maxWith m (l.map (mapO π)) = Output.maxWith m l := by
  unfold Output.maxWith
  rw [List.foldl_map]
  rfl

theorem toDict_map (π : V' → V) (file : Output.PFile) (ps : List (Output.P V')) (t : ℚ) :
    Output.toDict file (ps.map (mapO π)) t .regular =
      (Output.toDict file ps t .regular).map fun r => (r.1, r.2.1.map (mapO π), r.2.2.map (mapO π)) := by
  have e1 : ∀ p : Output.P V', Output.toWrite (mapO π p) t = Output.toWrite p t := fun _ => rfl
  have e2 : ∀ p : Output.P V', Output.started (mapO π p) t = Output.started p t := fun _ => rfl
  have e3 : ∀ p : Output.P V', Output.badTime (mapO π p) t = Output.badTime p t := fun _ => rfl
  have e4 : ∀ p : Output.P V', (mapO π p).id = p.id := fun _ => rfl
  have hc : Output.choose (ps.map (mapO π)) t .regular =
      ((Output.choose ps t .regular).1.map (mapO π), (Output.choose ps t .regular).2) := by
    unfold Output.choose
    dsimp only
    rw [filter_map, List.any_map]
    simp only [e1]
    rfl
  have hw : Output.warnRaises (ps.map (mapO π)) ((Output.choose ps t .regular).1.map (mapO π)) t = Output.warnRaises ps (Output.choose ps t .regular).1 t := by
    unfold Output.warnRaises
    rw [List.any_map, List.length_map, List.length_map]
    rfl
  unfold Output.toDict
  rw [hc]
  dsimp only
  rw [hw]
  by_cases c1 : file.lasttime ≠ some t ∧ (file.writeOndelete = false ∨ Output.Req.regular ≠ .regular)
  · rw [if_pos c1, if_pos c1]
    by_cases c2 : ps.isEmpty = true
    · rw [if_pos c2, if_pos (by rw [List.isEmpty_map]; exact c2)]
      rfl
    · rw [if_neg c2, if_neg (by rw [List.isEmpty_map]; exact c2)]
      by_cases c3 : Output.warnRaises ps (Output.choose ps t .regular).1 t = true
      · rw [if_pos c3, if_pos c3]; rfl
      · rw [if_neg c3, if_neg c3]
        rw [filter_map]
        simp only [e1, e2, e4]
        cases (Output.choose ps t .regular).2 <;> by_cases c4 : file.hasOnce = true <;>
          simp [c4, maxWith_map, Function.comp_def, e4]
  · rw [if_neg c1, if_neg c1]; rfl

theorem write_map (π : V' → V) (hasFile : Bool) (s : St V') (t : ℚ) : write hasFile (mapS π s) t = (write hasFile s t).map (mapS π) := by
  cases hasFile with
  | false => rfl
  | true =>
    unfold write
    simp only [cond_true]
    have : (mapS π s).ps.map view = (s.ps.map view).map (mapO π) := by
      simp only [mapS, List.map_map, Function.comp_def, view_map]
    rw [this, show (mapS π s).file = s.file from rfl, toDict_map]
    cases Output.toDict s.file (s.ps.map view) t .regular with
    | none => rfl
    | some r =>
      simp only [Option.map_some, mapS, List.map_append]
      rfl

end Parcels.DeferRun
