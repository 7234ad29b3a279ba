import Verif.Model.Loggers

/-!
Vocabulary for C123: what has been asked for before.
-/

namespace Parcels.Loggers

/-- The level the program set last; 10 at the start. -/
def levelAfter (h : List Op) : Nat := h.foldl (fun n op => match op with | .setLevel k => k | _ => n) 10

/-- Does the call ask for the message to be shown once? At which level? -/
def Op.asksOnce (op : Op) (m : String) : Option Nat :=
  match op with
  | .warningOnce k _ => if k = m then some 25 else none
  | .infoOnce k _ => if k = m then some 26 else none
  | .log l k _ => if k = m ∧ (l = 25 ∨ l = 26) then some l else none
  | .setLevel _ => none

/-- In the history `h`, the program asked for `m` to be shown once, at a time when the level of the logger let it through. -/
def AskedOnce (h : List Op) (m : String) : Prop :=
  ∃ h1 op h2 l, h = h1 ++ op :: h2 ∧ op.asksOnce m = some l ∧ levelAfter h1 ≤ l

/-- What the call shows after the history `h`. -/
def shown (h : List Op) (op : Op) : Option Rec := (step (run h).1 op).2

end Parcels.Loggers
