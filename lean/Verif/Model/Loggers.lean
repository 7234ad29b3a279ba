import Mathlib.Data.List.Induction

/-!
Model of the messages of parcels: `logger.warning_once`, `logger.info_once` and the filter for repeated messages (parcels/tools/loggers.py).

Simplifications: the logger is not disabled, no other filters or handlers are added, and the level of the root logger does not matter (the level of the logger of parcels is set).
-/

namespace Parcels.Loggers

/-- `warning_once_level`. Models: tools/loggers.py:6. -/
def warningOnceLevel : Nat := 25

/-- `info_once_level`. Models: tools/loggers.py:7. -/
def infoOnceLevel : Nat := 26

/-- A record: its level, the message and its arguments. Models: tools/loggers.py:16-20 (what the filter reads). -/
structure Rec where
  level : Nat
  msg : String
  args : List String
deriving DecidableEq, Repr

/-- What a program does with the logger: set its level; log a message at some level; `warning_once`; `info_once`. Models: tools/loggers.py:23-48. -/
inductive Op where
  | setLevel (n : Nat)
  | log (level : Nat) (msg : String) (args : List String)
  | warningOnce (msg : String) (args : List String)
  | infoOnce (msg : String) (args : List String)
deriving DecidableEq, Repr

/-- The level of the logger, and the messages in the filter. Models: tools/loggers.py:13-14, 46-48. -/
structure State where
  level : Nat
  msgs : List String

/-- The logger after the import. Models: tools/loggers.py:46-48. -/
def init : State := ⟨10, []⟩

/-- `DuplicateFilter.filter`: is the record shown, and the messages afterwards. Models: tools/loggers.py:16-20. -/
def filter (msgs : List String) (r : Rec) : Bool × List String :=
  (!msgs.contains r.msg, if r.level = warningOnceLevel ∨ r.level = infoOnceLevel then r.msg :: msgs else msgs)

/-- `isEnabledFor` and `_log`. Models: tools/loggers.py:23-32; the module logging of Python for other levels. -/
def emit (s : State) (r : Rec) : State × Option Rec :=
  if s.level ≤ r.level then ({ s with msgs := (filter s.msgs r).2 }, if (filter s.msgs r).1 then some r else none) else (s, none)

/-- One call: the state afterwards, and what is shown. Models: tools/loggers.py:23-32, 48. -/
def step (s : State) : Op → State × Option Rec
  | .setLevel n => ({ s with level := n }, none)
  | .log l m a => emit s ⟨l, m, a⟩
  | .warningOnce m a => emit s ⟨warningOnceLevel, m, a⟩
  | .infoOnce m a => emit s ⟨infoOnceLevel, m, a⟩

/-- The state after a sequence of calls, and everything that was shown. Models: tools/loggers.py:16-48. -/
def run : List Op → State × List Rec
  | [] => (init, [])
  | ops => ops.foldl (fun p op => ((step p.1 op).1, p.2 ++ (step p.1 op).2.toList)) (init, [])

end Parcels.Loggers
