import Verif.Model.Output

/-!
Vocabulary for C18-C20, C62 and C63.
-/

namespace Parcels.Output

variable {V : Type}

/-- The (output time, particle) pairs for which a record is stored, in order of writing. -/
def recordKeys (outs : List (Out V)) : List (ℚ × ℤ) :=
  outs.flatMap fun o => o.data.map fun p => (o.time, p.id)

/-- All records / all 'once' records, in order of writing. -/
def allData (outs : List (Out V)) : List (P V) := outs.flatMap (·.data)
def allOnce (outs : List (Out V)) : List (P V) := outs.flatMap (·.once)

/-- The calls the library makes: regular writes, and writes of a mask of particles about to be removed. -/
def LibraryCall (e : Event V) : Prop :=
  e.req = .regular ∨ ∃ m, e.req = .mask m ∧ m.length = e.ps.length

/-- IDs of the particles that a call says are being deleted. -/
def deletedIDs (e : Event V) : List ℤ :=
  match e.req with
  | .mask m => (byMask e.ps m).map (·.id)
  | _ => []

/-- A run: the output times run in one direction (`s = 1` forward, `s = -1` backward), IDs are unique in
each particle set, deleted particles do not come back. -/
structure IsRun (s : ℚ) (es : List (Event V)) : Prop where
  lib : ∀ e ∈ es, LibraryCall e
  mono : es.Pairwise fun a b => s * a.time ≤ s * b.time
  unique : ∀ e ∈ es, (e.ps.map (·.id)).Nodup
  gone : es.Pairwise fun a b => ∀ i ∈ deletedIDs a, i ∉ b.ps.map (·.id)

/-- Active at the output time: the particle's own time is within half a time step, and it has started. -/
def active (p : P V) (T : ℚ) : Prop :=
  ∃ t, p.time = some t ∧ T - |p.dt| / 2 ≤ t ∧ t ≤ T + |p.dt| / 2 ∧
    (p.dt * t ≤ p.dt * T ∨ |t - T| ≤ 1 / 100000000 + 1 / 100000 * |T|)

instance (p : P V) (T : ℚ) : Decidable (active p T) :=
  match h : p.time with
  | none => isFalse (by rintro ⟨t, ht, _⟩; rw [h] at ht; cases ht)
  | some t => decidable_of_iff (T - |p.dt| / 2 ≤ t ∧ t ≤ T + |p.dt| / 2 ∧
      (p.dt * t ≤ p.dt * T ∨ |t - T| ≤ 1 / 100000000 + 1 / 100000 * |T|)) (by
        constructor
        · intro hh; exact ⟨t, h, hh⟩
        · rintro ⟨t', ht', hh⟩; rw [h] at ht'; injection ht' with ht'; subst ht'; exact hh)

/-- The calls that are not ignored: a call at the time of the last regular write is ignored. -/
def effective (last : Option ℚ) : List (Event V) → List (Event V)
  | [] => []
  | e :: es =>
    if last = some e.time then effective last es
    else e :: effective (if e.req = .regular then some e.time else last) es

end Parcels.Output
