import Verif.Proofs.Metadata

/-!
C130: metadata of output files.
-/

namespace Parcels.Metadata

/-- C130: when a `ParticleFile` into which something was written is closed, each name has the last message given for it, before or after the writing, and the other
attributes are the standard ones. -/
theorem C130_close (a b : String) (h : List Op) (hx : .export ∉ h) (hw : .write ∈ h) :
    ∃ f, (run a b (h ++ [.export])).file = some f ∧ (∀ n v, Last h n v → f n = some v) ∧ ∀ n, Never h n → f n = standard a b n := by
  obtain ⟨-, h2, h3⟩ := run_messages a b h hx
  obtain ⟨d, hd⟩ := Option.isSome_iff_exists.1 (saved_some a b h hw)
  refine ⟨attributes a b (run a b h).metadata, ?_, ?_, ?_⟩
  · rw [run_snoc]
    simp [step, hd]
  · intro n v hl
    exact attributes_last _ _ _ _ _ (h2 n v hl)
  · intro n hn
    exact attributes_never _ _ _ _ (h3 n hn)

/-- C130: a file that the script makes afterwards has the messages given before the last writing. Partial: those given later are not in it
(`C130_script_fails`). -/
theorem C130_script_partial (a b : String) (h h2 : List Op) (hx : .export ∉ h) (h2x : .export ∉ h2) (h2w : .write ∉ h2) :
    ∃ f, convert a b (run a b (h ++ .write :: h2)) = some f ∧ (∀ n v, Last h n v → f n = some v) ∧ ∀ n, Never h n → f n = standard a b n := by
  obtain ⟨-, k2, k3⟩ := run_messages a b h hx
  refine ⟨attributes a b (run a b h).metadata, ?_, ?_, ?_⟩
  · rw [convert, run_saved a b h hx h2 h2x h2w]
    rfl
  · intro n v hl
    exact attributes_last _ _ _ _ _ (k2 n v hl)
  · intro n hn
    exact attributes_never _ _ _ _ (k3 n hn)

/-- C130 is false for the script: a message that is given after the last writing is in the file that `close` makes, but not in that of the script. -/
theorem C130_script_fails (a b : String) : Last [.write, .add "author" "N. N."] "author" "N. N." ∧
    ((run a b [.write, .add "author" "N. N.", .export]).file.bind fun f => f "author") = some "N. N." ∧
    ((convert a b (run a b [.write, .add "author" "N. N."])).bind fun f => f "author") = none := by
  refine ⟨⟨[.write], [], rfl, by simp⟩, ?_, ?_⟩
  · simp [run, step, new, attributes, set]
  · simp [convert, run, step, new, attributes, standard, set]

/-- C130 is false after the export: metadata are refused, and a further export does not have them either. -/
theorem C130_after_fails (a b n v : String) (h : List Op) (hx : .export ∉ h) (hw : .write ∈ h) :
    (step a b (run a b (h ++ [.export])) (.add n v)).2 = false ∧
    (run a b (h ++ [.export, .add n v, .export])).file = (run a b (h ++ [.export])).file := by
  obtain ⟨d, hd⟩ := Option.isSome_iff_exists.1 (saved_some a b h hw)
  have e : h ++ [.export, .add n v, .export] = ((h ++ [.export]) ++ [.add n v]) ++ [.export] := by simp
  rw [e]
  simp only [run_snoc]
  simp [step, hd]

/-- Two messages under one name, before and after the writing; the version can be overwritten. -/
example : ((run "2.3" "flat" [.add "author" "A", .add "run" "1", .write, .add "author" "B", .write, .export]).file.map fun f =>
    [f "author", f "run", f "parcels_version", f "parcels_mesh", f "title"]) = some [some "B", some "1", some "2.3", some "flat", none] ∧
    ((convert "2.3" "flat" (run "2.3" "flat" [.add "parcels_version" "mine", .write])).map fun f => f "parcels_version") = some (some "mine") ∧
    (run "2.3" "flat" [.add "author" "A", .export]).file.isNone = true := by decide +kernel

example : Last [.add "author" "A", .write, .add "author" "B", .write] "author" "B" := ⟨[.add "author" "A", .write], [.write], rfl, by simp⟩

end Parcels.Metadata
