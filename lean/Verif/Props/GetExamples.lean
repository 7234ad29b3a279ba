import Verif.Proofs.GetExamples

/-!
C131: the examples.
-/

namespace Parcels.GetExamples

/-- C131: a run that is not interrupted, into a new directory: each listed file is there, from the package or else from the server, and the rest is that of the package.
Partial: a run after an interruption, and a second run in one process, do not complete the directory (`C131_again_fails`, `C131_second_fails`). -/
theorem C131_complete_partial (package t : Target) (server : Name → Option String) (names : List Name) (hs : Sound t) (ht : t.there = false)
    (hn : ∀ n ∈ names, package.files n ≠ none ∨ server n ≠ none) :
    (main package server names t).2.2 = true ∧
    ∀ n, (run t (main package server names t).1).files n = if n ∈ names then (package.files n).or (server n) else package.files n := by
  have hd := (hs ht).1 "MovingEddies_data"
  have hc : run t (copyEvents package t) = ⟨true, package.dirs, package.files⟩ := by rw [run_copy]; simp [ht]
  obtain ⟨s1, s2⟩ := still_mem names package.files
  obtain ⟨e1, e2⟩ := events_all server (still names package.files) (apply ⟨true, package.dirs, package.files⟩ .create) (fun n h => hn n (s2 n h))
  have e1' : (events server package.files (still names package.files)).2 = true := e1
  simp only [main, hd, Bool.false_eq_true, if_false, hc, download]
  refine ⟨e1', fun n => ?_⟩
  rw [run_append, hc, run_cons]
  refine (e2 n).trans ?_
  show (if n ∈ still names package.files then (package.files n).or (server n) else package.files n) = _
  by_cases h1 : n ∈ still names package.files
  · simp [h1, s2 n h1]
  · by_cases h2 : n ∈ names
    · cases hf : package.files n with
      | none => exact absurd (s1 n h2 hf) h1
      | some c => simp [h1, h2]
    · simp [h1, h2]

/-- C131: wherever the run is interrupted (after `k` events), files that were in the directory are unchanged, and at most one file is broken. -/
theorem C131_interrupted (package t : Target) (server : Name → Option String) (names : List Name) (hs : Sound t) (k : Nat) :
    (∀ n c, t.files n = some c → (run t ((main package server names t).1.take k)).files n = some c) ∧
    ∀ n m, Broken t package server (run t ((main package server names t).1.take k)) n →
      Broken t package server (run t ((main package server names t).1.take k)) m → n = m := by
  suffices h : ∃ b : Name, ∀ n, (run t ((main package server names t).1.take k)).files n = t.files n ∨
      (t.files n = none ∧ ((run t ((main package server names t).1.take k)).files n = package.files n ∨
        (run t ((main package server names t).1.take k)).files n = server n ∨ n = b)) by
    obtain ⟨b, hb⟩ := h
    have bad : ∀ n, Broken t package server (run t ((main package server names t).1.take k)) n → n = b := by
      rintro n ⟨c, h1, h2, h3, h4⟩
      rcases hb n with h | ⟨-, h | h | h⟩
      · exact absurd (h ▸ h1) h2
      · exact absurd (h ▸ h1) h3
      · exact absurd (h ▸ h1) h4
      · exact h
    refine ⟨fun n c hc => ?_, fun n m hn hm => (bad n hn).trans (bad m hm).symm⟩
    rcases hb n with h | ⟨h, -⟩
    · exact h.trans hc
    · simp [h] at hc
  by_cases hd : t.dirs "MovingEddies_data" = true
  · exact ⟨("", ""), fun n => Or.inl (by simp [main, hd, run])⟩
  · simp only [main, hd, if_false, download]
    cases ht : t.there with
    | true =>
      have hc : copyEvents package t = [] := by simp [copyEvents, ht]
      simp only [hc, List.nil_append]
      cases k with
      | zero => exact ⟨("", ""), fun n => Or.inl rfl⟩
      | succ k =>
        obtain ⟨b, hb⟩ := events_take server (still names t.files) (apply t .create) k
        refine ⟨b, fun n => ?_⟩
        rcases hb n with h | ⟨h, h2⟩
        · exact Or.inl h
        · exact Or.inr ⟨h, Or.inr h2⟩
    | false =>
      have hf := (hs ht).2
      have hc : copyEvents package t = [.copy package] := by simp [copyEvents, ht]
      simp only [hc, List.singleton_append]
      match k with
      | 0 => exact ⟨("", ""), fun n => Or.inl rfl⟩
      | 1 => exact ⟨("", ""), fun n => Or.inr ⟨hf n, Or.inl rfl⟩⟩
      | k + 2 =>
        obtain ⟨b, hb⟩ := events_take server (still names package.files) (apply (apply t (.copy package)) .create) k
        refine ⟨b, fun n => Or.inr ⟨hf n, ?_⟩⟩
        rcases hb n with h | ⟨-, h2⟩
        · exact Or.inl h
        · exact Or.inr h2

/-- C131: after an interruption anywhere, `download_files` for the same directory fetches all missing files; a file is then broken only if the interruption broke it.
Partial: the broken file is not repaired, and the script itself does not get as far as this call once the first folder is there (`C131_again_fails`). -/
theorem C131_again_partial (package t : Target) (server : Name → Option String) (names : List Name) (hn : ∀ n ∈ names, server n ≠ none) (k : Nat) :
    let s := run t ((main package server names t).1.take k)
    (download server names s).2 = true ∧ (∀ n ∈ names, (run s (download server names s).1).files n ≠ none) ∧
    (∀ n ∈ names, s.files n = none → (run s (download server names s).1).files n = server n) ∧
    ∀ n, Broken t package server (run s (download server names s).1) n → Broken t package server s n := by
  intro s
  obtain ⟨e1, e2⟩ := events_all server names (apply s .create) (fun n h => Or.inr (hn n h))
  have e3 : ∀ n, (run s (download server names s).1).files n = if n ∈ names then (s.files n).or (server n) else s.files n := e2
  refine ⟨e1, fun n h => ?_, fun n h hs => ?_, ?_⟩
  · rw [e3 n]
    simp [h, hn n h]
  · rw [e3 n]
    simp [h, hs]
  · rintro n ⟨c, h1, h2, h3, h4⟩
    refine ⟨c, ?_, h2, h3, h4⟩
    rw [e3 n] at h1
    split at h1
    · cases hs : s.files n with
      | none => rw [hs] at h1; exact absurd h1 h4
      | some d => rw [hs] at h1; exact h1
    · exact h1

/-- A package with one file. -/
def somePackage : Target := ⟨true, fun _ => false, fun n => if n = ("", "tutorial.ipynb") then some "t" else none⟩

/-- No directory. -/
def nothing : Target := ⟨false, fun _ => false, fun _ => none⟩

/-- Two data files. -/
def someNames : List Name := [("MovingEddies_data", "U.nc"), ("OFAM_data", "V.nc")]

/-- A server that has them. -/
def someServer : Name → Option String := fun n => if n ∈ someNames then some "data" else none

/-- C131 is false after an interruption: one file is empty, the other is missing, and neither the script nor `download_files` replaces the empty one; the script does
nothing at all. -/
theorem C131_again_fails :
    let s := run nothing ((main somePackage someServer someNames nothing).1.take 4)
    Sound nothing ∧ (∀ n ∈ someNames, someServer n ≠ none) ∧ s.files ("MovingEddies_data", "U.nc") = some "" ∧ s.files ("OFAM_data", "V.nc") = none ∧
    (main somePackage someServer someNames s).1.length = 0 ∧ (main somePackage someServer someNames s).2.2 = true ∧
    (run s (download someServer someNames s).1).files ("MovingEddies_data", "U.nc") = some "" := by
  refine ⟨fun _ => ⟨fun _ => rfl, fun _ => rfl⟩, by decide +kernel, ?_⟩
  decide +kernel

/-- C131 is false for a second directory in the same process: files that the first directory had are missing in the second, without an error. -/
theorem C131_second_fails :
    let t1 : Target := ⟨true, fun d => decide (d = "OFAM_data"), fun n => if n = ("OFAM_data", "V.nc") then some "mine" else none⟩
    let r := main somePackage someServer someNames t1
    r.2.2 = true ∧ (main somePackage someServer r.2.1 nothing).2.2 = true ∧
    (run nothing (main somePackage someServer r.2.1 nothing).1).files ("OFAM_data", "V.nc") = none ∧
    (run nothing (main somePackage someServer someNames nothing).1).files ("OFAM_data", "V.nc") = some "data" := by
  decide +kernel

/-- A whole run into a new directory. -/
example : Sound nothing ∧ nothing.there = false ∧ (∀ n ∈ someNames, somePackage.files n ≠ none ∨ someServer n ≠ none) ∧
    ([("", "tutorial.ipynb"), ("MovingEddies_data", "U.nc"), ("OFAM_data", "V.nc")].map
      (run nothing (main somePackage someServer someNames nothing).1).files) = [some "t", some "data", some "data"] :=
  ⟨fun _ => ⟨fun _ => rfl, fun _ => rfl⟩, rfl, by decide +kernel, by decide +kernel⟩

/-- One file is broken after four events, as `C131_interrupted` allows. -/
example : Broken nothing somePackage someServer (run nothing ((main somePackage someServer someNames nothing).1.take 4)) ("MovingEddies_data", "U.nc") :=
  ⟨"", by decide +kernel, by decide +kernel, by decide +kernel, by decide +kernel⟩

end Parcels.GetExamples
