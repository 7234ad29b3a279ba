import Verif.Proofs.Libs

/-!
C87: what runs is the compiled code of the Kernel that was asked for; its library and its files are cleaned up, and only its own.
-/

namespace Parcels.Libs
open Spec

/-- C87, first part. In every history (Kernels made and finalized, ParticleSets executing and dropped, compilations that fail, other processes working
in the same directory), if compiled code runs in an execution, it is the code of the Kernel that the ParticleSet now has, which is the Kernel given
to `execute` or one made from the function given to `execute`. If the ParticleSet had no Kernel, or one for another function, it is the code that was generated
from the function now. -/
theorem C87_own_code {ours : Key → Prop} {s : State} (hr : Reach ours (fun _ => True) s) {p : Nat} {a : Arg} {t1 t2 : Int} {fails : Bool}
    (ha : Allowed ours s (.exec p a t1 t2 fails)) {c : Nat} (hc : (step s (.exec p a t1 t2 fails)).2 = .ran c) :
    ∃ k kern, (step s (.exec p a t1 t2 fails)).1.psets p = some k ∧ (step s (.exec p a t1 t2 fails)).1.kernels k = some kern ∧ c = kern.code ∧
      (∀ j, a = .kernel j → k = j ∧ (s.kernels j).map (·.code) = some c) ∧
      (∀ f name code, a = .func f name code → kern.func = f ∧
        ((∀ k' kern', s.psets p = some k' → s.kernels k' = some kern' → kern'.func ≠ f) → c = code)) := by
  obtain ⟨hi, hp⟩ := inv_reach hr
  simp only [step] at hc ⊢
  rcases execute_cases hi hp ha with ⟨hn, k, kern, h1, h2, h3, h4⟩ | ⟨hn, s1, k, kern, h1, h2, h3, h4, h5, h6, h7, h8⟩
  · rw [h3] at hc ⊢
    have hcc : c = kern.code := by
      by_cases hl : kern.lib = none
      · rcases call_unloaded hi h2 hl with g | g <;> rw [g] at hc <;> cases hc
      · rw [call_loaded hi h2 hl] at hc
        simpa using hc.symm
    refine ⟨k, kern, h1, h2, hcc, ?_, ?_⟩
    · intro j hj
      rw [hj] at h4
      simp only [Asked] at h4
      rw [← h4]
      exact ⟨rfl, by rw [h2, hcc]; rfl⟩
    · intro f name code hj
      rw [hj] at h4
      exact ⟨h4, fun h => absurd h4 (h k kern h1 h2)⟩
  · rw [h7] at hc ⊢
    cases fails with
    | true => cases hc
    | false =>
      simp only [Bool.false_eq_true, if_false, Outcome.ran.injEq] at hc ⊢
      subst hc
      refine ⟨k, (afterLoad (afterRemove s1 k kern t2).1 k (afterRemove s1 k kern t2).2).2, ?_, ?_, ?_, ?_, ?_⟩
      · rw [afterLoad_psets, h6, Function.update_self]
      · rw [afterLoad_kernels, Function.update_self]
      · simp only [afterLoad, (afterRemove_kern s1 k kern t2).2.2.2.2.1]
      · intro j hj
        rw [hj] at h8
        exact ⟨h8.1, by rw [h8.2]; rfl⟩
      · intro f name code hj
        rw [hj] at h8
        exact ⟨by simp only [afterLoad, (afterRemove_kern s1 k kern t2).2.2.2.2.2.1]; exact h8.1, fun _ => h8.2⟩

/-- C87, second part, with compilations that succeed: then every execution runs compiled code (its own, by the first part): no exception for missing
files or functions, and no call into a library that was unloaded.
Partial: this is false after a compilation that failed (`C87_failed_compile_fails`, `C87_retry_fails`). -/
theorem C87_runs_partial {ours : Key → Prop} {s : State} (hr : Reach ours NoFailure s) {p : Nat} {a : Arg} {t1 t2 : Int}
    (ha : Allowed ours s (.exec p a t1 t2 false)) : ∃ c, (step s (.exec p a t1 t2 false)).2 = .ran c := by
  obtain ⟨hi, hp⟩ := inv_reach hr
  have hl := loaded_reach (fun _ h => h) hr
  simp only [step]
  rcases execute_cases hi hp ha with ⟨hn, k, kern, h1, h2, h3, h4⟩ | ⟨hn, s1, k, kern, h1, h2, h3, h4, h5, h6, h7, h8⟩
  · rw [h3]
    exact ⟨_, call_loaded hi h2 (hl p k kern h1 h2)⟩
  · rw [h7]
    exact ⟨_, rfl⟩

/-- C87, libraries. In every history no library is closed that is not open, and each library in memory is that of exactly one Kernel that still exists
(made from its code): finalized Kernels leave no library, and no library is loaded twice. -/
theorem C87_libraries {ours : Key → Prop} {s : State} (hr : Reach ours (fun _ => True) s) :
    s.double = false ∧ ∀ l ∈ s.libs, l.refs = 1 ∧ ∃ k kern, s.kernels k = some kern ∧ kern.lib = some l.handle ∧ kern.code = l.code ∧
      ∀ k' kern', s.kernels k' = some kern' → kern'.lib = some l.handle → k' = k := by
  obtain ⟨hi, -⟩ := inv_reach hr
  refine ⟨hi.noDouble, fun l hl => ?_⟩
  obtain ⟨h1, k, kern, h2, h3, h4, h5⟩ := hi.owner l hl
  refine ⟨h1, k, kern, h2, h3, h5, ?_⟩
  intro k' kern' g1 g2
  obtain ⟨l', q1, q2, q3, -⟩ := hi.loaded k' kern' _ g1 g2
  have := hi.uniq l' q1 l hl q2
  subst this
  exact hi.keyInj k' k kern' kern g1 h2 (by rw [← q3, h4])

/-- C87, files. With Kernels that delete their files and compilations that succeed: every file with a name of this process belongs to an existing Kernel;
so when all Kernels have been finalized, no file and no library of this process is left.
Partial: a compilation that fails leaves files (`C87_failed_files_fails`). -/
theorem C87_clean_partial {ours : Key → Prop} {s : State} (hr : Reach ours AllDelete s) :
    (∀ key, ours key → ∀ kind, s.fs key kind ≠ none → ∃ k kern, s.kernels k = some kern ∧ kern.key = key) ∧
    ((∀ k, s.kernels k = none) → s.libs = [] ∧ ∀ key, ours key → ∀ kind, s.fs key kind = none) := by
  obtain ⟨hi, -⟩ := inv_reach hr
  have hc := clean_reach hr
  refine ⟨?_, fun h => ⟨?_, ?_⟩⟩
  · intro key ho kind hne
    obtain ⟨k, kern, h1, h2, -⟩ := hc.files key ho kind hne
    exact ⟨k, kern, h1, h2⟩
  · rw [List.eq_nil_iff_forall_not_mem]
    intro l hl
    obtain ⟨-, k, kern, h1, -⟩ := hi.owner l hl
    rw [h k] at h1
    cases h1
  · intro key ho kind
    by_contra hne
    obtain ⟨k, kern, h1, -⟩ := hc.files key ho kind hne
    rw [h k] at h1
    cases h1

/-- C87, what others own. No step of this process changes a file whose name is not one of its names; and finalizing a Kernel changes
no files but its own. -/
theorem C87_others {ours : Key → Prop} {s : State} (hr : Reach ours (fun _ => True) s) :
    (∀ op, Allowed ours s op → (∀ fs, op ≠ .others fs) → ∀ key, ¬ ours key → (step s op).1.fs key = s.fs key) ∧
    (∀ k kern, s.kernels k = some kern → ∀ key, key ≠ kern.key → (step s (.collect k)).1.fs key = s.fs key) := by
  obtain ⟨hi, hp⟩ := inv_reach hr
  have hcol : ∀ k kern, s.kernels k = some kern → ∀ key, key ≠ kern.key → (step s (.collect k)).1.fs key = s.fs key := by
    intro k kern hk key hne
    simp only [step, collect_eq hi hk, afterCollect]
    split_ifs
    · rw [Function.update_of_ne hne]
    · rfl
  refine ⟨?_, hcol⟩
  intro op ha hop key ho
  cases op with
  | make => rfl
  | drop => rfl
  | others fs => exact absurd rfl (hop fs)
  | collect k =>
    obtain ⟨kern, hk⟩ := Option.isSome_iff_exists.mp ha.1
    apply hcol k kern hk
    rintro rfl
    exact ho (hi.keyOurs k kern hk).1
  | exec p a t1 t2 fails =>
    obtain ⟨_, _, _, _, _, g5, _⟩ := assign_spec hi ha
    simp only [step]
    rcases execute_cases hi hp ha with ⟨hn, k, kern, h1, h2, h3, h4⟩ | ⟨hn, s1, k, kern, h1, h2, h3, h4, h5, h6, h7, h8⟩
    · rw [h3]
    · rw [h1] at g5
      have hk1 : key ≠ kern.key := by rintro rfl; exact ho (h3.keyOurs k kern h2).1
      have hk2 : key ≠ (afterRemove s1 k kern t2).2.key := by
        have hir := inv_afterRemove h3 h2 h4 h5
        rintro rfl
        exact ho (hir.keyOurs k _ (afterRemove_kern s1 k kern t2).1).1
      have hrm : (afterRemove s1 k kern t2).1.fs key = s.fs key := by
        rw [← g5]
        cases hcf : kern.cleanFiles with
        | none => simp [afterRemove, hcf]
        | some c => simp only [afterRemove, hcf, Function.update_of_ne hk1]
      rw [h7]
      cases fails with
      | true => simp only [if_true, afterFail, Function.update_of_ne hk2, hrm]
      | false => simp only [Bool.false_eq_true, if_false, afterLoad, Function.update_of_ne hk2, hrm]

/-- C87, `delete_cfiles=False`. When a Kernel that keeps its files and has a loaded library is finalized, its source, library and log are still there, with its code.
Partial: they are not kept when the Kernel is compiled again (`C87_keep_fails`). -/
theorem C87_keep_partial {ours : Key → Prop} {s : State} (hr : Reach ours (fun _ => True) s) {k : Nat} {kern : Kern} (hk : s.kernels k = some kern)
    (hd : kern.delete = false) (hl : kern.lib ≠ none) : ∀ kind, (step s (.collect k)).1.fs kern.key kind = some kern.code := by
  obtain ⟨hi, -⟩ := inv_reach hr
  obtain ⟨h, hh⟩ := Option.ne_none_iff_exists'.mp hl
  obtain ⟨c, hc⟩ := Option.ne_none_iff_exists'.mp (hi.libFiles k kern h hk hh)
  obtain ⟨-, hf⟩ := hi.filesAt k kern c hk hc
  intro kind
  simp only [step, collect_eq hi hk, afterCollect, hd, Bool.false_eq_true, and_false, if_false, hf]

/-- The outcomes of a history. -/
def outcomes (s : State) : List Op → State × List Outcome
  | [] => (s, [])
  | op :: ops => let r := step s op; let q := outcomes r.1 ops; (q.1, r.2 :: q.2)

/-- A start without files. -/
def empty : State := init (fun _ _ => none) 0

/-- Non-vacuity: two ParticleSets use one Kernel and then two functions, with a Kernel finalized between; everything runs its own code. -/
example : (outcomes empty [.make 7 "K" 70 false 1, .exec 0 (.kernel 0) 2 3 false, .exec 1 (.kernel 0) 4 5 false, .exec 0 (.kernel 0) 6 7 false,
      .exec 1 (.func 8 "K" 80) 8 9 false, .exec 0 (.func 9 "L" 90) 10 11 false, .collect 0, .exec 1 (.func 8 "K" 81) 12 13 false]).2
    = [.none, .ran 70, .ran 70, .ran 70, .ran 80, .ran 90, .none, .ran 80] := by decide +kernel

/-- Non-vacuity: these histories are reachable, with a state in which a Kernel that keeps its files is loaded. -/
example : ∃ s, Reach (fun _ => True) NoFailure s ∧ (∃ kern, s.kernels 0 = some kern ∧ kern.delete = false ∧ kern.lib ≠ none) ∧
    Allowed (fun _ => True) s (.exec 0 (.kernel 0) 4 5 false) := by
  refine ⟨_, .next (.exec 0 (.kernel 0) 2 3 false) (.next (.make 7 "K" 70 false 1) (.start (fun _ _ => none) 0 (fun _ _ _ => rfl))
    ⟨by decide +kernel, trivial⟩ trivial) ⟨by decide +kernel, by decide +kernel, ⟨_, rfl, trivial⟩⟩ rfl, ⟨_, rfl, rfl, by decide +kernel⟩, ?_⟩
  exact ⟨by decide +kernel, by decide +kernel, ⟨_, rfl, trivial⟩⟩

/-- Non-vacuity of `C87_clean_partial`: after all Kernels are finalized nothing is left, though files were written and libraries loaded. -/
example : (∀ kind, (outcomes empty [.exec 0 (.func 8 "K" 80) 1 2 false, .exec 1 (.func 9 "K" 90) 3 4 false]).1.fs ⟨"K", 1⟩ kind = some 80) ∧
    ((outcomes empty [.exec 0 (.func 8 "K" 80) 1 2 false, .exec 1 (.func 9 "K" 90) 3 4 false]).1.libs.length = 2) ∧
    (∀ kind, (outcomes empty [.exec 0 (.func 8 "K" 80) 1 2 false, .exec 1 (.func 9 "K" 90) 3 4 false, .drop 0, .drop 1, .collect 0, .collect 1]).1.fs
      ⟨"K", 1⟩ kind = none) ∧
    ((outcomes empty [.exec 0 (.func 8 "K" 80) 1 2 false, .exec 1 (.func 9 "K" 90) 3 4 false, .drop 0, .drop 1, .collect 0, .collect 1]).1.libs = []) := by
  refine ⟨fun kind => ?_, by decide +kernel, fun kind => ?_, by decide +kernel⟩ <;> cases kind <;> decide +kernel

/-- C87 fails after a compilation that fails: a Kernel has been run by one ParticleSet; a second ParticleSet executes it and the compilation fails (an exception,
which the user catches); when the first ParticleSet executes the Kernel again, the function of the unloaded library is called. -/
theorem C87_failed_compile_fails :
    (outcomes empty [.make 7 "K" 70 true 1, .exec 0 (.kernel 0) 2 3 false, .exec 1 (.kernel 0) 4 5 true, .exec 0 (.kernel 0) 6 7 false]).2
      = [.none, .ran 70, .error, .crash] := by decide +kernel

/-- C87 fails: after a compilation that fails, executing the same function with the same ParticleSet again raises an exception even if the compiler
works now, since the ParticleSet already has the Kernel and does not compile it. -/
theorem C87_retry_fails :
    (outcomes empty [.exec 0 (.func 8 "K" 80) 1 2 true, .exec 0 (.func 8 "K" 80) 3 4 false]).2 = [.error, .error] := by decide +kernel

/-- C87 fails: a compilation that fails leaves the source and the log, which nothing removes. -/
theorem C87_failed_files_fails :
    let s := (outcomes empty [.exec 0 (.func 8 "K" 80) 1 2 true, .drop 0, .collect 0]).1
    s.fs ⟨"K", 1⟩ .src = some 80 ∧ s.fs ⟨"K", 1⟩ .log = some 80 ∧ (s.kernels 0).isNone := by decide +kernel

/-- C87 fails for `delete_cfiles=False`: when a second ParticleSet executes the Kernel, the files of the first compilation are removed. -/
theorem C87_keep_fails :
    (outcomes empty [.make 7 "K" 70 false 1, .exec 0 (.kernel 0) 2 3 false]).1.fs ⟨"K", 1⟩ .src = some 70 ∧
    (outcomes empty [.make 7 "K" 70 false 1, .exec 0 (.kernel 0) 2 3 false, .exec 1 (.kernel 0) 4 5 false]).1.fs ⟨"K", 1⟩ .src = none := by
  decide +kernel

/-- C87 needs a clock that advances: the file names do not depend on the code. Two different functions with the same name, whose Kernels are made and
prepared within one reading of the clock, have the same files, and the second one runs the code of the first. -/
theorem C87_same_time_fails :
    (outcomes empty [.exec 0 (.func 8 "K" 80) 1 1 false, .exec 1 (.func 9 "K" 90) 1 1 false]).2 = [.ran 80, .ran 80] := by decide +kernel

end Parcels.Libs
