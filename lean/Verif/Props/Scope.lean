import Verif.Model.Scope
import Verif.Props.Names
import Mathlib.Data.List.Count

/-!
C77: the variables of a kernel are declared in C.
-/

namespace Parcels.Scope

/-- What C asks for: parameters and variables have different names, and each variable of the Python function, except its three arguments, is
declared (in the list `locals`), and so are the variables `parcels_tmpvar0`, ... for the samples, and `err`. -/
structure WellDeclared (k : KernelNames) : Prop where
  distinct : (params k ++ locals k).Nodup
  all : ∀ v ∈ k.funcvars, v ∉ ["particle", "fieldset", "time"] → v ∈ locals k
  samples : ∀ i < k.samples, "parcels_tmpvar" ++ toString i ∈ locals k
  err : "err" ∈ locals k
  only : ∀ v ∈ declared k, v ∈ k.funcvars

theorem dropRepeated_count (todo used copy : List String) (x : String) :
    (dropRepeated todo used copy).count x =
      copy.count x - (if x ∈ used then todo.count x else todo.count x - 1) := by
  induction todo generalizing used copy with
  | nil => simp [dropRepeated]
  | cons v rest ih =>
    unfold dropRepeated
    by_cases hv : v ∈ used
    · rw [if_pos hv, ih]
      by_cases hx : x = v
      · subst hx
        rw [if_pos hv, if_pos hv, List.count_erase_self, List.count_cons_self]
        omega
      · rw [List.count_erase_of_ne hx, List.count_cons_of_ne (Ne.symm hx)]
    · rw [if_neg hv, ih]
      by_cases hx : x = v
      · subst hx
        rw [if_pos (by simp), if_neg hv, List.count_cons_self]
        omega
      · rw [List.count_cons_of_ne (Ne.symm hx)]
        simp [hx]

theorem dropRepeated_self (l : List String) : (dropRepeated l [] l).Nodup ∧ ∀ x, x ∈ dropRepeated l [] l ↔ x ∈ l := by
  have h : ∀ x, (dropRepeated l [] l).count x = l.count x - (l.count x - 1) := by
    intro x; rw [dropRepeated_count]; simp
  constructor
  · rw [List.nodup_iff_count_le_one]
    intro x; rw [h]; omega
  · intro x
    rw [← List.count_pos_iff, ← List.count_pos_iff, h]; omega

theorem declared_nodup (k : KernelNames) : (declared k).Nodup := (dropRepeated_self k.funcvars).1.diff

theorem mem_declared (k : KernelNames) (x : String) : x ∈ declared k ↔ x ∈ k.funcvars ∧ x ∉ kernelVars := by
  unfold declared
  rw [List.Nodup.mem_diff_iff (dropRepeated_self k.funcvars).1, (dropRepeated_self k.funcvars).2]

theorem tmp_inj {i j : Nat} (h : "parcels_tmpvar" ++ toString i = "parcels_tmpvar" ++ toString j) : i = j := by
  have := congrArg String.toList h
  simp only [String.toList_append, List.append_cancel_left_eq] at this
  rw [Names.toString_toList, Names.toString_toList] at this
  exact Names.digits_inj this

theorem temps_nodup (k : KernelNames) : (temps k).Nodup := by
  unfold temps
  exact List.Nodup.map (fun i j h => tmp_inj h) List.nodup_range

theorem temps_contains (k : KernelNames) (x : String) (h : x ∈ temps k) : contains "parcels_tmpvar".toList x.toList = true := by
  unfold temps at h
  obtain ⟨i, _, rfl⟩ := List.mem_map.mp h
  rw [String.toList_append]
  have hp : ∀ (p r : List Char), contains p (p ++ r) = true := by
    intro p r
    have : p.isPrefixOf (p ++ r) = true := List.isPrefixOf_iff_prefix.mpr (List.prefix_append _ _)
    cases h : p ++ r with
    | nil => rw [h] at this; simpa [contains] using this
    | cons c t => rw [h] at this; simp [contains, this]
  exact hp _ _

/-- C77: if the variables of a kernel that is not rejected are called neither like a field or a constant that the kernel uses nor like one of
the four reserved names, and no field or constant is called like another one or like one of the C function's own parameters and variables,
then the names in the C function are all different, and all variables of the kernel are declared. For every kernel, and every concatenation of kernels, whose
parts may share variables. Missing: the other kernels, which run in Scipy mode (`C77_clash_fails`, `C77_undeclared_fails`); keywords of C. -/
theorem C77_scope_partial (k : KernelNames) (hrej : rejected k = false)
    (hvars : ∀ v ∈ k.funcvars, v ∉ k.fields ∧ v ∉ k.consts ∧ v ∉ ["particles", "err", "tol", "output_time"])
    (hfc : (k.fields ++ k.consts).Nodup)
    (hfc' : ∀ v ∈ k.fields ++ k.consts, v ∉ ["particles", "pnum", "time", "err"] ∧ contains "parcels_tmpvar".toList v.toList = false) :
    WellDeclared k := by
  have hr : ∀ v ∈ k.funcvars, v ≠ "pnum" ∧ contains "parcels_tmpvar".toList v.toList = false := by
    intro v hv
    unfold rejected at hrej
    rw [List.any_eq_false] at hrej
    have := hrej v hv
    simpa using this
  have hdecl : ∀ v ∈ declared k, v ∈ k.funcvars ∧ v ≠ "time" := by
    intro v hv
    obtain ⟨h1, h2⟩ := (mem_declared k v).mp hv
    refine ⟨h1, ?_⟩
    rintro rfl
    exact h2 (by decide)
  refine ⟨?_, ?_, ?_, ?_, fun v hv => (hdecl v hv).1⟩
  · have hparams : (params k).Nodup := by
      unfold params
      rw [List.append_assoc, List.nodup_append]
      refine ⟨by decide, hfc, ?_⟩
      intro a ha b hb hab
      subst hab
      have := (hfc' a hb).1
      simp only [List.mem_cons, List.not_mem_nil, or_false] at ha this
      tauto
    have hlocals : (locals k).Nodup := by
      unfold locals
      rw [List.append_assoc, List.nodup_append]
      refine ⟨temps_nodup k, ?_, ?_⟩
      · rw [List.nodup_append]
        refine ⟨declared_nodup k, by decide, ?_⟩
        intro a ha b hb hab
        subst hab
        have := (hvars a (hdecl a ha).1).2.2
        simp only [List.mem_cons, List.not_mem_nil, or_false] at hb this
        tauto
      · intro a ha b hb hab
        subst hab
        have ht := temps_contains k a ha
        rcases List.mem_append.mp hb with hb | hb
        · rw [(hr a (hdecl a hb).1).2] at ht; cases ht
        · simp only [List.mem_cons, List.not_mem_nil, or_false] at hb
          subst hb
          revert ht; decide
    rw [List.nodup_append]
    refine ⟨hparams, hlocals, ?_⟩
    intro a ha b hb hab
    subst hab
    unfold params at ha
    unfold locals at hb
    rw [List.append_assoc, List.mem_append] at ha
    rw [List.append_assoc, List.mem_append, List.mem_append] at hb
    rcases ha with ha | ha
    · simp only [List.mem_cons, List.not_mem_nil, or_false] at ha
      rcases hb with hb | hb | hb
      · have ht := temps_contains k a hb
        rcases ha with rfl | rfl | rfl <;> revert ht <;> decide
      · obtain ⟨h1, h2⟩ := hdecl a hb
        have h3 := (hvars a h1).2.2
        have h4 := (hr a h1).1
        simp only [List.mem_cons, List.not_mem_nil, or_false] at h3
        tauto
      · simp only [List.mem_cons, List.not_mem_nil, or_false] at hb
        subst hb
        revert ha; decide
    · obtain ⟨h1, h2⟩ := hfc' a ha
      rcases hb with hb | hb | hb
      · rw [temps_contains k a hb] at h2; cases h2
      · obtain ⟨h3, h4⟩ := hdecl a hb
        have h5 := hvars a h3
        rcases List.mem_append.mp ha with ha | ha
        · exact h5.1 ha
        · exact h5.2.1 ha
      · simp only [List.mem_cons, List.not_mem_nil, or_false] at hb h1
        tauto
  · intro v hv hv'
    unfold locals
    rw [List.append_assoc, List.mem_append, List.mem_append]
    refine Or.inr (Or.inl ?_)
    rw [mem_declared]
    refine ⟨hv, ?_⟩
    have := (hvars v hv).2.2
    unfold kernelVars
    simp only [List.mem_cons, List.not_mem_nil, or_false] at hv' this ⊢
    tauto
  · intro i hi
    unfold locals temps
    rw [List.append_assoc, List.mem_append]
    exact Or.inl (List.mem_map.mpr ⟨i, List.mem_range.mpr hi, rfl⟩)
  · unfold locals
    exact List.mem_append.mpr (Or.inr List.mem_cons_self)

/-- Two kernels that share a variable, concatenated. -/
def exKernel : KernelNames where
  funcvars := ["particle", "fieldset", "time", "u", "v", "particle", "fieldset", "time", "dres", "u"]
  fields := ["U", "V"]
  consts := ["halo_west"]
  samples := 3

example : rejected exKernel = false ∧
    (∀ v ∈ exKernel.funcvars, v ∉ exKernel.fields ∧ v ∉ exKernel.consts ∧ v ∉ ["particles", "err", "tol", "output_time"]) ∧
    (exKernel.fields ++ exKernel.consts).Nodup ∧
    (∀ v ∈ exKernel.fields ++ exKernel.consts, v ∉ ["particles", "pnum", "time", "err"] ∧
      contains "parcels_tmpvar".toList v.toList = false) := by decide +kernel
example : params exKernel = ["particles", "pnum", "time", "U", "V", "halo_west"] ∧
    locals exKernel = ["parcels_tmpvar0", "parcels_tmpvar1", "parcels_tmpvar2", "v", "dres", "u", "err"] := by decide +kernel

/-- C77 fails, and the C code does not compile, if a kernel stores a constant of the fieldset in a variable of the same name (`K = fieldset.K`), or a
sample in a variable that is called like the field (`U = fieldset.U[...]`), has a variable `err`, or uses a constant called `time`. -/
theorem C77_clash_fails : ∀ k ∈ [
      (⟨["particle", "fieldset", "time", "K"], [], ["K"], 0⟩ : KernelNames),
      ⟨["particle", "fieldset", "time", "U"], ["U"], [], 1⟩,
      ⟨["particle", "fieldset", "time", "err"], [], [], 0⟩,
      ⟨["particle", "fieldset", "time"], [], ["time"], 0⟩],
    rejected k = false ∧ ¬ (params k ++ locals k).Nodup := by decide +kernel

/-- C77 fails for variables called `tol` or `output_time`: they are not declared. -/
theorem C77_undeclared_fails (k : KernelNames) (v : String) (hv : v = "tol" ∨ v = "output_time") : v ∉ locals k := by
  intro h
  unfold locals at h
  rw [List.append_assoc, List.mem_append, List.mem_append] at h
  rcases h with h | h | h
  · have := temps_contains k v h
    rcases hv with rfl | rfl <;> revert this <;> decide
  · have := ((mem_declared k v).mp h).2
    rcases hv with rfl | rfl <;> exact this (by decide)
  · simp only [List.mem_cons, List.not_mem_nil, or_false] at h
    rcases hv with rfl | rfl <;> revert h <;> decide

end Parcels.Scope
