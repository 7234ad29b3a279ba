import Verif.Proofs.Namespace

/-!
C90: what is put into a FieldSet under a name is there when kernels use it.

Full C90: after any sequence of `add_field`, `add_vector_field`, `add_constant` and the making of ParticleSets, `fieldset.name` is
what was put there, unless the user was told otherwise; a call that raises leaves the FieldSet as it was; and every Field that
a kernel can sample through the FieldSet has its grid among the grids of the FieldSet.

`add_field` does all this for Fields and lists of Fields. It is false for the other calls: witnesses are below.
-/

namespace Parcels.Namespace

/-- `add_field` of a Field, SummedField or NestedField raises if the FieldSet is completed or has the name, and then changes
nothing. Otherwise the name is bound to what was given, with its name adapted for a SummedField, no other name is changed, and
all its Fields are registered. -/
theorem C90_add_field (e : Env) (s : FS) (v : Val) (hv : v.Scalar) {n : Nat} (name : Option Nat) (hn : (name.orElse fun _ => v.name e.nm) = some n) :
    (raises e s (.addField v name) = true ↔ s.completed = true ∨ has e.res s n = true) ∧
    (raises e s (.addField v name) = true → step e s (.addField v name) = s) ∧
    (raises e s (.addField v name) = false →
      (∃ x, lookup (step e s (.addField v name)) n = some x ∧ x.fields = v.fields ∧ ∀ i, v = .one i → x = v) ∧
      (∀ m, m ≠ n → lookup (step e s (.addField v name)) m = lookup s m) ∧
      (∀ f ∈ v.fields, f ∈ (step e s (.addField v name)).reg) ∧ (∀ f ∈ s.reg, f ∈ (step e s (.addField v name)).reg)) := by
  simp only [raises, step]
  rcases addField_cases e.nm e.res s v name with ⟨e1, e2⟩ | ⟨m, hm, hc, hh, ha, _, hr, hs⟩
  · refine ⟨⟨fun _ => ?_, fun _ => e2⟩, fun _ => e1, fun h => by rw [e2] at h; cases h⟩
    by_contra hcon
    rw [not_or] at hcon
    have hc : s.completed = false := by simpa using hcon.1
    have hh : has e.res s n = false := by simpa using hcon.2
    unfold addField at e2
    rw [hn] at e2
    simp only [hc, hh, Bool.false_eq_true, if_false] at e2
    cases v with
    | one i =>
      cases i with
      | field f => cases e2
      | vector k cs => exact hv
    | many b k l =>
      have := (regAll_scalar l (setAttr s n (.many b (if b then k else n) l)) hv).1
      rw [this] at e2
      cases e2
    | const c => exact hv
  · rw [hn] at hm
    have := Option.some.inj hm
    subst this
    obtain ⟨h1, h2⟩ := hs hv
    refine ⟨⟨(fun h => by rw [h1] at h; cases h), (fun h => ?_)⟩, (fun h => by rw [h1] at h; cases h), fun _ => ⟨⟨stored n v, ?_, ?_, ?_⟩, ?_, h2, fun f hf => hr hf⟩⟩
    · rcases h with h | h
      · rw [hc] at h; cases h
      · rw [hh] at h; cases h
    · rw [lookup_congr (s := setAttr s n (stored n v)) ha, lookup_set_self]
    · cases v <;> rfl
    · rintro i rfl; rfl
    · intro m hm
      rw [lookup_congr (s := setAttr s n (stored n v)) ha, lookup_set_other _ _ hm]

/-- C90 (partial): a name keeps its meaning through any program whose calls are not `add_constant` with that name or
`add_vector_field` with a field of that name, whether or not they raise. -/
theorem C90_keeps_partial (e : Env) (s : FS) (ops : List Op) {n : Nat} {x : Val} (h : lookup s n = some x)
    (ho : ∀ op ∈ ops, ¬ Overwrites e n op) : lookup (run e s ops) n = some x := run_keeps ops s h ho

/-- C90 (partial): after any program in which `add_field` is called with Fields or lists of Fields, and `add_vector_field` with
VectorFields without raising, every Field that a kernel can sample through the FieldSet is registered. -/
theorem C90_registered_partial (e : Env) (ops : List Op) (hm : AllMeant e start ops) {n : Nat} {x : Val}
    (h : lookup (run e start ops) n = some x) : ∀ f ∈ x.fields, f ∈ (run e start ops).reg :=
  fun f hf => run_sound ops start (fun p hp => by simp [start] at hp) hm _ (mem_of_lookup h) f hf

/-- `add_constant` binds the name to the constant, and changes no other name. -/
theorem C90_constant (e : Env) (s : FS) (n c : Nat) :
    lookup (step e s (.addConstant n c)) n = some (.const c) ∧ ∀ m, m ≠ n → lookup (step e s (.addConstant n c)) m = lookup s m :=
  ⟨lookup_set_self _ _ _, fun _ hm => lookup_set_other _ _ hm⟩

/-- `get_fields` lists exactly the Fields, VectorFields, SummedFields and NestedFields that are attributes, and the members of
the latter, each once. -/
theorem C90_get_fields (s : FS) : (getFields s).Nodup ∧
    (∀ i, Val.one i ∈ getFields s ↔ ∃ p ∈ s.attrs, p.2 = .one i ∨ ∃ b k l, p.2 = .many b k l ∧ i ∈ l) ∧
    (∀ b k l, Val.many b k l ∈ getFields s ↔ ∃ p ∈ s.attrs, p.2 = .many b k l) ∧ (∀ c, Val.const c ∉ getFields s) := by
  refine ⟨nodup_fold s.attrs [] List.nodup_nil, fun i => ?_, fun b k l => ?_, fun c hc => ?_⟩
  · rw [mem_getFields]
    constructor
    · rintro ⟨p, hp, hc⟩
      refine ⟨p, hp, ?_⟩
      cases h2 : p.2 with
      | one j => rw [h2] at hc; exact .inl hc.symm
      | many b k l =>
        rw [h2] at hc
        rcases hc with hc | ⟨j, hj, hc⟩
        · cases hc
        · cases hc; exact .inr ⟨b, k, l, rfl, hj⟩
      | const c => rw [h2] at hc; exact absurd hc (fun h => h)
    · rintro ⟨p, hp, h | ⟨b, k, l, h, hi⟩⟩
      · exact ⟨p, hp, by rw [h]; rfl⟩
      · exact ⟨p, hp, by rw [h]; exact .inr ⟨i, hi, rfl⟩⟩
  · rw [mem_getFields]
    constructor
    · rintro ⟨p, hp, hc⟩
      refine ⟨p, hp, ?_⟩
      cases h2 : p.2 with
      | one j => rw [h2] at hc; cases hc
      | many b' k' l' =>
        rw [h2] at hc
        rcases hc with hc | ⟨j, hj, hc⟩
        · exact hc.symm
        · cases hc
      | const c => rw [h2] at hc; exact absurd hc (fun h => h)
    · rintro ⟨p, hp, h⟩
      exact ⟨p, hp, by rw [h]; exact .inl rfl⟩
  · obtain ⟨p, hp, h⟩ := mem_getFields.mp hc
    cases h2 : p.2 with
    | one j => rw [h2] at h; cases h
    | many b' k' l' =>
      rw [h2] at h
      rcases h with h | ⟨j, hj, h⟩ <;> cases h
    | const c' => rw [h2] at h; exact absurd h (fun h => h)

/-- When `check_complete` (the making of a ParticleSet) does not raise: there are velocities U and V; each Field has the name under
which it was added; the FieldSet takes no more Fields; and if U and V are Fields and there was no vector field UV, it is made
of them. -/
theorem C90_complete (e : Env) (s : FS) (h : raises e s .complete = false) :
    (step e s .complete).completed = true ∧ (∃ u v, lookup s e.k.u = some u ∧ lookup s e.k.v = some v) ∧
    (∀ n f, lookup s n = some (.one (.field f)) → e.nm f = n) ∧
    (∀ v name, raises e (step e s .complete) (.addField v name) = true ∧ step e (step e s .complete) (.addField v name) = step e s .complete) ∧
    (∀ f g, lookup s e.k.u = some (.one (.field f)) → lookup s e.k.v = some (.one (.field g)) → has e.res s e.k.uv = false →
      lookup (step e s .complete) e.k.uv = some (.one (.vector e.k.uv [f, g]))) := by
  simp only [raises] at h
  cases hc : complete e.nm e.res e.sub e.k s with
  | none => rw [hc] at h; cases h
  | some s' =>
    have hs' : step e s .complete = s' := by simp only [step, hc, Option.getD_some]
    rw [hs']
    obtain ⟨u, v, s1, hu, hv, hnm, h1, h2⟩ := complete_cases hc
    have hcomp : s'.completed = true := by
      rcases h2 with ⟨_, rfl⟩ | ⟨w, s2, _, _, rfl⟩ <;> rfl
    refine ⟨hcomp, ⟨u, v, hu, hv⟩, fun n f hf => hnm n f (mem_of_lookup hf), fun v name => ?_, fun f g hf hg hh => ?_⟩
    · simp only [raises, step, addField, hcomp, if_true]
      exact ⟨rfl, trivial⟩
    · rw [hf] at hu
      rw [hg] at hv
      have := Option.some.inj hu
      subst this
      have := Option.some.inj hv
      subst this
      have q1 : lookup s1 e.k.uv = some (.one (.vector e.k.uv [f, g])) := by
        unfold ensureVector at h1
        simp only [hh, Bool.false_eq_true, if_false, combine] at h1
        split at h1
        · rename_i s2 e2
          rw [← Option.some.inj h1]
          have e3 : addComps e.nm e.res (setAttr s e.k.uv (.one (.vector e.k.uv [f, g]))) [f, g] = (none, s2) := e2
          have := addComps_keeps e.nm e.res [f, g] _ (lookup_set_self s e.k.uv (.one (.vector e.k.uv [f, g])))
          rw [e3] at this
          exact this
        · cases h1
      rcases h2 with ⟨_, rfl⟩ | ⟨w, s2, hw, h2, rfl⟩
      · exact q1
      · have q3 := ensureVector_keeps q1 h2
        exact q3

/-! ### Concrete cases, and where C90 fails -/

/-- Names 0 to 4 are U, V, W, UV, UVW; Field `f` is called `f` (so Field 0 is U), but Field 10 is also called V; names from 100 are
taken by methods. -/
def exEnv : Env := ⟨fun f => if f = 10 then 1 else f, fun n => decide (100 ≤ n), fun n i => 1000 + 10 * n + i, ⟨0, 1, 2, 3, 4⟩⟩

/-- Velocities, a SummedField of tracers 5 and 6 under the name 7, a VectorField 8 with components U and 9, a constant. -/
def exOps : List Op := [.addField (.one (.field 0)) none, .addField (.one (.field 1)) none,
  .addField (.many false 50 [.field 5, .field 6]) (some 7), .addVector (.one (.vector 8 [0, 9])), .addConstant 20 3,
  .addField (.one (.field 0)) none, .complete]

example : AllMeant exEnv start exOps := by
  refine ⟨trivial, trivial, ?_, ⟨⟨_, _, rfl⟩, by decide +kernel⟩, trivial, trivial, trivial, trivial⟩
  exact (by decide +kernel : Val.Scalar (.many false 50 [.field 5, .field 6]))
example : (run exEnv start exOps).completed = true ∧ (run exEnv start exOps).reg = [0, 1, 5, 6, 9] ∧
    lookup (run exEnv start exOps) 3 = some (.one (.vector 3 [0, 1])) ∧ lookup (run exEnv start exOps) 9 = some (.one (.field 9)) ∧
    lookup (run exEnv start exOps) 7 = some (.many false 7 [.field 5, .field 6]) := by
  refine ⟨?_, ?_, ?_, ?_, ?_⟩ <;> decide +kernel
example : raises exEnv (run exEnv start [.addField (.one (.field 0)) none]) (.addField (.one (.field 0)) none) = true := by decide +kernel
example : ∀ op ∈ exOps, ¬ Overwrites exEnv 0 op := by
  intro op h
  simp only [exOps, List.mem_cons, List.not_mem_nil, or_false] at h
  rcases h with rfl | rfl | rfl | rfl | rfl | rfl | rfl <;> simp [Overwrites, Val.name]

/-- C90 fails: `add_constant` replaces a Field of that name without a word, also a velocity after a ParticleSet was made. -/
theorem C90_constant_fails :
    lookup (run exEnv start exOps) 0 = some (.one (.field 0)) ∧ raises exEnv (run exEnv start exOps) (.addConstant 0 3) = false ∧
    lookup (run exEnv start (exOps ++ [.addConstant 0 3])) 0 = some (.const 3) := by
  refine ⟨?_, ?_, ?_⟩ <;> decide +kernel

/-- C90 fails: `add_vector_field` replaces what has its name, also on a completed FieldSet. -/
theorem C90_vector_replaces_fails :
    lookup (run exEnv start exOps) 3 = some (.one (.vector 3 [0, 1])) ∧ (run exEnv start exOps).completed = true ∧
    raises exEnv (run exEnv start exOps) (.addVector (.one (.vector 3 [1, 0]))) = false ∧
    lookup (run exEnv start (exOps ++ [.addVector (.one (.vector 3 [1, 0]))])) 3 = some (.one (.vector 3 [1, 0])) := by
  refine ⟨?_, ?_, ?_, ?_⟩ <;> decide +kernel

/-- C90 fails: `add_vector_field` with a component whose name is taken (Field 10, also called V) raises, but the VectorField stays in
the FieldSet, while its component is not registered. -/
theorem C90_vector_refused_fails :
    raises exEnv (run exEnv start (exOps.take 2)) (.addVector (.one (.vector 8 [0, 10]))) = true ∧
    lookup (run exEnv start (exOps.take 2 ++ [.addVector (.one (.vector 8 [0, 10]))])) 8 = some (.one (.vector 8 [0, 10])) ∧
    10 ∉ (run exEnv start (exOps.take 2 ++ [.addVector (.one (.vector 8 [0, 10])), .complete])).reg ∧
    (run exEnv start (exOps.take 2 ++ [.addVector (.one (.vector 8 [0, 10])), .complete])).completed = true := by
  refine ⟨?_, ?_, ?_, ?_⟩ <;> decide +kernel

/-- C90 fails: `add_vector_field` with a SummedField of VectorFields does not raise, and registers none of their Fields. -/
theorem C90_summed_vector_fails :
    let op : Op := .addVector (.many false 8 [.vector 30 [31, 32], .vector 33 [34, 35]])
    raises exEnv (run exEnv start (exOps.take 2)) op = false ∧
    (run exEnv start (exOps.take 2 ++ [op, .complete])).reg = [0, 1] ∧ (run exEnv start (exOps.take 2 ++ [op, .complete])).completed = true := by
  refine ⟨?_, ?_, ?_⟩ <;> decide +kernel

/-- C90 fails: `add_field` with a VectorField raises, but leaves it in the FieldSet. -/
theorem C90_add_field_refused_fails :
    raises exEnv start (.addField (.one (.vector 8 [0, 9])) none) = true ∧
    lookup (run exEnv start [.addField (.one (.vector 8 [0, 9])) none]) 8 = some (.one (.vector 8 [0, 9])) := by
  refine ⟨?_, ?_⟩ <;> decide +kernel

/-- C90 fails: a Field that was added under another name than its own is accepted, but then no ParticleSet can be made. The same
list of Fields under another name is fine. -/
theorem C90_renamed_fails :
    raises exEnv (run exEnv start (exOps.take 2)) (.addField (.one (.field 5)) (some 6)) = false ∧
    raises exEnv (run exEnv start (exOps.take 2 ++ [.addField (.one (.field 5)) (some 6)])) .complete = true ∧
    raises exEnv (run exEnv start (exOps.take 2 ++ [.addField (.many false 5 [.field 5]) (some 6)])) .complete = false := by
  refine ⟨?_, ?_, ?_⟩ <;> decide +kernel

end Parcels.Namespace
