import Verif.Spec.Layout
import Mathlib.Data.List.Perm.Basic
import Mathlib.Data.List.Perm.Lattice
import Mathlib.Data.List.Nodup
import Mathlib.Tactic.Ring
import Mathlib.Tactic.NormNum

/-!
C53: the list of particle variables and the memory layout; C67: restoring a particle after a failed call.
-/

namespace Parcels.Layout

theorem sort64_perm (vs : List Var) : (sort64 vs).Perm vs := List.filter_append_perm _ _

mutual
theorem variables_perm : ∀ (c : Cls) (vs : List Var), varList c = .ok vs → vs.Perm c.all
  | .mk own bases, vs, h => by
    rw [varList] at h
    cases hi : inherit bases own with
    | error e => rw [hi] at h; cases h
    | ok l =>
      rw [hi] at h
      simp only [Except.map, Except.ok.injEq] at h
      subst h
      rw [Cls.all]
      exact (sort64_perm l).trans (inherit_perm bases own l hi)

theorem inherit_perm : ∀ (bs : List Cls) (acc l : List Var), inherit bs acc = .ok l → l.Perm (allBases bs ++ acc)
  | [], acc, l, h => by
    rw [inherit] at h
    cases h
    rw [allBases]
    exact List.Perm.refl _
  | b :: bs, acc, l, h => by
    rw [inherit] at h
    cases hv : varList b with
    | error e => rw [hv] at h; cases h
    | ok vs =>
      rw [hv] at h
      simp only at h
      cases hc : clash vs acc with
      | some e => rw [hc] at h; cases h
      | none =>
        rw [hc] at h
        simp only at h
        have h1 := inherit_perm bs (vs ++ acc) l h
        have h2 := variables_perm b vs hv
        rw [allBases, List.append_assoc]
        exact h1.trans (((h2.append_right acc)).append_left _)
end

theorem clash_none {inh : List Var} : ∀ {acc : List Var}, clash inh acc = none → ∀ v ∈ acc, v.name ∉ inh.map Var.name ∧ v.name ≠ "z"
  | [], _, v, hv => by cases hv
  | w :: acc, h, v, hv => by
    rw [clash] at h
    split at h
    · cases h
    · rename_i h1
      split at h
      · cases h
      · rename_i h2
        rcases List.mem_cons.mp hv with rfl | hv
        · exact ⟨h1, h2⟩
        · exact clash_none h v hv

mutual
theorem variables_nodup : ∀ (c : Cls) (vs : List Var), c.ownDistinct → varList c = .ok vs → (vs.map Var.name).Nodup
  | .mk own bases, vs, hd, h => by
    rw [Cls.ownDistinct] at hd
    rw [varList] at h
    cases hi : inherit bases own with
    | error e => rw [hi] at h; cases h
    | ok l =>
      rw [hi] at h
      simp only [Except.map, Except.ok.injEq] at h
      subst h
      exact (((sort64_perm l).map Var.name).nodup_iff).mpr (inherit_nodup bases own l hd.2 hd.1 hi)

theorem inherit_nodup : ∀ (bs : List Cls) (acc l : List Var), basesDistinct bs → (acc.map Var.name).Nodup → inherit bs acc = .ok l →
    (l.map Var.name).Nodup
  | [], acc, l, _, ha, h => by
    rw [inherit] at h
    cases h
    exact ha
  | b :: bs, acc, l, hd, ha, h => by
    rw [basesDistinct] at hd
    rw [inherit] at h
    cases hv : varList b with
    | error e => rw [hv] at h; cases h
    | ok vs =>
      rw [hv] at h
      simp only at h
      cases hc : clash vs acc with
      | some e => rw [hc] at h; cases h
      | none =>
        rw [hc] at h
        simp only at h
        refine inherit_nodup bs (vs ++ acc) l hd.2 ?_ h
        rw [List.map_append, List.nodup_append]
        refine ⟨variables_nodup b vs hd.1 hv, ha, ?_⟩
        intro a ha' b' hb' hab
        subst hab
        obtain ⟨v, hv', rfl⟩ := List.mem_map.mp hb'
        exact (clash_none hc v hv').1 ha'
end

/-- C53. The list of variables of an accepted class consists of all variables of the class and of those it inherits from, each as
often as it is declared; the 64-bit varList come first; and no two have the same name (if no class declares two Variables
of the same name). -/
theorem C53_variables (c : Cls) (vs : List Var) (h : varList c = .ok vs) :
    vs.Perm c.all ∧ (∃ a b, vs = a ++ b ∧ (∀ v ∈ a, v.is64 = true) ∧ ∀ v ∈ b, v.is64 = false) ∧
    (c.ownDistinct → (vs.map Var.name).Nodup) := by
  refine ⟨variables_perm c vs h, ?_, fun hd => variables_nodup c vs hd h⟩
  cases c with
  | mk own bases =>
    rw [varList] at h
    cases hi : inherit bases own with
    | error e => rw [hi] at h; cases h
    | ok l =>
      rw [hi] at h
      simp only [Except.map, Except.ok.injEq] at h
      subst h
      refine ⟨_, _, rfl, fun v hv => (List.mem_filter.mp hv).2, fun v hv => ?_⟩
      simpa using (List.mem_filter.mp hv).2

/-- A class with three Variables of its own. -/
def mine : Cls := .mk [⟨"age", .float64⟩, ⟨"p", .float32⟩, ⟨"n", .int64⟩] [jitParticle]

example : (varList mine).toOption.map (List.map Var.name) =
    some ["time", "id", "dt", "_next_dt", "age", "n", "lon", "lat", "depth", "xi", "yi", "zi", "ti", "fileid", "state", "p"] := by
  decide +kernel

example : mine.ownDistinct := by
  simp [mine, jitParticle, scipyParticle, Cls.ownDistinct, basesDistinct]

/-- C53. A Variable with the name of an inherited one, or with the name z, makes the class invalid. -/
theorem C53_reserved (own : List Var) (b : Cls) (bases : List Cls) (v : Var) (hv : v ∈ own)
    (h : v.name = "z" ∨ ∃ w ∈ b.all, w.name = v.name) : ∀ vs, varList (.mk own (b :: bases)) ≠ .ok vs := by
  intro vs hvs
  rw [varList, inherit] at hvs
  cases hb : varList b with
  | error e => rw [hb] at hvs; cases hvs
  | ok l =>
    rw [hb] at hvs
    simp only at hvs
    cases hc : clash l own with
    | some e => rw [hc] at hvs; cases hvs
    | none =>
      have hcl := clash_none hc v hv
      rcases h with h | ⟨w, hw, hwn⟩
      · exact hcl.2 h
      · exact hcl.1 (hwn ▸ List.mem_map_of_mem ((variables_perm b l hb).mem_iff.mpr hw))

example : (varList (.mk [⟨"lon", .float64⟩] [jitParticle])) = .error (.builtin "lon") := by decide +kernel
example : (varList (.mk [] [jitParticle, jitParticle])) = .error (.builtin "time") := by decide +kernel

/-- What is not checked: two Variables of one class with the same name. -/
theorem C53_same_name_fails : ∃ c vs, varList c = .ok vs ∧ ¬ (vs.map Var.name).Nodup :=
  ⟨.mk [⟨"p", .float32⟩, ⟨"p", .float64⟩] [scipyParticle], _, rfl, by decide +kernel⟩

/-! ### Alignment -/

theorem supported_width {v : Var} (h : supported v = true) : width v = if v.is64 then 8 else 4 := by
  rcases v with ⟨n, t⟩
  cases t <;> first | rfl | cases h

theorem packed_tiles : ∀ (vs : List Var) (off : ℕ), Tiles off (packed off vs).1 (packed off vs).2
  | [], off => .nil (le_refl _)
  | v :: vs, off => .cons (le_refl _) (packed_tiles vs _)

theorem packed_fields : ∀ (vs : List Var) (off : ℕ), (packed off vs).1.map Prod.fst = vs
  | [], _ => rfl
  | v :: vs, off => by simp [packed, packed_fields vs]

theorem packed_end : ∀ (vs : List Var) (off : ℕ), (packed off vs).2 = off + (vs.map width).sum
  | [], _ => rfl
  | v :: vs, off => by
    simp only [packed, packed_end vs, List.map_cons, List.sum_cons]
    ring

theorem roundUp_self (o a : ℕ) (ha : 0 < a) (h : o % a = 0) : roundUp o a = o := by
  obtain ⟨k, rfl⟩ := Nat.dvd_of_mod_eq_zero h
  unfold roundUp
  have : (a * k + a - 1) / a = k := by
    rw [show a * k + a - 1 = (a - 1) + a * k by omega, Nat.add_mul_div_left _ _ ha, Nat.div_eq_of_lt (by omega)]
    omega
  rw [this, Nat.mul_comm]

/-- Fields of 4 bytes from a multiple of 4. -/
theorem packed_narrow : ∀ (vs : List Var) (off : ℕ), off % 4 = 0 → (∀ v ∈ vs, width v = 4) →
    (∀ x ∈ (packed off vs).1, x.2 % width x.1 = 0) ∧ natural off vs = packed off vs
  | [], off, _, _ => ⟨by simp [packed], rfl⟩
  | v :: vs, off, ho, hw => by
    have hv : width v = 4 := hw v (by simp)
    have ih := packed_narrow vs (off + width v) (by omega) (fun w h => hw w (by simp [h]))
    constructor
    · intro x hx
      rcases List.mem_cons.mp hx with rfl | hx
      · simp only [hv]; exact ho
      · exact ih.1 x hx
    · have hr : roundUp off (width v) = off := by rw [hv]; exact roundUp_self off 4 (by norm_num) ho
      simp only [natural, packed, hr, ih.2]

/-- Fields of 8 bytes from a multiple of 8, and then fields of 4 bytes. -/
theorem packed_wide : ∀ (a b : List Var) (off : ℕ), off % 8 = 0 → (∀ v ∈ a, width v = 8) → (∀ v ∈ b, width v = 4) →
    (∀ x ∈ (packed off (a ++ b)).1, x.2 % width x.1 = 0) ∧ natural off (a ++ b) = packed off (a ++ b)
  | [], b, off, ho, _, hb => packed_narrow b off (by omega) hb
  | v :: a, b, off, ho, ha, hb => by
    have hv : width v = 8 := ha v (by simp)
    have ih := packed_wide a b (off + width v) (by omega) (fun w h => ha w (by simp [h])) hb
    constructor
    · intro x hx
      rcases List.mem_cons.mp hx with rfl | hx
      · simp only [hv]; exact ho
      · exact ih.1 x hx
    · have hr : roundUp off (width v) = off := by rw [hv]; exact roundUp_self off 8 (by norm_num) ho
      simp only [List.cons_append, natural, packed, hr, ih.2]

theorem size_mod : ∀ vs : List Var, size vs % 4 = 0
  | [] => rfl
  | v :: vs => by
    have := size_mod vs
    simp only [size, List.map_cons, List.sum_cons] at this ⊢
    split <;> omega

/-- C53. The layout of an accepted class in which all dtypes are supported: the fields are the variables and possibly padding; they
do not overlap; each lies at a multiple of its width; the size is a multiple of 8 bytes; and a C compiler that aligns members
naturally places them at the same offsets. -/
theorem C53_layout (c : Cls) (vs fields : List Var) (h : varList c = .ok vs) (hf : dtype vs = some fields) :
    (fields = vs ∨ ∃ pad, fields = vs ++ [pad]) ∧
    (packed 0 fields).1.map Prod.fst = fields ∧ Tiles 0 (packed 0 fields).1 (packed 0 fields).2 ∧
    (∀ x ∈ (packed 0 fields).1, x.2 % width x.1 = 0) ∧ (packed 0 fields).2 % 8 = 0 ∧ natural 0 fields = packed 0 fields := by
  unfold dtype at hf
  split at hf
  swap
  · cases hf
  rename_i hs
  have hs : ∀ v ∈ vs, supported v = true := by simpa using hs
  simp only [Option.some.injEq] at hf
  obtain ⟨_, ⟨a, b, hab, ha, hb⟩, _⟩ := C53_variables c vs h
  have hsum : (vs.map width).sum = size vs := by
    unfold size
    congr 1
    exact List.map_congr_left fun v hv => supported_width (hs v hv)
  have ha8 : ∀ v ∈ a, width v = 8 := fun v hv => by rw [supported_width (hs v (by simp [hab, hv])), ha v hv]; rfl
  have hb4 : ∀ v ∈ b, width v = 4 := fun v hv => by rw [supported_width (hs v (by simp [hab, hv])), hb v hv]; rfl
  have hm := size_mod vs
  refine ⟨?_, packed_fields _ _, packed_tiles _ _, ?_⟩
  · rw [← hf]
    split
    · exact .inr ⟨_, rfl⟩
    · exact .inl rfl
  · split at hf
    · rename_i hp
      subst hf
      have := packed_wide a (b ++ [⟨"pad", .float32⟩]) 0 rfl ha8 (fun v hv => by
        rcases List.mem_append.mp hv with hv | hv
        · exact hb4 v hv
        · rw [List.mem_singleton.mp hv]; rfl)
      rw [← List.append_assoc, ← hab] at this
      refine ⟨this.1, ?_, this.2⟩
      rw [packed_end, List.map_append, List.sum_append, hsum]
      simp only [List.map_cons, List.map_nil, List.sum_cons, List.sum_nil, width]
      omega
    · rename_i hp
      subst hf
      have := packed_wide a b 0 rfl ha8 hb4
      rw [← hab] at this
      refine ⟨this.1, ?_, this.2⟩
      rw [packed_end, hsum]
      omega

example : ((varList mine).toOption.bind dtype).map (fun l => ((packed 0 l).2, l.length)) = some (88, 16) := by decide +kernel
example : ((varList (.mk [⟨"age", .float64⟩, ⟨"n", .int64⟩] [jitParticle])).toOption.bind dtype).map
    (fun l => ((packed 0 l).2, l.length)) = some (88, 16) := by decide +kernel

/-- Why the 64-bit variables must come first: otherwise numpy's offsets are not those of C. -/
example : natural 0 [⟨"p", .float32⟩, ⟨"age", .float64⟩] ≠ packed 0 [⟨"p", .float32⟩, ⟨"age", .float64⟩] := by decide +kernel

/-! ### The copy made before a kernel -/

theorem setBackup_other {X : Type} (p : String → X) (n : String) : ∀ (vs : List Var) (b : String → X),
    (∀ v ∈ vs, copied v = true → v.name ≠ n) → setBackup vs p b n = b n
  | [], _, _ => rfl
  | v :: vs, b, h => by
    rw [setBackup, List.foldl_cons]
    refine (setBackup_other p n vs _ fun w hw => h w (by simp [hw])).trans ?_
    split
    · rename_i hc
      have := h v (by simp) hc
      simp [Ne.symm this]
    · rfl

theorem setBackup_get {X : Type} (p : String → X) (v : Var) : ∀ (vs : List Var) (b : String → X), v ∈ vs → copied v = true →
    setBackup vs p b v.name = p v.name
  | w :: vs, b, hv, hc => by
    by_cases h : ∃ u ∈ vs, copied u = true ∧ u.name = v.name
    · obtain ⟨u, hu, hcu, hun⟩ := h
      rw [setBackup, List.foldl_cons, ← hun]
      exact setBackup_get p u vs _ hu hcu
    · have h' : ∀ u ∈ vs, copied u = true → u.name ≠ v.name := fun u hu hcu hn => h ⟨u, hu, hcu, hn⟩
      rcases List.mem_cons.mp hv with rfl | hv
      · rw [setBackup, List.foldl_cons, if_pos hc]
        exact (setBackup_other p v.name vs _ h').trans (by simp)
      · exact absurd rfl (h' v hv hc)

theorem getBackup_eq {X : Type} (vs : List Var) (p b : String → X) : getBackup vs p b = setBackup vs b p := rfl

/-- C67. Whatever a kernel does to the variables of a particle, restoring the copy made before it gives back all variables but dt and
state, and these two, and whatever else there is, stay as the kernel left them. -/
theorem C67_backup_partial {X : Type} (c : Cls) (vs : List Var) (h : varList c = .ok vs) (before after junk : String → X) :
    let restored := getBackup vs after (setBackup vs before junk)
    (∀ v ∈ c.all, v.name ≠ "dt" → v.name ≠ "state" → v.dtype ≠ .uint64 → restored v.name = before v.name) ∧
    (∀ v ∈ c.all, v.name = "dt" ∨ v.name = "state" → restored v.name = after v.name) ∧
    (∀ n, (∀ v ∈ c.all, v.name ≠ n) → restored n = after n) := by
  intro restored
  have hp := variables_perm c vs h
  refine ⟨fun v hv h1 h2 h3 => ?_, fun v hv hn => ?_, fun n hn => ?_⟩
  · have hc : copied v = true := by simp [copied, h1, h2, h3]
    have hm := hp.mem_iff.mpr hv
    show setBackup vs _ after v.name = _
    rw [setBackup_get _ v vs _ hm hc, setBackup_get _ v vs _ hm hc]
  · refine setBackup_other _ _ _ _ fun w hw hc hwn => ?_
    simp only [copied, Bool.and_eq_true, bne_iff_ne, ne_eq] at hc
    rcases hn with hn | hn
    · exact hc.1.2 (hwn.trans hn)
    · exact hc.2 (hwn.trans hn)
  · exact setBackup_other _ _ _ _ fun w hw _ => hn w (hp.mem_iff.mp hw)

/-- The full claim (all varList but dt and state are given back) is false: a Variable of dtype uint64 is not copied. -/
theorem C67_backup_uint64_fails : ∃ (c : Cls) (vs : List Var), varList c = .ok vs ∧ c.ownDistinct ∧ ∃ v ∈ c.all, v.name = "n" ∧
    getBackup vs (fun _ => (2 : ℕ)) (setBackup vs (fun _ => 1) fun _ => 0) v.name ≠ 1 := by
  refine ⟨.mk [⟨"n", .uint64⟩] [jitParticle], _, rfl, ?_, ⟨"n", .uint64⟩, ?_, rfl, by decide +kernel⟩
  · simp [jitParticle, scipyParticle, Cls.ownDistinct, basesDistinct]
  · simp [Cls.all]

end Parcels.Layout
