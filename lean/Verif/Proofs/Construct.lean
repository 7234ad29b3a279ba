import Verif.Spec.Construct

/-! Helper lemmas for C79. -/

namespace Parcels.Construct
open Parcels.Collection (arange maxOr)

theorem set_same (d : Data) (k : String) (col : List Val) : (d.set k col) k = some col := if_pos rfl
theorem set_other (d : Data) {k x : String} (col : List Val) (h : x ≠ k) : (d.set k col) x = d x := if_neg h

theorem setKwargs_spec {rnd : DType → ℚ → ℚ} {vs : List PVar} : ∀ {kws : List (String × List Val)} {d d' : Data},
    setKwargs rnd vs kws d = .ok d' → (kws.map (·.1)).Nodup →
    (∀ k, k ∉ kws.map (·.1) → d' k = d k) ∧
    (∀ k col, (k, col) ∈ kws → d' k = some (col.map (cast rnd (dtypeOf vs k))))
  | [], d, d', h, _ => by
    simp only [setKwargs, Except.ok.injEq] at h
    subst h
    exact ⟨fun _ _ => rfl, fun _ _ hm => absurd hm (by simp)⟩
  | (k, col) :: rest, d, d', h, hn => by
    unfold setKwargs at h
    split_ifs at h with hk
    simp only [List.map_cons, List.nodup_cons] at hn
    obtain ⟨h1, h2⟩ := setKwargs_spec h hn.2
    refine ⟨?_, ?_⟩
    · intro x hx
      simp only [List.map_cons, List.mem_cons, not_or] at hx
      rw [h1 x hx.2, set_other _ _ hx.1]
    · intro x c hx
      rcases List.mem_cons.mp hx with hx | hx
      · simp only [Prod.mk.injEq] at hx
        obtain ⟨rfl, rfl⟩ := hx
        rw [h1 _ hn.1, set_same]
      · exact h2 x c hx

theorem setKwargs_ok {rnd : DType → ℚ → ℚ} {vs : List PVar} : ∀ {kws : List (String × List Val)} {d : Data},
    (∀ k ∈ kws.map (·.1), k ∈ vs.map (·.name)) → ∃ d', setKwargs rnd vs kws d = .ok d'
  | [], d, _ => ⟨d, rfl⟩
  | (k, col) :: rest, d, h => by
    unfold setKwargs
    rw [if_pos (h k (by simp))]
    exact setKwargs_ok fun x hx => h x (by simp only [List.map_cons, List.mem_cons]; exact Or.inr hx)

theorem initRest_append {rnd : DType → ℚ → ℚ} {given : List String} {pts : List (Val × ℚ × ℚ × ℚ)} :
    ∀ {vs ws : List PVar} {d d' : Data}, initRest rnd given pts (vs ++ ws) d = .ok d' →
      ∃ d1, initRest rnd given pts vs d = .ok d1 ∧ initRest rnd given pts ws d1 = .ok d'
  | [], ws, d, d', h => ⟨d, rfl, h⟩
  | v :: vs, ws, d, d', h => by
    rw [List.cons_append, initRest] at h
    rw [initRest]
    split_ifs at h with hg
    · rw [if_pos hg]; exact initRest_append h
    · rw [if_neg hg]
      cases hc : initCol pts d v.init with
      | error e => rw [hc] at h; simp at h
      | ok col => rw [hc] at h; exact initRest_append h

theorem initRest_other {rnd : DType → ℚ → ℚ} {given : List String} {pts : List (Val × ℚ × ℚ × ℚ)} :
    ∀ {vs : List PVar} {d d' : Data}, initRest rnd given pts vs d = .ok d' → ∀ k, k ∈ given ∨ k ∉ vs.map (·.name) → d' k = d k
  | [], d, d', h, k, _ => by
    simp only [initRest, Except.ok.injEq] at h; rw [h]
  | v :: vs, d, d', h, k, hk => by
    unfold initRest at h
    have hk' : k ∈ given ∨ k ∉ vs.map (·.name) := by
      rcases hk with hk | hk
      · exact Or.inl hk
      · simp only [List.map_cons, List.mem_cons, not_or] at hk; exact Or.inr hk.2
    split_ifs at h with hg
    · exact initRest_other h k hk'
    · cases hc : initCol pts d v.init with
      | error e => rw [hc] at h; simp at h
      | ok col =>
        rw [hc] at h
        rw [initRest_other h k hk', set_other]
        rintro rfl
        rcases hk with hk | hk
        · exact hg hk
        · exact hk (by simp)

theorem initRest_split {rnd : DType → ℚ → ℚ} {given : List String} {pts : List (Val × ℚ × ℚ × ℚ)} {pre post : List PVar} {v : PVar}
    {d d' : Data} (h : initRest rnd given pts (pre ++ v :: post) d = .ok d') (hv : v.name ∉ given) (hp : v.name ∉ post.map (·.name)) :
    ∃ d1 col, initRest rnd given pts pre d = .ok d1 ∧ initCol pts d1 v.init = .ok col ∧
      d' v.name = some (col.map (cast rnd v.dtype)) ∧ ∀ k, k ∈ given ∨ k ∉ (v :: post).map (·.name) → d' k = d1 k := by
  obtain ⟨d1, h1, h2⟩ := initRest_append h
  have h3 := initRest_other h2
  unfold initRest at h2
  rw [if_neg hv] at h2
  cases hc : initCol pts d1 v.init with
  | error e => rw [hc] at h2; simp at h2
  | ok col =>
    rw [hc] at h2
    exact ⟨d1, col, h1, hc, by rw [initRest_other h2 _ (Or.inr hp), set_same], h3⟩

theorem sampleAll_spec {f : ℚ → ℚ → ℚ → ℚ → Option ℚ} : ∀ {pts : List (Val × ℚ × ℚ × ℚ)} {l : List Val}, sampleAll f pts = .ok l →
    l.length = pts.length ∧
    ∀ (i : Nat) (p : Val × ℚ × ℚ × ℚ), pts[i]? = some p → ∃ t w, p.1 = some t ∧ f t p.2.1 p.2.2.1 p.2.2.2 = some w ∧ l[i]? = some (some w)
  | [], l, h => by
    simp only [sampleAll, Except.ok.injEq] at h
    subst h
    exact ⟨rfl, fun i p hp => absurd hp (by simp)⟩
  | (none, _) :: _, l, h => by simp [sampleAll] at h
  | (some t, z, y, x) :: rest, l, h => by
    unfold sampleAll at h
    cases hf : f t z y x with
    | none => rw [hf] at h; simp at h
    | some w =>
      rw [hf] at h
      simp only at h
      cases hr : sampleAll f rest with
      | error e => rw [hr] at h; simp [Except.map] at h
      | ok l' =>
        rw [hr] at h
        simp only [Except.map, Except.ok.injEq] at h
        subst h
        obtain ⟨h1, h2⟩ := sampleAll_spec hr
        refine ⟨by simp [h1], ?_⟩
        intro i p hp
        cases i with
        | zero =>
          simp only [List.getElem?_cons_zero, Option.some.injEq] at hp
          subst hp
          exact ⟨t, w, rfl, hf, rfl⟩
        | succ i =>
          simp only [List.getElem?_cons_succ] at hp ⊢
          exact h2 i p hp

theorem sampleAll_ok {f : ℚ → ℚ → ℚ → ℚ → Option ℚ} : ∀ {pts : List (Val × ℚ × ℚ × ℚ)},
    (∀ p ∈ pts, ∃ t w, p.1 = some t ∧ f t p.2.1 p.2.2.1 p.2.2.2 = some w) → ∃ l, sampleAll f pts = .ok l
  | [], _ => ⟨[], rfl⟩
  | (o, z, y, x) :: rest, h => by
    obtain ⟨t, w, h1, h2⟩ := h _ List.mem_cons_self
    dsimp only at h1 h2
    subst h1
    obtain ⟨l, hl⟩ := sampleAll_ok fun p hp => h p (List.mem_cons_of_mem _ hp)
    exact ⟨some w :: l, by unfold sampleAll; rw [h2]; simp [hl, Except.map]⟩

theorem initCol_size {n : Nat} {pts : List (Val × ℚ × ℚ × ℚ)} (hp : pts.length = n) {d : Data}
    (hd : ∀ k col, d k = some col → col.length = n) {x : Init} {col : List Val} (h : initCol pts d x = .ok col) : col.length = n := by
  cases x with
  | const c => simp only [initCol, Except.ok.injEq] at h; subst h; simp [hp]
  | field f => simp only [initCol] at h; rw [(sampleAll_spec h).1, hp]
  | copy k =>
    simp only [initCol] at h
    cases hk : d k with
    | none => rw [hk] at h; simp only [Except.ok.injEq] at h; subst h; simp [hp]
    | some c => rw [hk] at h; simp only [Except.ok.injEq] at h; subst h; exact hd k c hk

theorem initRest_size {n : Nat} {rnd : DType → ℚ → ℚ} {given : List String} {pts : List (Val × ℚ × ℚ × ℚ)} (hp : pts.length = n) :
    ∀ {vs : List PVar} {d d' : Data}, initRest rnd given pts vs d = .ok d' → (∀ k col, d k = some col → col.length = n) →
      ∀ k col, d' k = some col → col.length = n
  | [], d, d', h, hd => by
    simp only [initRest, Except.ok.injEq] at h; subst h; exact hd
  | v :: vs, d, d', h, hd => by
    rw [initRest] at h
    split_ifs at h with hg
    · exact initRest_size hp h hd
    · cases hc : initCol pts d v.init with
      | error e => rw [hc] at h; simp at h
      | ok c =>
        rw [hc] at h
        refine initRest_size hp h ?_
        intro k col hk
        unfold Data.set at hk
        split_ifs at hk with hkv
        · simp only [Option.some.injEq] at hk
          subst hk
          rw [List.length_map]
          exact initCol_size hp hd hc
        · exact hd k col hk

theorem dtypeOf_mem : ∀ {vs : List PVar}, (vs.map (·.name)).Nodup → ∀ v ∈ vs, dtypeOf vs v.name = v.dtype
  | w :: vs, hn, v, hv => by
    simp only [List.map_cons, List.nodup_cons] at hn
    unfold dtypeOf
    rcases List.mem_cons.mp hv with rfl | hv
    · simp
    · have hne : w.name ≠ v.name := fun h => hn.1 (h ▸ List.mem_map_of_mem hv)
      rw [List.find?_cons_of_neg (by simpa using hne)]
      exact dtypeOf_mem hn.2 v hv

theorem mem_classVars {coord : DType} {user : List PVar} {v : PVar} : v ∈ classVars coord user ↔ v ∈ builtin coord ++ user := by
  unfold classVars
  simp only [List.mem_append, List.mem_filter]
  cases h : v.dtype.is64 <;> simp

theorem perm_classVars (coord : DType) (user : List PVar) : (classVars coord user).Perm (builtin coord ++ user) :=
  List.filter_append_perm _ _

theorem nodup_classVars {coord : DType} {user : List PVar} (h : ((builtin coord ++ user).map (·.name)).Nodup) :
    ((classVars coord user).map (·.name)).Nodup :=
  ((perm_classVars coord user).map _).nodup_iff.mpr h

theorem before_filter {p : PVar → Bool} {l : List PVar} {u v : PVar} (hu : p u = true) (hv : p v = true) (h : Before l u v) :
    Before (l.filter p) u v := by
  obtain ⟨a, b, c, rfl⟩ := h
  exact ⟨a.filter p, b.filter p, c.filter p, by simp [List.filter_append, List.filter_cons, hu, hv]⟩

theorem ready_before {coord : DType} {user : List PVar} {given : List String} {u v : PVar} (hu : u ∈ builtin coord ++ user)
    (hv : v ∈ builtin coord ++ user) (h : Ready given (builtin coord ++ user) u v) :
    u.name ∈ given ∨ Before (classVars coord user) u v := by
  rcases h with h | ⟨h1, h2⟩ | ⟨h1, h2⟩
  · exact Or.inl h
  · right
    have a := List.mem_filter (p := fun v => v.dtype.is64) |>.mpr ⟨hu, h1⟩
    have b := List.mem_filter (p := fun v => !v.dtype.is64) |>.mpr ⟨hv, by simp [h2]⟩
    obtain ⟨a1, a2, ha⟩ := List.append_of_mem a
    obtain ⟨b1, b2, hb⟩ := List.append_of_mem b
    refine ⟨a1, a2 ++ b1, b2, ?_⟩
    unfold classVars
    dsimp only
    rw [ha, hb]
    simp
  · right
    unfold classVars
    dsimp only
    cases hd : u.dtype.is64 with
    | true =>
      obtain ⟨a, b, c, e⟩ := before_filter (p := fun v => v.dtype.is64) hd (h1 ▸ hd) h2
      exact ⟨a, b, c ++ (builtin coord ++ user).filter fun v => !v.dtype.is64, by rw [e]; simp⟩
    | false =>
      obtain ⟨a, b, c, e⟩ := before_filter (p := fun v => !v.dtype.is64) (by simp [hd]) (by simp [← h1, hd]) h2
      exact ⟨((builtin coord ++ user).filter fun v => v.dtype.is64) ++ a, b, c, by rw [e]; simp⟩

theorem times_get {a : Args} {i : Nat} (hi : i < a.lon.length) : (times a.lon.length a.time)[i]? = timeOf a i := by
  unfold times timeOf
  cases a.time with
  | none => simp [hi]
  | one t => simp [hi]
  | many l => rcases l with _ | ⟨t, _ | ⟨t', l⟩⟩ <;> simp [hi]

end Parcels.Construct
