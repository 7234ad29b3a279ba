import Verif.Spec.ChunkSpec

/-! Lemmas for C86. -/

namespace Parcels.ChunkSpec

theorem availLoop_lookup (dims : List String) (c : Option Dict) (d : String) (ds : List String) (i neg : Int) (hn : neg ≤ i)
    (hd : d ∈ ds) : present ((availLoop dims c ds i neg).lookup d).join = decide (d ∈ dims ∧ whole c d = false) := by
  induction ds generalizing i neg with
  | nil => simp at hd
  | cons e es ih =>
    have step : ∀ (x : Option Int) (rest : List (String × Option Int)), d ≠ e → ((e, x) :: rest).lookup d = rest.lookup d := by
      intro x rest h
      simp [List.lookup, beq_eq_false_iff_ne.mpr h]
    by_cases he : d = e
    · subst he
      unfold availLoop
      by_cases h1 : d ∉ dims
      · rw [if_pos h1]; simp [List.lookup, present, h1]
      · rw [if_neg h1]
        have h1' : d ∈ dims := by simpa using h1
        by_cases h2 : whole c d = true
        · rw [if_pos h2]; simp [List.lookup, present, h2]
        · rw [if_neg h2]
          have : 0 ≤ i - neg := by omega
          simp [List.lookup, present, h1', h2, hn]
    · have hd' : d ∈ es := by simpa [he] using hd
      unfold availLoop
      by_cases h1 : e ∉ dims
      · rw [if_pos h1, step _ _ he]; exact ih _ _ (by omega) hd'
      · rw [if_neg h1]
        by_cases h2 : whole c e = true
        · rw [if_pos h2, step _ _ he]; exact ih _ _ (by omega) hd'
        · rw [if_neg h2, step _ _ he]; exact ih _ _ (by omega) hd'

theorem avail_present (dims : List String) (c : Option Dict) (d : String) (hd : d ∈ order) :
    present (avail dims c d) = decide (d ∈ dims ∧ whole c d = false) :=
  availLoop_lookup dims c d order 0 0 (le_refl _) hd

theorem mem_order (d : String) : d ∈ order ↔ (d = "time" ∨ d = "depth" ∨ d = "lat" ∨ d = "lon") := by
  simp [order]

theorem find_usual (m : Maps) (f : File) (d n : String) (len : Nat) (hl : f.lookup n = some len)
    (h : ∃ before after, m d = before ++ n :: after ∧ ∀ x ∈ before, f.lookup x = none) :
    ((m d).find? fun n => (f.lookup n).isSome) = some n := by
  obtain ⟨a, b, hm, hx⟩ := h
  rw [List.find?_eq_some_iff_append]
  refine ⟨by simp [hl], a, b, hm, ?_⟩
  intro x hxa
  simp [hx x hxa]

theorem inDataset_found (m : Maps) (f : File) (dims : List String) (c : Option Dict) (d nc n : String) (len : Nat)
    (h : Meant m f d nc n len) : inDataset m f dims c d (some nc) = (avail dims c d, n, len) := by
  obtain ⟨hl, h | ⟨hno, hu⟩⟩ := h
  · subst h; simp [inDataset, hl]
  · simp only [inDataset, Option.bind_some, hno]
    rw [find_usual m f d n len hl hu]
    simp [hl]

theorem inDataset_lost (m : Maps) (f : File) (dims : List String) (c : Option Dict) (d nc : String)
    (h : ∀ n len, ¬ Meant m f d nc n len) : inDataset m f dims c d (some nc) = (some (-1), "", 0) := by
  have h1 : f.lookup nc = none := by
    cases hq : f.lookup nc with
    | none => rfl
    | some len => exact absurd ⟨hq, Or.inl rfl⟩ (h nc len)
  simp only [inDataset, Option.bind_some, h1]
  cases hf : (m d).find? fun n => (f.lookup n).isSome with
  | none => rfl
  | some n =>
    exfalso
    rw [List.find?_eq_some_iff_append] at hf
    obtain ⟨hs, a, b, hm, hx⟩ := hf
    obtain ⟨len, hlen⟩ := Option.isSome_iff_exists.mp hs
    exact h n len ⟨hlen, Or.inr ⟨h1, a, b, hm, fun x hxa => by simpa using hx x hxa⟩⟩

theorem meant_unique {m : Maps} {f : File} {d nc n n' : String} {len len' : Nat} (h : Meant m f d nc n len)
    (h' : Meant m f d nc n' len') : n = n' ∧ len = len' := by
  have h1 := inDataset_found m f [] none d nc n len h
  have h2 := inDataset_found m f [] none d nc n' len' h'
  rw [h1] at h2
  simp only [Prod.mk.injEq] at h2
  exact h2.2

theorem wanted_congr {m : Maps} {f : File} {dims : List String} {c c' : Dict} {d n : String} {v : Int}
    (h : c.lookup d = c'.lookup d) : Wanted m f dims c d n v ↔ Wanted m f dims c' d n v := by
  unfold Wanted; rw [h]

theorem wanted_unique {m : Maps} {f : File} {dims : List String} {c : Dict} {d n n' : String} {v v' : Int}
    (h : Wanted m f dims c d n v) (h' : Wanted m f dims c d n' v') : n = n' ∧ v = v' := by
  obtain ⟨_, _, nc, s, len, hl, _, hm, rfl⟩ := h
  obtain ⟨_, _, nc', s', len', hl', _, hm', rfl⟩ := h'
  rw [hl] at hl'
  simp only [Option.some.injEq, Prod.mk.injEq] at hl'
  obtain ⟨rfl, rfl⟩ := hl'
  obtain ⟨rfl, rfl⟩ := meant_unique hm hm'
  exact ⟨rfl, rfl⟩

theorem dictStep_wanted {m : Maps} {f : File} {dims : List String} {s : Dict × Blocks} {d n : String} {v : Int}
    (h : Wanted m f dims s.1 d n v) : dictStep m f dims s d = (s.1, put s.2 n v) := by
  obtain ⟨hd, hdim, nc, w, len, hl, hw, hm, rfl⟩ := h
  have hp : present (avail dims (some s.1) d) = true := by
    rw [avail_present dims _ d ((mem_order d).mpr hd)]
    simp [hdim, whole, hl, hw]
  unfold dictStep
  rw [hl]
  simp only [inDataset_found m f dims (some s.1) d nc n len hm]
  rw [if_pos ⟨hp, hw⟩]

theorem pop_absent (c : Dict) (d : String) (h : c.lookup d = none) : pop c d = c := by
  unfold pop
  induction c with
  | nil => rfl
  | cons e es ih =>
    obtain ⟨k, x⟩ := e
    have hk : d ≠ k := by
      rintro rfl
      simp [List.lookup] at h
    have h' : es.lookup d = none := by
      simpa [List.lookup, beq_eq_false_iff_ne.mpr hk] using h
    rw [List.filter_cons, if_pos (by simpa using fun h => hk h.symm), ih h']

theorem dictStep_not {m : Maps} {f : File} {dims : List String} {s : Dict × Blocks} {d : String}
    (hd : d ∈ order) (h : ∀ n v, ¬ Wanted m f dims s.1 d n v) : dictStep m f dims s d = (pop s.1 d, s.2) := by
  cases hl : s.1.lookup d with
  | none =>
    unfold dictStep
    rw [hl, pop_absent _ _ hl]
  | some e =>
    obtain ⟨nc, w⟩ := e
    unfold dictStep
    rw [hl]
    dsimp only
    rw [if_neg]
    rintro ⟨hp, hw⟩
    by_cases hm : ∃ n len, Meant m f d nc n len
    · obtain ⟨n, len, hm⟩ := hm
      rw [inDataset_found m f dims (some s.1) d nc n len hm] at hp
      rw [avail_present dims _ d hd] at hp
      have hdim : d ∈ dims := by simp at hp; exact hp.1
      exact h n _ ⟨(mem_order d).mp hd, hdim, nc, w, len, hl, hw, hm, rfl⟩
    · push Not at hm
      rw [inDataset_lost m f dims (some s.1) d nc hm] at hp
      simp [present] at hp

theorem lookup_filter_ne {β : Type} (l : List (String × β)) (k d : String) (h : d ≠ k) :
    (l.filter fun e => e.1 ≠ k).lookup d = l.lookup d := by
  induction l with
  | nil => rfl
  | cons e es ih =>
    obtain ⟨j, x⟩ := e
    by_cases hj : j = k
    · subst hj
      rw [List.filter_cons, if_neg (by simp)]
      rw [ih]; simp [List.lookup, beq_eq_false_iff_ne.mpr h]
    · rw [List.filter_cons, if_pos (by simpa using hj)]
      by_cases hd : d = j
      · subst hd; simp [List.lookup]
      · simp only [List.lookup, beq_eq_false_iff_ne.mpr hd]; exact ih

theorem lookup_filter_eq {β : Type} (l : List (String × β)) (k : String) : (l.filter fun e => e.1 ≠ k).lookup k = none := by
  induction l with
  | nil => rfl
  | cons e es ih =>
    obtain ⟨j, x⟩ := e
    by_cases hj : j = k
    · subst hj
      rw [List.filter_cons, if_neg (by simp)]; exact ih
    · rw [List.filter_cons, if_pos (by simpa using hj)]
      have : k ≠ j := fun h => hj h.symm
      simp only [List.lookup, beq_eq_false_iff_ne.mpr this]; exact ih

theorem pop_lookup (c : Dict) (k d : String) : (pop c k).lookup d = if d = k then none else c.lookup d := by
  unfold pop
  by_cases h : d = k
  · subst h; rw [if_pos rfl]; exact lookup_filter_eq c d
  · rw [if_neg h]; exact lookup_filter_ne c k d h

theorem put_lookup (b : Blocks) (k : String) (v : Int) (n : String) :
    (put b k v).lookup n = if n = k then some v else b.lookup n := by
  unfold put
  by_cases h : n = k
  · subst h; simp [List.lookup]
  · rw [if_neg h]
    simp only [List.lookup, beq_eq_false_iff_ne.mpr h]
    exact lookup_filter_ne b k n h

/-- What the loop over the dimensions does. -/
theorem fold_spec {m : Maps} {f : File} {dims : List String} (c : Dict) (ds : List String) (hnd : ds.Nodup)
    (hsub : ∀ d ∈ ds, d ∈ order) (s : Dict × Blocks) (hs : ∀ d ∈ ds, s.1.lookup d = c.lookup d) :
    let r := ds.foldl (dictStep m f dims) s
    (∀ d, d ∉ ds → r.1.lookup d = s.1.lookup d) ∧
    (∀ d ∈ ds, (∃ n v, Wanted m f dims c d n v) → r.1.lookup d = s.1.lookup d) ∧
    (∀ d ∈ ds, (∀ n v, ¬ Wanted m f dims c d n v) → r.1.lookup d = none) ∧
    (∀ n, (∀ d ∈ ds, ∀ v, ¬ Wanted m f dims c d n v) → r.2.lookup n = s.2.lookup n) ∧
    (Apart m f dims c → ∀ d ∈ ds, ∀ n v, Wanted m f dims c d n v → r.2.lookup n = some v) ∧
    (r.2 = [] ↔ s.2 = [] ∧ ∀ d ∈ ds, ∀ n v, ¬ Wanted m f dims c d n v) ∧
    ((∀ d ∈ ds, ∀ e, c.lookup d = some e → ∃ n v, Wanted m f dims c d n v) → r.1 = s.1) := by
  induction ds generalizing s with
  | nil => simp
  | cons d ds ih =>
    have hd0 : s.1.lookup d = c.lookup d := hs d (by simp)
    have hnot : d ∉ ds := (List.nodup_cons.mp hnd).1
    have hord : d ∈ order := hsub d (by simp)
    simp only [List.foldl_cons]
    by_cases hw : ∃ n v, Wanted m f dims c d n v
    · obtain ⟨n, v, hw⟩ := hw
      have hst : dictStep m f dims s d = (s.1, put s.2 n v) := dictStep_wanted ((wanted_congr hd0).mpr hw)
      rw [hst]
      obtain ⟨i1, i2, i3, i4, i5, i6, i7⟩ := ih (List.nodup_cons.mp hnd).2 (fun e he => hsub e (by simp [he])) (s.1, put s.2 n v)
        (fun e he => hs e (by simp [he]))
      refine ⟨fun e he => i1 e (fun h => he (by simp [h])), ?_, ?_, ?_, ?_, ?_, ?_⟩
      · intro e he hwe
        rcases List.mem_cons.mp he with rfl | he
        · exact i1 _ hnot
        · exact i2 e he hwe
      · intro e he hwe
        rcases List.mem_cons.mp he with rfl | he
        · exact absurd hw (hwe n v)
        · exact i3 e he hwe
      · intro k hk
        rw [i4 k (fun e he => hk e (by simp [he])), put_lookup, if_neg]
        rintro rfl
        exact hk d (by simp) v hw
      · intro hap e he k w hwk
        rcases List.mem_cons.mp he with rfl | he
        · obtain ⟨rfl, rfl⟩ := wanted_unique hw hwk
          rw [i4 n, put_lookup, if_pos rfl]
          intro e' he' w' hw'
          have := hap _ _ _ _ _ hw hw'
          subst this
          exact hnot he'
        · exact i5 hap e he k w hwk
      · constructor
        · intro h
          exact absurd (i6.mp h).1 (by simp [put])
        · rintro ⟨_, h⟩
          exact absurd hw (h d (by simp) n v)
      · intro h
        exact i7 (fun e he => h e (by simp [he]))
    · have hnw : ∀ n v, ¬ Wanted m f dims c d n v := fun n v h => hw ⟨n, v, h⟩
      have hst : dictStep m f dims s d = (pop s.1 d, s.2) :=
        dictStep_not hord (fun n v h => hnw n v ((wanted_congr hd0).mp h))
      rw [hst]
      have hlk : ∀ e, e ≠ d → (pop s.1 d).lookup e = s.1.lookup e := by
        intro e he; rw [pop_lookup, if_neg he]
      have hne : ∀ e ∈ ds, e ≠ d := by rintro e he rfl; exact hnot he
      obtain ⟨i1, i2, i3, i4, i5, i6, i7⟩ := ih (List.nodup_cons.mp hnd).2 (fun e he => hsub e (by simp [he])) (pop s.1 d, s.2)
        (fun e he => by rw [hlk e (hne e he)]; exact hs e (by simp [he]))
      refine ⟨?_, ?_, ?_, ?_, ?_, ?_, ?_⟩
      · intro e he
        have h1 : e ≠ d := by rintro rfl; exact he (by simp)
        rw [i1 e (fun h => he (by simp [h]))]; exact hlk e h1
      · intro e he hwe
        rcases List.mem_cons.mp he with rfl | he
        · exact absurd hwe hw
        · rw [i2 e he hwe]; exact hlk e (hne e he)
      · intro e he hwe
        rcases List.mem_cons.mp he with rfl | he
        · rw [i1 _ hnot, pop_lookup, if_pos rfl]
        · exact i3 e he hwe
      · intro k hk
        exact i4 k (fun e he => hk e (by simp [he]))
      · intro hap e he k w hwk
        rcases List.mem_cons.mp he with rfl | he
        · exact absurd hwk (hnw k w)
        · exact i5 hap e he k w hwk
      · rw [i6]
        constructor
        · rintro ⟨h1, h2⟩
          refine ⟨h1, fun e he => ?_⟩
          rcases List.mem_cons.mp he with rfl | he
          · exact hnw
          · exact h2 e he
        · rintro ⟨h1, h2⟩
          exact ⟨h1, fun e he => h2 e (by simp [he])⟩
      · intro h
        rw [i7 (fun e he => h e (by simp [he]))]
        have : s.1.lookup d = none := by
          cases hq : s.1.lookup d with
          | none => rfl
          | some e => exact absurd (h d (by simp) e (by rw [← hd0, hq])) hw
        exact pop_absent _ _ this

theorem order_nodup : order.Nodup := by decide

theorem byDict_spec (m : Maps) (f : File) (dims : List String) (c : Dict) :
    (∀ d, ¬ (d = "time" ∨ d = "depth" ∨ d = "lat" ∨ d = "lon") → (byDict m f dims c).1.lookup d = c.lookup d) ∧
    (∀ d, (∃ n v, Wanted m f dims c d n v) → (byDict m f dims c).1.lookup d = c.lookup d) ∧
    (∀ d, (d = "time" ∨ d = "depth" ∨ d = "lat" ∨ d = "lon") → (∀ n v, ¬ Wanted m f dims c d n v) →
      (byDict m f dims c).1.lookup d = none) ∧
    (Apart m f dims c → ∀ n v, (byDict m f dims c).2.lookup n = some v ↔ ∃ d, Wanted m f dims c d n v) ∧
    ((byDict m f dims c).2 = [] ↔ ∀ d n v, ¬ Wanted m f dims c d n v) ∧
    (AllWanted m f dims c → (byDict m f dims c).1 = c) := by
  obtain ⟨i1, i2, i3, i4, i5, i6, i7⟩ := fold_spec (m := m) (f := f) (dims := dims) c order order_nodup (fun _ h => h) (c, []) (fun _ _ => rfl)
  have hin : ∀ d n v, Wanted m f dims c d n v → d ∈ order := fun d n v h => (mem_order d).mpr h.1
  refine ⟨fun d hd => i1 d (fun h => hd ((mem_order d).mp h)), ?_, ?_, ?_, ?_, ?_⟩
  · rintro d ⟨n, v, h⟩
    exact i2 d (hin d n v h) ⟨n, v, h⟩
  · intro d hd h
    exact i3 d ((mem_order d).mpr hd) h
  · intro hap n v
    constructor
    · intro h
      by_contra hno
      push Not at hno
      by_cases hx : ∃ d w, Wanted m f dims c d n w
      · obtain ⟨d, w, hw⟩ := hx
        have h2 := i5 hap d (hin d n w hw) n w hw
        have h3 : some v = some w := by rw [← h, ← h2]; rfl
        simp only [Option.some.injEq] at h3
        exact hno d (h3 ▸ hw)
      · push Not at hx
        have h2 := i4 n (fun d _ w => hx d w)
        have : (byDict m f dims c).2.lookup n = none := h2
        rw [this] at h; simp at h
    · rintro ⟨d, hw⟩
      exact i5 hap d (hin d n v hw) n v hw
  · refine Iff.trans i6 ?_
    constructor
    · rintro ⟨_, h⟩ d n v hw
      exact h d (hin d n v hw) n v hw
    · intro h
      exact ⟨rfl, fun d _ => h d⟩
  · intro h
    exact i7 (fun d hd e he => h d e ((mem_order d).mp hd) he)

end Parcels.ChunkSpec
