import Verif.Proofs.Access
import Verif.Proofs.Collection3

/-!
C84: looping over a ParticleSet and working with a single particle.

Full property: a loop over a set visits every particle of the set once, in order; what is read or written
through the particle at hand belongs to that particle, also when the set has changed since; and
`pset.v` is the list of the values that the particles have for `v`.

Proved: visiting, reading, writing, whole loops of assignments, selections by value. False in the code:
a particle that was kept while others were removed (or put in front) is another particle afterwards;
removing in a loop skips a particle or raises; assigning to `pset.v` changes no particle; names
that are nothing give `False`.
-/

namespace Parcels.Access

open Collection

variable {V : Type}

/-! ### Which particles a loop visits -/

/-- C84: a loop over the whole set runs its body once for each particle, in the order of the set, or in the
opposite order for `reversed`, whatever the body does, until the body raises. -/
theorem C84_visits {S : Type} {c : Coll V} (hA : Aligned c) (rev : Bool)
    (body : ℤ → Coll V × S → Except Err (Coll V × S)) (s : S) :
    loopOver rev none body c s =
      (((if rev then (List.range c.ids.length).reverse else List.range c.ids.length).map
        fun (k : Nat) => (k : ℤ))).foldlM (fun st i => body i st) (c, s) :=
  loopOver_all hA rev body s

/-- C84: a loop over an indexed subset runs its body once for each index of the list, in that order. -/
theorem C84_visits_subset {S : Type} (c : Coll V) (l : List ℤ)
    (body : ℤ → Coll V × S → Except Err (Coll V × S)) (s : S) :
    loopOver false (some l) body c s = l.foldlM (fun st i => body i st) (c, s) :=
  loopOver_subset c l body s

/-- C84: the loop that writes down the IDs gives the IDs of the set, in order. -/
theorem C84_visits_ids {c : Coll V} (hA : Aligned c) (rev : Bool) :
    loopOver rev none (fun i (st : Coll V × List ℤ) => (getID st.1 i).map fun d => (st.1, st.2 ++ [d])) c [] =
      .ok (c, if rev then c.ids.reverse else c.ids) := by
  have key : ∀ (l : List Nat) (acc : List ℤ), (∀ k ∈ l, k < c.ids.length) →
      (l.map fun (k : Nat) => (k : ℤ)).foldlM
        (fun (st : Coll V × List ℤ) i => (getID st.1 i).map fun d => (st.1, st.2 ++ [d])) (c, acc) =
      .ok (c, acc ++ l.map fun k => c.ids.getD k 0) := by
    intro l
    induction l with
    | nil => intro acc _; simp; rfl
    | cons k l ih =>
      intro acc h
      have hk := h k List.mem_cons_self
      have hg : getID c (k : ℤ) = .ok (c.ids.getD k 0) := by
        unfold getID
        rw [npIndex_nat hk]
        simp [List.getElem?_eq_getElem hk]
      rw [List.map_cons, List.foldlM_cons]
      simp only [hg]
      refine (ih (acc ++ [c.ids.getD k 0]) fun q hq => h q (List.mem_cons_of_mem _ hq)).trans ?_
      simp
  have hids : ((List.range c.ids.length).map fun k => c.ids.getD k 0) = c.ids := by
    apply List.ext_getElem
    · simp
    · intro k h1 h2
      simp [h2]
  rw [loopOver_all hA]
  cases rev with
  | false =>
    simp only [Bool.false_eq_true, if_false]
    rw [key _ _ fun k hk => List.mem_range.1 hk, hids]
    rfl
  | true =>
    simp only [if_true]
    rw [key _ _ fun k hk => List.mem_range.1 (List.mem_reverse.1 hk), List.map_reverse, hids]
    rfl

/-! ### One particle -/

/-- C84: reading a variable of particle `i` gives the value that this particle has; negative numbers count
from the end. -/
theorem C84_read {c : Coll V} (hA : Aligned c) {v : String} (hv : v ∈ names c) (k : Nat) (hk : k < c.ids.length) :
    (∃ x, getVar c k v = .ok x ∧ Record.get (row c k) v = some x) ∧
    getVar c ((k : ℤ) - c.ids.length) v = getVar c k v := by
  refine ⟨getVar_row hA hv (npIndex_nat hk), ?_⟩
  obtain ⟨col, hcol⟩ := lookup_of_name hv
  have hlen := hA.2 _ (lookup_mem hcol)
  simp only at hlen
  have h2 : npIndex c.ids.length ((k : ℤ) - c.ids.length) = some k := by
    unfold npIndex
    rw [if_neg (by omega), if_pos (by omega)]
    congr 1
    omega
  unfold getVar
  rw [hcol]
  simp only [hlen, h2, npIndex_nat hk]

/-- C84: a particle number outside the set raises IndexError when it is used, a name that is no Variable
raises KeyError, for reading and for writing; nothing changes then. -/
theorem C84_invalid {c : Coll V} (hA : Aligned c) (i : ℤ) (v : String) (x : V) :
    (v ∉ names c → getVar c i v = .error .keyError ∧ setVar c i v x = .error .keyError) ∧
    (v ∈ names c → (i < -(c.ids.length : ℤ) ∨ (c.ids.length : ℤ) ≤ i) →
      getVar c i v = .error .indexError ∧ setVar c i v x = .error .indexError) := by
  constructor
  · intro hv
    have := lookup_none hv
    unfold getVar setVar
    rw [this]
    exact ⟨rfl, rfl⟩
  · intro hv hi
    obtain ⟨col, hcol⟩ := lookup_of_name hv
    have hlen := hA.2 _ (lookup_mem hcol)
    simp only at hlen
    have h2 : npIndex c.ids.length i = none := by
      unfold npIndex
      rw [if_neg (by omega), if_neg (by omega)]
    unfold getVar setVar
    rw [hcol]
    simp only [hlen, h2]
    exact ⟨trivial, trivial⟩

/-- C84: writing a variable of a particle changes that variable of that particle and nothing else: not its
other variables, not other particles, not the IDs or the size of the set; reading it back gives
the value written. -/
theorem C84_write {c : Coll V} (hA : Aligned c) {v : String} (hv : v ∈ names c) (k : Nat) (hk : k < c.ids.length)
    (x : V) :
    ∃ c', setVar c k v x = .ok c' ∧ getVar c' k v = .ok x ∧ Aligned c' ∧ c'.ids = c.ids ∧ c'.ncount = c.ncount ∧
      (∀ w, w ≠ v → getVar c' k w = getVar c k w) ∧
      (∀ j w, j ≠ k → j < c.ids.length → getVar c' j w = getVar c j w) ∧
      rows c' = (rows c).set k (Record.set (row c k) v x) := by
  obtain ⟨c', h1, hA', hn, hi, hc, _, hr, hj⟩ := setVar_props hA x hv (npIndex_nat hk)
  have hk' : k < c'.ids.length := by rw [hi]; exact hk
  have gv : ∀ (j : Nat) (w : String), j < c.ids.length → Record.get (row c' j) w = Record.get (row c j) w →
      getVar c' j w = getVar c j w := by
    intro j w hjl he
    by_cases hw : w ∈ names c
    · obtain ⟨y, g1, g2⟩ := getVar_row hA hw (npIndex_nat hjl)
      obtain ⟨z, g3, g4⟩ := getVar_row hA' (by rw [hn]; exact hw)
        (npIndex_nat (by rw [hi]; exact hjl : j < c'.ids.length))
      rw [he, g2] at g4
      injection g4 with g4
      rw [g1, g3, g4]
    · rw [((C84_invalid hA j w x).1 hw).1, ((C84_invalid hA' j w x).1 (by rw [hn]; exact hw)).1]
  have set_get : ∀ (r : Record V) (w : String), w ≠ v → Record.get (Record.set r v x) w = Record.get r w := by
    intro r w hw
    unfold Record.get Record.set
    congr 1
    obtain ⟨d, l⟩ := r
    induction l with
    | nil => rfl
    | cons p l ih =>
      simp only [List.map_cons] at ih ⊢
      by_cases hp : p.1 = v
      · have h3 : (w == p.1) = false := by rw [hp]; simpa using hw
        rw [if_pos hp, List.lookup_cons, List.lookup_cons]
        simp only [h3]
        exact ih
      · rw [if_neg hp, List.lookup_cons, List.lookup_cons]
        cases (w == p.1)
        · exact ih
        · rfl
  refine ⟨c', h1, ?_, hA', hi, hc, ?_, ?_, ?_⟩
  · obtain ⟨y, g1, g2⟩ := getVar_row hA' (by rw [hn]; exact hv) (npIndex_nat hk')
    rw [g1, Except.ok.injEq]
    rw [hr] at g2
    have : ∀ l : List (String × Option V), v ∈ l.map (·.1) →
        ((l.map fun p => if p.1 = v then (p.1, some x) else p).lookup v).join = some x := by
      intro l
      induction l with
      | nil => intro h; simp at h
      | cons p l ih =>
        intro h
        rw [List.map_cons]
        by_cases hp : p.1 = v
        · rw [if_pos hp, List.lookup_cons, hp]; simp
        · rw [if_neg hp, List.lookup_cons]
          have h3 : (v == p.1) = false := by simpa using fun h => hp h.symm
          rw [h3]
          simp only [List.map_cons, List.mem_cons] at h
          exact ih (h.resolve_left fun e => hp e.symm)
    have h4 := this (row c k).2 (by unfold row; simpa [names, List.map_map, Function.comp_def] using hv)
    unfold Record.get Record.set at g2
    rw [h4] at g2
    injection g2 with g2
    exact g2.symm
  · intro w hw
    exact gv k w hk (by rw [hr, set_get _ _ hw])
  · intro j w hjk hjl
    exact gv j w hjl (by rw [hj j hjk])
  · unfold rows
    rw [hi]
    apply List.ext_getElem
    · simp
    · intro j h2 h3
      simp only [List.getElem_map, List.getElem_range, List.getElem_set]
      by_cases hjk : j = k
      · subst hjk; simp [hr]
      · rw [hj j hjk, if_neg (Ne.symm hjk)]

/-- C84: `particle.update_next_dt(x)` changes nothing yet; the following `update_next_dt()` sets the `dt` of that particle
to `x`, once. -/
theorem C84_next_dt {c : Coll V} (hA : Aligned c) (hv : "dt" ∈ names c) (k : Nat) (hk : k < c.ids.length) (x : V)
    (old : Option V) :
    updateNextDt c k old (some x) = .ok (c, some x) ∧
    ∃ c', updateNextDt c k (some x) none = .ok (c', none) ∧
      rows c' = (rows c).set k (Record.set (row c k) "dt" x) ∧
      updateNextDt c' k none none = .ok (c', none) := by
  refine ⟨rfl, ?_⟩
  obtain ⟨c', h1, _, _, _, _, _, _, h2⟩ := C84_write hA hv k hk x
  refine ⟨c', ?_, h2, rfl⟩
  simp only [updateNextDt, h1]

/-! ### Loops that work on each particle -/

/-- C84: a loop whose body assigns variables of the particle at hand, each from other variables of
that particle, does to every particle of the set what the body says for one particle; forward and backward give the same. -/
theorem C84_loop {c : Coll V} (hA : Aligned c) (as : List (Assign V)) (hU : Uses as (names c)) (rev : Bool) :
    ∃ c', loopOver rev none (asBody as) c () = .ok (c', ()) ∧ Aligned c' ∧ c'.ids = c.ids ∧
      names c' = names c ∧ rows c' = (rows c).map (Record.run as) := by
  rw [loopOver_all hA]
  have hl : ∀ k ∈ (if rev then (List.range c.ids.length).reverse else List.range c.ids.length),
      k < c.ids.length := by
    intro k hk
    cases rev <;> simpa using hk
  have hN : (if rev then (List.range c.ids.length).reverse else List.range c.ids.length).Nodup := by
    cases rev
    · exact List.nodup_range
    · exact List.nodup_reverse.2 List.nodup_range
  obtain ⟨c', h1, h2, h3, h4, h5⟩ := foldl_assign as _ c hA hU hN hl
  refine ⟨c', h1, h2, h4, h3, ?_⟩
  unfold rows
  rw [h4, List.map_map]
  apply List.map_congr_left
  intro k hk
  rw [h5, if_pos]
  · rfl
  · cases rev
    · exact hk
    · exact List.mem_reverse.2 hk

/-- C84: the same for a subset of the particles: exactly the particles of the subset are changed. -/
theorem C84_loop_subset {c : Coll V} (hA : Aligned c) (as : List (Assign V)) (hU : Uses as (names c)) (l : List Nat)
    (hN : l.Nodup) (hl : ∀ k ∈ l, k < c.ids.length) :
    ∃ c', loopOver false (some (l.map fun (k : Nat) => (k : ℤ))) (asBody as) c () = .ok (c', ()) ∧
      Aligned c' ∧ c'.ids = c.ids ∧
      ∀ k, row c' k = if k ∈ l then Record.run as (row c k) else row c k := by
  rw [loopOver_subset]
  obtain ⟨c', h1, h2, _, h4, h5⟩ := foldl_assign as l c hA hU hN hl
  exact ⟨c', h1, h2, h4, h5⟩

/-! ### Selecting particles -/

/-- C84: `data_indices` gives, in ascending order and once each, the numbers of exactly the particles whose
value is one of those asked for (or none of them, with `invert`). -/
theorem C84_data_indices (eq : V → V → Bool) {c : Coll V} {v : String} (hv : v ∈ names c) (values : List V)
    (inv : Bool) :
    ∃ ks : List Nat, dataIndices eq c v values inv = .ok (ks.map fun (k : Nat) => (k : ℤ)) ∧
      ks.Pairwise (· < ·) ∧
      ∀ k, k ∈ ks ↔ ∃ x, Record.get (row c k) v = some x ∧
        (if inv then ∀ y ∈ values, eq x y = false else ∃ y ∈ values, eq x y = true) := by
  obtain ⟨col, hcol⟩ := lookup_of_name hv
  have hok : ∃ l, dataIndices eq c v values inv = .ok l := by
    unfold dataIndices; rw [hcol]; exact ⟨_, rfl⟩
  obtain ⟨l, hl⟩ := hok
  obtain ⟨ks, h1, h2, h3⟩ := dataIndices_mem hl
  refine ⟨ks, by rw [hl, h1], h2, ?_⟩
  intro k
  rw [h3]
  cases inv <;> simp

/-- C84: a loop over `error_particles` visits exactly the particles whose state is neither Success nor
Evaluate, each once; `num_error_particles` is their number. -/
theorem C84_error_particles (eq : V → V → Bool) (success evaluate : V) {c : Coll V} (hv : "state" ∈ names c) :
    ∃ ks : List Nat, errorIter eq success evaluate c = .ok ⟨ks.map fun (k : Nat) => (k : ℤ), ks.length, 0⟩ ∧
      ks.Pairwise (· < ·) ∧
      (∀ k, k ∈ ks ↔ ∃ x, Record.get (row c k) "state" = some x ∧ eq x success = false ∧ eq x evaluate = false) ∧
      numErrors eq success evaluate c = .ok ks.length := by
  obtain ⟨ks, h1, h2, h3⟩ := C84_data_indices eq hv [success, evaluate] true
  refine ⟨ks, ?_, h2, ?_, ?_⟩
  · unfold errorIter
    rw [h1]
    simp [mkIter]
  · intro k
    rw [h3]
    simp
  · obtain ⟨col, hcol⟩ := lookup_of_name hv
    unfold numErrors
    unfold dataIndices at h1
    rw [hcol] at h1 ⊢
    simp only [Except.ok.injEq] at h1 ⊢
    have := congrArg List.length h1
    rw [List.length_map, List.length_map] at this
    rw [← this, ← countP_range]
    simp only [Bool.bne_true]
    congr 1

/-! ### A particle that is kept while the set changes -/

/-- C84, partial: a particle that is kept is still the same one after removing only particles that come
after it, and after adding particles with larger IDs. Missing (and false, see below): after
removing an earlier particle, and after adding particles with smaller IDs. -/
theorem C84_kept_particle_partial {c : Coll V} (hA : Aligned c) (hf : FlagOK c) (k : Nat) (hk : k < c.ids.length) :
    (∀ (idx : List Nat) c', removeMulti c (idx.map fun (i : Nat) => (i : ℤ)) = .ok c' → (∀ i ∈ idx, k < i) →
      row c' k = row c k) ∧
    (∀ o : Coll V, Aligned o → FlagOK o → names o = names c → (names o).Nodup →
      (∀ a ∈ c.ids, ∀ b ∈ o.ids, a < b) → row (addSame c o).1 k = row c k) := by
  constructor
  · intro idx c' h hi
    unfold removeMulti at h
    rcases hm : (idx.map fun (i : Nat) => (i : ℤ)).mapM (npIndex c.ids.length) with _ | del
    · rw [hm] at h; simp at h
    · rw [hm] at h
      simp only [Except.ok.injEq] at h
      subst h
      have hdel : ∀ (idx : List Nat) (del : List Nat),
          (idx.map fun (i : Nat) => (i : ℤ)).mapM (npIndex c.ids.length) = some del → del = idx := by
        intro idx
        induction idx with
        | nil => intro del h; simpa using h.symm
        | cons a l ih =>
          intro del h
          rw [List.map_cons, List.mapM_cons] at h
          cases ha : npIndex c.ids.length (a : ℤ) with
          | none => rw [ha] at h; simp at h
          | some b =>
            cases hl : (l.map fun (i : Nat) => (i : ℤ)).mapM (npIndex c.ids.length) with
            | none => rw [ha, hl] at h; simp at h
            | some ds =>
              rw [ha, hl] at h
              simp at h
              have hb : b = a := by
                have hlt : (a : ℤ) < c.ids.length := by
                  by_contra hge
                  unfold npIndex at ha
                  rw [if_neg (by omega), if_neg (by omega)] at ha
                  simp at ha
                rw [npIndex_nat (by exact_mod_cast hlt)] at ha
                injection ha with ha
                exact ha.symm
              rw [← h, hb, ih ds hl]
      have he := hdel idx del hm
      subst he
      unfold row
      simp only [List.map_map, Prod.mk.injEq]
      refine ⟨npDelete_before _ _ _ hi, ?_⟩
      apply List.map_congr_left
      intro p _
      simp only [Function.comp]
      rw [npDelete_before _ _ _ hi]
  · intro o hAo hfo hn hnd hlt
    have hc : c.ids ≠ [] := by intro h; rw [h] at hk; simp at hk
    obtain ⟨_, hg, _, hnm, hr⟩ := add_good hA hf hAo hfo hn hnd (fun h => absurd h hc)
    have hids : (addSame c o).1.ids = c.ids ++ o.ids := by
      unfold addSame
      by_cases ho : o.ids = []
      · rw [if_pos (by rw [hAo.1, ho]; rfl), ho]; simp
      · rw [if_neg (by rw [hAo.1]; simpa using ho), if_neg (by rw [hA.1]; simpa using hc)]
        rw [List.head?_eq_some_head hc, List.getLast?_eq_some_getLast hc, List.head?_eq_some_head ho,
          List.getLast?_eq_some_getLast ho]
        simp only
        have := hlt _ (List.head_mem hc) _ (List.getLast_mem ho)
        rw [if_neg (by simp; intro _ _; omega)]
        split_ifs <;> rfl
    have hkk : k < (addSame c o).1.ids.length := by rw [hids, List.length_append]; omega
    rcases hr with hr | ⟨hr, _, _⟩
    · have h1 := rows_get _ k hkk
      rw [hr, List.getElem?_append_left (by rw [rows_length]; exact hk), rows_get c k hk] at h1
      injection h1 with h1
      exact h1.symm
    · by_cases ho : o.ids = []
      · have : rows o = [] := by simp [rows, ho]
        rw [this, List.nil_append] at hr
        have h1 := rows_get _ k hkk
        rw [hr, rows_get c k hk] at h1
        injection h1 with h1
        exact h1.symm
      · exfalso
        have h1 := rows_get (addSame c o).1 0 (by omega)
        have h0 : 0 < o.ids.length := List.length_pos_of_ne_nil ho
        rw [hr, List.getElem?_append_left (by rw [rows_length]; exact h0), rows_get o 0 h0] at h1
        injection h1 with h1
        have h2 := congrArg Prod.fst h1
        simp only [row, hids] at h2
        rw [List.getElem?_append_left (by omega), List.getElem?_eq_getElem h0,
          List.getElem?_eq_getElem (by omega : 0 < c.ids.length)] at h2
        injection h2 with h2
        have := hlt _ (List.getElem_mem (by omega : 0 < c.ids.length)) _ (List.getElem_mem h0)
        omega

/-- Three particles with two variables, for the examples. -/
def exS : Coll Nat := (construct 0 (arange 3) [("lon", [10, 11, 12]), ("state", [1, 6, 1])]).1

theorem exS_aligned : Aligned exS := by
  refine ⟨rfl, ?_⟩
  decide

/-- C84 is false for a particle that is kept over a removal of an earlier one: it is another particle
then, and writing to it changes that other particle; the last one raises IndexError. -/
theorem C84_kept_particle_fails :
    getID exS 1 = .ok 1 ∧
    (∃ c', removeMulti exS [0] = .ok c' ∧ 1 ∈ c'.ids ∧ getID c' 1 = .ok 2 ∧ getVar c' 1 "lon" = .ok 12 ∧
      (∃ c'', setVar c' 1 "lon" 99 = .ok c'' ∧ c''.ids = [1, 2] ∧ c''.cols.lookup "lon" = some [11, 99]) ∧
      getVar c' 2 "lon" = .error .indexError) ∧
    (∃ o : Coll Nat, Aligned o ∧ names o = names exS ∧ o.ids = [-1] ∧ getID (addSame exS o).1 1 = .ok 0) := by
  refine ⟨rfl, ⟨_, rfl, by decide, by decide, by decide, ⟨_, rfl, by decide, by decide⟩, by decide⟩, ?_⟩
  exact ⟨(construct (-1) (arange 1) [("lon", [5]), ("state", [1])]).1, ⟨rfl, by decide⟩, by decide, by decide, by decide⟩

/-- C84 is false for loops that remove particles: removing the first particle while at it makes the loop skip the
second one, and the last step raises IndexError. -/
theorem C84_remove_in_loop_fails :
    loopOver false (some [0, 1]) (fun i (st : Coll Nat × List ℤ) =>
      match getID st.1 i with
      | .error e => .error e
      | .ok d => if d = 0 then (removeMulti st.1 [0]).map fun c => (c, st.2 ++ [d]) else .ok (st.1, st.2 ++ [d]))
      exS [] = (removeMulti exS [0]).map (fun c => (c, [0, 2])) ∧
    loopOver false none (fun i (st : Coll Nat × List ℤ) =>
      match getID st.1 i with
      | .error e => .error e
      | .ok d => if d = 0 then (removeMulti st.1 [0]).map fun c => (c, st.2 ++ [d]) else .ok (st.1, st.2 ++ [d]))
      exS [] = .error .indexError := ⟨rfl, rfl⟩

/-- C84 is false for an iterator that is both over a subset and backward: its creation raises TypeError. -/
theorem C84_reverse_subset_fails (c : Coll V) (l : List ℤ) : mkIter c true (some l) = .error .typeError := rfl

/-! ### Attributes of the set -/

/-- C84, partial: `pset.v` is the list of the values that the particles have for `v`, in the order of the
set. Missing (and false, see below): when `v` is also the name of an attribute of ParticleSets, or was
assigned to before. -/
theorem C84_attribute_partial {p : PSet V} {v : String} (hA : Aligned p.coll) (hv : v ∈ names p.coll)
    (hc : v ∉ classNames) (hs : p.attrs.lookup v = none) :
    ∃ col, psetGet p v = .column col ∧ col.length = p.coll.ids.length ∧
      ∀ k < p.coll.ids.length, getVar p.coll k v = (col[k]?).elim (.error .indexError) .ok := by
  obtain ⟨col, hcol⟩ := lookup_of_name hv
  have hlen := hA.2 _ (lookup_mem hcol)
  simp only at hlen
  refine ⟨col, ?_, hlen, ?_⟩
  · unfold psetGet
    rw [if_neg hc, hs, hcol]
  · intro k hk
    unfold getVar
    rw [hcol]
    simp only [hlen, npIndex_nat hk]
    rw [List.getElem?_eq_getElem (by omega : k < col.length)]
    rfl

/-- C84 is false for assignments to `pset.v`: no particle changes, but from then on `pset.v` gives what was
assigned, also after the particles do change. -/
theorem C84_set_attribute_fails {p : PSet V} {v : String} (x : List V) (hc : v ∉ classNames) :
    (psetSet p v x).coll = p.coll ∧ psetGet (psetSet p v x) v = .user x ∧
    ∀ c' : Coll V, psetGet { psetSet p v x with coll := c' } v = .user x := by
  refine ⟨rfl, ?_, ?_⟩
  · unfold psetGet psetSet
    rw [if_neg hc]
    simp
  · intro c'
    unfold psetGet psetSet
    rw [if_neg hc]
    simp

/-- C84 is false for names that are nothing: reading them gives `False` instead of raising; and a Variable with the
name of an attribute of ParticleSets (for instance `size`) is hidden by it. -/
theorem C84_unknown_attribute_fails {p : PSet V} {v : String} :
    (v ∉ names p.coll → v ∉ classNames → p.attrs.lookup v = none → psetGet p v = .pyFalse) ∧
    (v ∈ classNames → psetGet p v = .builtin) := by
  constructor
  · intro hv hc hs
    unfold psetGet
    rw [if_neg hc, hs, lookup_none hv]
  · intro hc
    unfold psetGet
    rw [if_pos hc]

/-- C84: setting a variable of the whole set (as the library does for `dt`) gives every particle that value
and changes nothing else. -/
theorem C84_set_vector {p : PSet V} (hA : Aligned p.coll) {v : String} (hv : v ∈ names p.coll) (x : V) :
    ∃ p', setVector p v x = .ok p' ∧ p'.attrs = p.attrs ∧ Aligned p'.coll ∧ p'.coll.ids = p.coll.ids ∧
      rows p'.coll = (rows p.coll).map fun r => Record.set r v x := by
  obtain ⟨col, hcol⟩ := lookup_of_name hv
  unfold setVector
  rw [hcol]
  refine ⟨_, rfl, rfl, ⟨hA.1, ?_⟩, rfl, ?_⟩
  · intro q hq
    simp only [List.mem_map] at hq
    obtain ⟨r, hr, rfl⟩ := hq
    have := hA.2 r hr
    simp only
    split_ifs <;> simpa using this
  · unfold rows
    rw [List.map_map]
    apply List.map_congr_left
    intro k hk
    have hkl := List.mem_range.1 hk
    unfold row Record.set
    simp only [List.map_map, Function.comp, Prod.mk.injEq, true_and]
    apply List.map_congr_left
    intro q hq
    have hl := hA.2 q hq
    simp only [Function.comp]
    by_cases hqv : q.1 = v
    · rw [if_pos hqv, if_pos hqv]
      simp only at hkl
      rw [List.getElem?_map, List.getElem?_eq_getElem (by omega : k < q.2.length)]
      rfl
    · rw [if_neg hqv, if_neg hqv]

/-! ### Examples: the hypotheses are met -/

/-- lon := lon + state; state := lon (the new one). -/
def exBody : List (Assign Nat) :=
  [⟨"lon", ["lon", "state"], fun l => l.sum⟩, ⟨"state", ["lon"], fun l => l.sum⟩]

example : Uses exBody (names exS) := by
  intro a ha
  simp only [exBody, List.mem_cons, List.not_mem_nil, or_false] at ha
  rcases ha with rfl | rfl <;> decide

example : loopOver true none (asBody exBody) exS () =
    .ok ({ exS with cols := [("lon", [11, 17, 13]), ("state", [11, 17, 13])] }, ()) := by decide +kernel

example : dataIndices (· == ·) exS "state" [0, 1] true = .ok [1] := by decide
example : errorIter (· == ·) 0 1 exS = .ok ⟨[1], 1, 0⟩ := by decide
example : numErrors (· == ·) 0 1 exS = .ok 1 := by decide
example : FlagOK exS := fun _ => by decide
example : ("lon" : String) ∉ classNames ∧ "size" ∈ classNames := by decide
example : ∀ a ∈ exS.ids, ∀ b ∈ [5, 6], a < (b : ℤ) := by decide

end Parcels.Access
