import Verif.Model.Npy
import Verif.Props.Output
import Mathlib.Data.List.Nodup
import Mathlib.Tactic.Linarith

/-!
C21: the exported trajectory array is the list of written records.
-/

namespace Parcels.Npy

variable {V : Type}

/-- The records written for particle `i`, in order of writing. -/
def recordsOf (files : List (NpyFile V)) (i : Nat) : List V :=
  files.flatMap fun f => (f.recs.filter fun r => r.1 = i).map (·.2)

/-- Length of the longest trajectory. -/
def longest (maxid : Nat) (files : List (NpyFile V)) : Nat :=
  ((List.range (maxid + 1)).map fun i => (recordsOf files i).length).foldr max 0

/-- The array a user expects: one row per particle that has records, in order of ID; in each row the records
in order of writing, then fill values up to the length of the longest trajectory. -/
def trajectories (maxid : Nat) (files : List (NpyFile V)) : List (List (Option V)) :=
  ((List.range (maxid + 1)).filter fun i => !(recordsOf files i).isEmpty).map fun i =>
    (recordsOf files i).map some ++ List.replicate (longest maxid files - (recordsOf files i).length) none

theorem recordsOf_append (a b : List (NpyFile V)) (i : Nat) :
    recordsOf (a ++ b) i = recordsOf a i ++ recordsOf b i := by simp [recordsOf]

/-- Within a file an ID occurs at most once. -/
theorem recs_one {recs : List (Nat × V)} (h : (recs.map (·.1)).Nodup) (i : Nat) :
    (i ∉ recs.map (·.1) ∧ (recs.filter fun r => r.1 = i).map (·.2) = []) ∨
    (∃ v, (i, v) ∈ recs ∧ (recs.filter fun r => r.1 = i).map (·.2) = [v]) := by
  induction recs with
  | nil => left; simp
  | cons r recs ih =>
    rw [List.map_cons, List.nodup_cons] at h
    by_cases hr : r.1 = i
    · right
      refine ⟨r.2, by rw [← hr]; simp, ?_⟩
      rw [List.filter_cons_of_pos (by simpa using hr), List.map_cons]
      rcases ih h.2 with ⟨_, h2⟩ | ⟨v, hv, _⟩
      · rw [h2]
      · exact absurd (List.mem_map.mpr ⟨(i, v), hv, rfl⟩) (hr ▸ h.1)
    · rw [List.filter_cons_of_neg (by simpa using hr)]
      rcases ih h.2 with ⟨h1, h2⟩ | ⟨v, hv, h2⟩
      · left
        refine ⟨?_, h2⟩
        rw [List.map_cons, List.mem_cons]
        rintro (h | h)
        · exact hr h.symm
        · exact h1 h
      · right; exact ⟨v, by simp [hv], h2⟩

theorem fold_data (tind : Nat → Nat) : ∀ (recs : List (Nat × V)) (d : Nat → Nat → Option V),
    (recs.map (·.1)).Nodup → ∀ i j,
    (recs.foldl (fun d r => fun i j => if i = r.1 ∧ j = tind r.1 then some r.2 else d i j) d) i j =
      if j = tind i then (((recs.filter fun r => r.1 = i).map (·.2))[0]?).or (d i j) else d i j := by
  intro recs
  induction recs with
  | nil => intro d _ i j; simp
  | cons r recs ih =>
    intro d h i j
    rw [List.map_cons, List.nodup_cons] at h
    rw [List.foldl_cons, ih _ h.2]
    by_cases hr : r.1 = i
    · have hnil : (recs.filter fun x => x.1 = i).map (·.2) = [] := by
        rcases recs_one h.2 i with ⟨_, h2⟩ | ⟨v, hv, _⟩
        · exact h2
        · exact absurd (List.mem_map.mpr ⟨(i, v), hv, rfl⟩) (hr ▸ h.1)
      rw [hnil, List.filter_cons_of_pos (by simpa using hr), List.map_cons]
      by_cases hj : j = tind i
      · subst hr
        simp [hj]
      · rw [if_neg hj, if_neg hj, if_neg (by rw [hr]; exact fun hh => hj hh.2)]
    · rw [List.filter_cons_of_neg (by simpa using hr)]
      have e1 : (if i = r.1 ∧ j = tind r.1 then some r.2 else d i j) = d i j :=
        if_neg fun hh => hr hh.1.symm
      simp only [e1]

/-- The state after reading `pre` describes the records of `pre`. -/
structure Inv (pre : List (NpyFile V)) (s : St V) : Prop where
  data : ∀ i j, s.data i j = (recordsOf pre i)[j]?
  cnt : ∀ i, s.cnt i = (recordsOf pre i).length
  used : ∀ j, s.used j = true ↔ ∃ i, j < (recordsOf pre i).length

theorem readOne_inv {nIds steps : Nat} {pre : List (NpyFile V)} {s : St V} {f : NpyFile V} (h : Inv pre s)
    (hn : (f.recs.map (·.1)).Nodup) (hb : ∀ r ∈ f.recs, r.1 < nIds)
    (hc : ∀ i, (recordsOf (pre ++ [f]) i).length ≤ steps) :
    ∃ s', readOne nIds steps false s f = some s' ∧ Inv (pre ++ [f]) s' := by
  have hrec : ∀ i, recordsOf (pre ++ [f]) i = recordsOf pre i ++ (f.recs.filter fun r => r.1 = i).map (·.2) := by
    intro i; rw [recordsOf_append]; simp [recordsOf]
  unfold readOne
  have h1 : ((f.recs.map (·.1)).any fun i => decide (nIds ≤ i)) = false := by
    rw [List.any_eq_false]
    intro i hi
    obtain ⟨r, hr, rfl⟩ := List.mem_map.mp hi
    have := hb r hr
    simp; omega
  have h2 : ((f.recs.map (·.1)).any fun i => decide (steps ≤ bif false then 0 else s.cnt i)) = false := by
    rw [List.any_eq_false]
    intro i hi
    have h3 := hc i
    rw [hrec, List.length_append] at h3
    rcases recs_one hn i with ⟨hni, _⟩ | ⟨v, hv, hv2⟩
    · exact absurd hi hni
    · rw [hv2] at h3
      simp only [cond_false, decide_eq_true_eq, h.cnt i]
      simp at h3; omega
  simp only [h1, h2, Bool.or_self, Bool.false_eq_true, if_false]
  refine ⟨_, rfl, ?_, ?_, ?_⟩
  · intro i j
    simp only [cond_false]
    rw [fold_data _ _ _ hn, hrec, h.data]
    by_cases hj : j = s.cnt i
    · rw [if_pos hj]
      have hjl : j = (recordsOf pre i).length := by rw [hj, h.cnt]
      subst hjl
      simp [List.getElem?_append_right]
    · rw [if_neg hj]
      rw [h.cnt] at hj
      by_cases hlt : j < (recordsOf pre i).length
      · rw [List.getElem?_append_left hlt]
      · rw [List.getElem?_append_right (by omega), List.getElem?_eq_none (by omega)]
        rw [List.getElem?_eq_none]
        rcases recs_one hn i with ⟨_, hv⟩ | ⟨v, _, hv⟩
        · rw [hv]; simp
        · rw [hv]; simp; omega
  · intro i
    simp only
    rw [hrec, List.length_append, h.cnt]
    rcases recs_one hn i with ⟨hni, hv⟩ | ⟨v, hvm, hv⟩
    · rw [if_neg hni, hv]; simp
    · rw [if_pos (List.mem_map.mpr ⟨(i, v), hvm, rfl⟩), hv]; simp
  · intro j
    simp only [Bool.or_eq_true, cond_false, List.any_eq_true, beq_iff_eq]
    rw [h.used]
    constructor
    · rintro (⟨i, hi⟩ | ⟨i, hi, hij⟩)
      · exact ⟨i, by rw [hrec, List.length_append]; omega⟩
      · refine ⟨i, ?_⟩
        rw [hrec, List.length_append, ← hij, h.cnt]
        rcases recs_one hn i with ⟨hni, hv⟩ | ⟨v, hvm, hv⟩
        · exact absurd hi hni
        · rw [hv]; simp
    · rintro ⟨i, hi⟩
      rw [hrec, List.length_append] at hi
      by_cases hlt : j < (recordsOf pre i).length
      · exact Or.inl ⟨i, hlt⟩
      · right
        rcases recs_one hn i with ⟨hni, hv⟩ | ⟨v, hvm, hv⟩
        · rw [hv] at hi; simp at hi; omega
        · rw [hv] at hi
          refine ⟨i, List.mem_map.mpr ⟨(i, v), hvm, rfl⟩, ?_⟩
          rw [h.cnt]; simp at hi; omega

theorem readLoop_inv {nIds steps : Nat} : ∀ (fs : List (NpyFile V)) (pre : List (NpyFile V)) (s : St V),
    Inv pre s → (∀ f ∈ fs, (f.recs.map (·.1)).Nodup) → (∀ f ∈ fs, ∀ r ∈ f.recs, r.1 < nIds) →
    (∀ i, (recordsOf (pre ++ fs) i).length ≤ steps) →
    ∃ s', readLoop nIds steps false s fs = some s' ∧ Inv (pre ++ fs) s' := by
  intro fs
  induction fs with
  | nil => intro pre s h _ _ _; exact ⟨s, rfl, by simpa using h⟩
  | cons f fs ih =>
    intro pre s h hn hb hc
    have hc1 : ∀ i, (recordsOf (pre ++ [f]) i).length ≤ steps := by
      intro i
      have := hc i
      rw [show pre ++ f :: fs = (pre ++ [f]) ++ fs by simp, recordsOf_append, List.length_append] at this
      omega
    obtain ⟨s1, e1, h1⟩ := readOne_inv h (hn f (by simp)) (hb f (by simp)) hc1
    obtain ⟨s2, e2, h2⟩ := ih (pre ++ [f]) s1 h1 (fun x hx => hn x (by simp [hx]))
      (fun x hx => hb x (by simp [hx])) (by rw [List.append_assoc]; exact hc)
    refine ⟨s2, ?_, by rw [List.append_assoc] at h2; exact h2⟩
    simp only [readLoop, e1]
    exact e2

theorem le_foldr_max : ∀ (l : List Nat) (a : Nat), a ∈ l → a ≤ l.foldr max 0 := by
  intro l
  induction l with
  | nil => intro a h; simp at h
  | cons b l ih =>
    intro a h
    rw [List.foldr_cons]
    rcases List.mem_cons.mp h with e | e
    · subst e; exact le_max_left _ _
    · exact le_trans (ih a e) (le_max_right _ _)

theorem foldr_max_mem : ∀ (l : List Nat), l.foldr max 0 = 0 ∨ l.foldr max 0 ∈ l := by
  intro l
  induction l with
  | nil => left; rfl
  | cons b l ih =>
    rw [List.foldr_cons]
    rcases le_total b (l.foldr max 0) with h | h
    · rw [max_eq_right h]
      rcases ih with e | e
      · left; exact e
      · right; simp [e]
    · rw [max_eq_left h]; right; simp

theorem filter_lt_range (n W : Nat) (h : W ≤ n) : (List.range n).filter (fun j => decide (j < W)) = List.range W := by
  induction n with
  | zero => have : W = 0 := by omega
            subst this; rfl
  | succ n ih =>
    rw [List.range_succ, List.filter_append]
    by_cases hW : W = n + 1
    · subst hW
      rw [List.filter_eq_self.mpr (by intro a ha; have := List.mem_range.mp ha; simp; omega)]
      simp [List.range_succ]
    · rw [ih (by omega)]
      rw [List.filter_cons_of_neg (by simp; omega)]
      simp

/-- C21: for every sequence of temporary files (any particles, any number of files, from one rank or several
ranks one after the other) in which no particle occurs twice in one file, no ID exceeds the largest one and no
particle has more records than there are output times, and if the path does not contain "once": the exported
array is exactly the array of the trajectories. -/
theorem C21_export_is_the_records (maxid steps : Nat) (files : List (NpyFile V))
    (hn : ∀ f ∈ files, (f.recs.map (·.1)).Nodup) (hb : ∀ f ∈ files, ∀ r ∈ f.recs, r.1 ≤ maxid)
    (hc : ∀ i, (recordsOf files i).length ≤ steps)
    (hname : ∀ f ∈ files, hasOnce f.path = false) :
    readNpy maxid steps files = some (trajectories maxid files) := by
  have hinit : Inv (V := V) [] init := by
    refine ⟨?_, ?_, ?_⟩
    · intro i j; simp [init, recordsOf]
    · intro i; simp [init, recordsOf]
    · intro j; simp [init, recordsOf]
  obtain ⟨s, e, h⟩ := readLoop_inv (nIds := maxid + 1) (steps := steps) files [] init hinit hn
    (fun f hf r hr => Nat.lt_succ_of_le (hb f hf r hr)) hc
  have hones : firstOnce files = false := by
    cases files with
    | nil => rfl
    | cons f fs => exact hname f (by simp)
  simp only [readNpy, hones, e]
  simp only [List.nil_append] at h
  congr 1
  have hrows : (List.range (maxid + 1)).filter (fun i => decide (0 < s.cnt i)) =
      (List.range (maxid + 1)).filter fun i => !(recordsOf files i).isEmpty := by
    apply List.filter_congr
    intro i _
    rw [h.cnt]
    cases recordsOf files i <;> simp
  have hbig : ∀ i, maxid + 1 ≤ i → recordsOf files i = [] := by
    intro i hi
    unfold recordsOf
    rw [List.flatMap_eq_nil_iff]
    intro f hf
    rw [List.map_eq_nil_iff, List.filter_eq_nil_iff]
    intro r hr
    have := hb f hf r hr
    simp; omega
  have hused : ∀ j, s.used j = decide (j < longest maxid files) := by
    intro j
    rw [Bool.eq_iff_iff, h.used, decide_eq_true_eq]
    constructor
    · rintro ⟨i, hi⟩
      have him : i < maxid + 1 := by
        by_contra hh
        rw [hbig i (by omega)] at hi; simp at hi
      exact lt_of_lt_of_le hi (le_foldr_max _ _ (List.mem_map.mpr ⟨i, List.mem_range.mpr him, rfl⟩))
    · intro hj
      rcases foldr_max_mem ((List.range (maxid + 1)).map fun i => (recordsOf files i).length) with e0 | e0
      · unfold longest at hj; omega
      · obtain ⟨i, _, hi⟩ := List.mem_map.mp e0
        exact ⟨i, by unfold longest at hj; omega⟩
  have hcols : (List.range steps).filter (fun j => s.used j) = List.range (longest maxid files) := by
    rw [← filter_lt_range steps (longest maxid files)]
    · apply List.filter_congr; intro j _; exact hused j
    · rcases foldr_max_mem ((List.range (maxid + 1)).map fun i => (recordsOf files i).length) with e0 | e0
      · unfold longest; omega
      · obtain ⟨i, _, hi⟩ := List.mem_map.mp e0
        unfold longest; rw [← hi]; exact hc i
  unfold trajectories
  rw [hrows, hcols]
  apply List.map_congr_left
  intro i hi
  have hlen : (recordsOf files i).length ≤ longest maxid files :=
    le_foldr_max _ _ (List.mem_map.mpr ⟨i, (List.mem_filter.mp hi).1, rfl⟩)
  apply List.ext_getElem
  · simp; omega
  · intro j hj1 hj2
    rw [List.getElem_map, List.getElem_range, h.data]
    by_cases hlt : j < (recordsOf files i).length
    · rw [List.getElem_append_left (by simpa using hlt), List.getElem?_eq_getElem hlt]; simp
    · rw [List.getElem_append_right (by simpa using hlt), List.getElem?_eq_none (by omega)]; simp

def exFiles : List (NpyFile Nat) :=
  [⟨"out/0/0.npy".toList, [(0, 10), (4, 40)]⟩, ⟨"out/0/1.npy".toList, [(0, 11), (2, 20)]⟩,
   ⟨"out/0/2.npy".toList, [(2, 21), (0, 12)]⟩]

/-- Three files, three particles with three, two and one records. -/
example : readNpy 4 3 exFiles =
    some [[some 10, some 11, some 12], [some 20, some 21, none], [some 40, none, none]] := by decide +kernel

/-- C21 is false when the path of the temporary directory contains "once", as in `concentration/run`: every
record of a particle overwrites the one before. -/
theorem C21_once_in_path :
    readNpy 0 3 [⟨"concentration/out/0/0.npy".toList, [(0, 10)]⟩, ⟨"concentration/out/0/1.npy".toList, [(0, 11)]⟩,
      ⟨"concentration/out/0/2.npy".toList, [(0, 12)]⟩] = some [[some 12]] := by decide +kernel

/-! ### The variables written once -/

/-- C21 for variables written once: if every particle has at most one record, the exported column has one row
per particle with a record, in order of ID, with its value. -/
theorem C21_once_column (maxid : Nat) (files : List (NpyFile V))
    (hn : ∀ f ∈ files, (f.recs.map (·.1)).Nodup) (hb : ∀ f ∈ files, ∀ r ∈ f.recs, r.1 ≤ maxid)
    (hone : ∀ i, (recordsOf files i).length ≤ 1) (hne : ∃ f ∈ files, f.recs ≠ [])
    (hname : ∀ f ∈ files, hasOnce f.path = true) :
    readNpy maxid 1 files =
      some (((List.range (maxid + 1)).filter fun i => !(recordsOf files i).isEmpty).map fun i =>
        [(recordsOf files i)[0]?]) := by
  -- as long as every particle has one record, reading with t_ind = 0 is reading with t_ind = time_index
  have same : ∀ (fs pre : List (NpyFile V)) (s : St V), Inv pre s →
      (∀ f ∈ fs, (f.recs.map (·.1)).Nodup) → (∀ f ∈ fs, ∀ r ∈ f.recs, r.1 < maxid + 1) →
      (∀ i, (recordsOf (pre ++ fs) i).length ≤ 1) →
      ∃ s', readLoop (maxid + 1) 1 true s fs = some s' ∧ Inv (pre ++ fs) s' := by
    intro fs
    induction fs with
    | nil => intro pre s h _ _ _; exact ⟨s, rfl, by simpa using h⟩
    | cons f fs ih =>
      intro pre s h hn hb hc
      have hc1 : ∀ i, (recordsOf (pre ++ [f]) i).length ≤ 1 := by
        intro i
        have := hc i
        rw [show pre ++ f :: fs = (pre ++ [f]) ++ fs by simp, recordsOf_append, List.length_append] at this
        omega
      obtain ⟨s1, e1, h1⟩ := readOne_inv h (hn f (by simp)) (hb f (by simp)) hc1
      have hzero : ∀ i ∈ f.recs.map (·.1), s.cnt i = 0 := by
        intro i hi
        have := hc1 i
        rw [recordsOf_append, List.length_append, ← h.cnt] at this
        rcases recs_one (hn f (by simp)) i with ⟨hni, _⟩ | ⟨v, _, hv⟩
        · exact absurd hi hni
        · have h2 : recordsOf [f] i = [v] := by simpa [recordsOf] using hv
          rw [h2] at this; simp at this; exact this
      have heq : readOne (maxid + 1) 1 true s f = readOne (maxid + 1) 1 false s f := by
        unfold readOne
        have a1 : ((f.recs.map (·.1)).any fun i => decide (1 ≤ bif true then 0 else s.cnt i)) =
            ((f.recs.map (·.1)).any fun i => decide (1 ≤ bif false then 0 else s.cnt i)) := by
          rw [Bool.eq_iff_iff, List.any_eq_true, List.any_eq_true]
          constructor
          · rintro ⟨i, _, hh⟩; simp at hh
          · rintro ⟨i, hi, hh⟩; rw [cond_false, hzero i hi] at hh; simp at hh
        simp only
        rw [a1]
        split
        · rfl
        · congr 1
          congr 1
          · have : ∀ (recs : List (Nat × V)) (d : Nat → Nat → Option V), (∀ r ∈ recs, s.cnt r.1 = 0) →
                recs.foldl (fun d r => fun i j => if i = r.1 ∧ j = (bif true then 0 else s.cnt r.1) then some r.2 else d i j) d =
                recs.foldl (fun d r => fun i j => if i = r.1 ∧ j = (bif false then 0 else s.cnt r.1) then some r.2 else d i j) d := by
              intro recs
              induction recs with
              | nil => intro d _; rfl
              | cons r recs ih2 =>
                intro d hz
                rw [List.foldl_cons, List.foldl_cons]
                have hr0 := hz r (by simp)
                have hfun : (fun i j => if i = r.1 ∧ j = (bif true then 0 else s.cnt r.1) then some r.2 else d i j) =
                    (fun i j => if i = r.1 ∧ j = (bif false then 0 else s.cnt r.1) then some r.2 else d i j) := by
                  funext i j; simp only [cond_true, cond_false, hr0]
                rw [hfun]
                exact ih2 _ (fun x hx => hz x (by simp [hx]))
            exact this f.recs s.data (fun r hr => hzero r.1 (List.mem_map_of_mem hr))
          · funext j
            congr 1
            rw [Bool.eq_iff_iff, List.any_eq_true, List.any_eq_true]
            constructor
            · rintro ⟨i, hi, hh⟩; exact ⟨i, hi, by rw [cond_false, hzero i hi]; simpa using hh⟩
            · rintro ⟨i, hi, hh⟩; rw [cond_false, hzero i hi] at hh; exact ⟨i, hi, by simpa using hh⟩
      obtain ⟨s2, e2, h2⟩ := ih (pre ++ [f]) s1 h1 (fun x hx => hn x (by simp [hx]))
        (fun x hx => hb x (by simp [hx])) (by rw [List.append_assoc]; exact hc)
      refine ⟨s2, ?_, by rw [List.append_assoc] at h2; exact h2⟩
      simp only [readLoop, heq, e1]
      exact e2
  have hinit : Inv (V := V) [] init := by
    refine ⟨?_, ?_, ?_⟩
    · intro i j; simp [init, recordsOf]
    · intro i; simp [init, recordsOf]
    · intro j; simp [init, recordsOf]
  obtain ⟨s, e, h⟩ := same files [] init hinit hn (fun f hf r hr => Nat.lt_succ_of_le (hb f hf r hr)) hone
  have hones : firstOnce files = true := by
    cases files with
    | nil => obtain ⟨f, hf, _⟩ := hne; simp at hf
    | cons f fs => exact hname f (by simp)
  simp only [readNpy, hones, e]
  simp only [List.nil_append] at h
  congr 1
  have hrows : (List.range (maxid + 1)).filter (fun i => decide (0 < s.cnt i)) =
      (List.range (maxid + 1)).filter fun i => !(recordsOf files i).isEmpty := by
    apply List.filter_congr
    intro i _
    rw [h.cnt]
    cases recordsOf files i <;> simp
  have hused : s.used 0 = true := by
    rw [h.used]
    obtain ⟨f, hf, hfr⟩ := hne
    obtain ⟨r, hr⟩ := List.exists_mem_of_ne_nil _ hfr
    refine ⟨r.1, List.length_pos_of_mem (a := r.2) ?_⟩
    unfold recordsOf
    rw [List.mem_flatMap]
    exact ⟨f, hf, List.mem_map.mpr ⟨r, List.mem_filter.mpr ⟨hr, by simp⟩, rfl⟩⟩
  have hcols : (List.range 1).filter (fun j => s.used j) = [0] := by
    simp [List.range_succ, hused]
  rw [hrows, hcols]
  apply List.map_congr_left
  intro i _
  simp [h.data]

example : readNpy 4 1 [⟨"out/0/0_once.npy".toList, [(0, 10), (4, 40)]⟩, ⟨"out/0/1_once.npy".toList, [(2, 11)]⟩] =
    some [[some 10], [some 11], [some 40]] := by decide +kernel

/-! ### Several ranks -/

/-- C21/C23: however the records of each output step are distributed over ranks (each particle on one rank), the
export of the files of all ranks, one rank after the other, is the export of the serial run. -/
theorem C21_ranks_merge_to_serial (maxid steps size : Nat) (owner : Nat → Nat) (serial : List (NpyFile V))
    (path : Nat → Nat → List Char) (hown : ∀ i, owner i < size)
    (hn : ∀ f ∈ serial, (f.recs.map (·.1)).Nodup) (hb : ∀ f ∈ serial, ∀ r ∈ f.recs, r.1 ≤ maxid)
    (hc : ∀ i, (recordsOf serial i).length ≤ steps)
    (hname : ∀ f ∈ serial, hasOnce f.path = false) (hname2 : ∀ a b, hasOnce (path a b) = false) :
    let rankFiles := fun rank => serial.zipIdx.map fun p =>
      ({ path := path rank p.2, recs := p.1.recs.filter fun r => owner r.1 = rank } : NpyFile V)
    readNpy maxid steps ((List.range size).flatMap rankFiles) = readNpy maxid steps serial := by
  intro rankFiles
  have hrec : ∀ i, recordsOf ((List.range size).flatMap rankFiles) i = recordsOf serial i := by
    intro i
    have hone : ∀ rank, recordsOf (rankFiles rank) i = if owner i = rank then recordsOf serial i else [] := by
      intro rank
      have key : ∀ (l : List (NpyFile V)) (k : Nat),
          recordsOf ((l.zipIdx k).map fun p =>
            ({ path := path rank p.2, recs := p.1.recs.filter fun r => owner r.1 = rank } : NpyFile V)) i =
          if owner i = rank then recordsOf l i else [] := by
        intro l
        induction l with
        | nil => intro k; simp [recordsOf]
        | cons f l ih =>
          intro k
          rw [List.zipIdx_cons, List.map_cons]
          have e1 : ∀ (g : NpyFile V) (gs : List (NpyFile V)),
              recordsOf (g :: gs) i = (g.recs.filter fun r => r.1 = i).map (·.2) ++ recordsOf gs i := by
            intro g gs; simp [recordsOf]
          rw [e1, ih (k + 1), e1, List.filter_filter]
          by_cases ho : owner i = rank
          · rw [if_pos ho, if_pos ho]
            congr 2
            apply List.filter_congr
            intro r _
            by_cases hri : r.1 = i
            · simp [hri, ho]
            · simp [hri]
          · rw [if_neg ho, if_neg ho]
            have : (f.recs.filter fun r => decide (r.1 = i) && decide (owner r.1 = rank)) = [] := by
              rw [List.filter_eq_nil_iff]
              intro r _ hh
              simp only [Bool.and_eq_true, decide_eq_true_eq] at hh
              rw [hh.1] at hh
              exact ho hh.2
            rw [this]; rfl
      exact key serial 0
    have hflat : recordsOf ((List.range size).flatMap rankFiles) i =
        (List.range size).flatMap fun rank => recordsOf (rankFiles rank) i := by
      unfold recordsOf
      rw [List.flatMap_assoc]
    rw [hflat]
    have : ((List.range size).flatMap fun rank => recordsOf (rankFiles rank) i) =
        (List.range size).flatMap fun rank => if owner i = rank then recordsOf serial i else [] := by
      apply List.flatMap_congr
      intro rank _; exact hone rank
    rw [this]
    have hgen : ∀ n, owner i < n →
        ((List.range n).flatMap fun rank => if owner i = rank then recordsOf serial i else []) = recordsOf serial i := by
      intro n
      induction n with
      | zero => intro h; omega
      | succ n ih =>
        intro h
        rw [List.range_succ, List.flatMap_append]
        by_cases ho : owner i = n
        · have hz : ((List.range n).flatMap fun rank => if owner i = rank then recordsOf serial i else []) = [] := by
            rw [List.flatMap_eq_nil_iff]
            intro r hr
            have := List.mem_range.mp hr
            rw [if_neg (by omega)]
          rw [hz]; simp [ho]
        · rw [ih (by omega)]; simp [ho]
    exact hgen size (hown i)
  have hmem : ∀ f ∈ (List.range size).flatMap rankFiles, ∃ a b g, g ∈ serial ∧ f.path = path a b ∧
      f.recs = g.recs.filter fun r => owner r.1 = a := by
    intro f hf
    rw [List.mem_flatMap] at hf
    obtain ⟨rank, _, hf⟩ := hf
    obtain ⟨p, hp, rfl⟩ := List.mem_map.mp hf
    exact ⟨rank, p.2, p.1, List.fst_mem_of_mem_zipIdx hp, rfl, rfl⟩
  rw [C21_export_is_the_records maxid steps serial hn hb hc hname]
  rw [C21_export_is_the_records maxid steps ((List.range size).flatMap rankFiles)]
  · unfold trajectories longest
    simp only [hrec]
  · intro f hf
    obtain ⟨a, b, g, hg, _, hr⟩ := hmem f hf
    rw [hr]
    exact (hn g hg).sublist (List.filter_sublist.map _)
  · intro f hf r hr
    obtain ⟨a, b, g, hg, _, hrr⟩ := hmem f hf
    rw [hrr] at hr
    exact hb g hg r (List.mem_filter.mp hr).1
  · intro i; rw [hrec]; exact hc i
  · intro f hf
    obtain ⟨a, b, g, _, hp, _⟩ := hmem f hf
    rw [hp]; exact hname2 a b

end Parcels.Npy
