import Verif.Proofs.Advance

/-!
C114: `fieldset.advancetime` replaces the oldest snapshot of all fields by the new one, times and data together, and changes nothing if it raises.
-/

namespace Parcels.Advance

open Converters (Calendar)
open Search (Increasing)
open TimeInterp (TAxis evalTime)

variable {D : Type}

/-! ### Grids -/

/-- C114. `grid.advancetime` with one snapshot dated after all dates of the grid (or before all of them) replaces the first (or last) date by that date, whatever dates the two grids count from; the times stay
increasing, and as many. -/
theorem C114_grid {g gnew : Gr} (hc : g.calendar = gnew.calendar) (hi : Increasing g.time) (hne : g.time ≠ []) {t : ℚ} (h1 : gnew.time = [t]) (forward : Bool)
    (hb : Beyond forward (dates g) (date gnew t)) :
    (gridAdvance g gnew).2.2 = .ok (if forward then 1 else -1) ∧ dates (gridAdvance g gnew).1 = replaced forward (dates g) (date gnew t) ∧
      Increasing (gridAdvance g gnew).1.time ∧ (gridAdvance g gnew).1.time.length = g.time.length := by
  obtain ⟨b1, b2⟩ := beyond_iff hc hi hne t
  have len : 1 ≤ g.time.length := List.length_pos_of_ne_nil hne
  cases forward with
  | true =>
    have h := b1.mp hb
    have e : gridAdvance g gnew = ({ g with time := g.time.tail ++ [t + Converters.reltime g.calendar g.origin gnew.origin] },
        { gnew with time := [t + Converters.reltime g.calendar g.origin gnew.origin] }, .ok 1) := by
      simp only [gridAdvance, h1, List.map_cons, List.map_nil, if_pos h]
    rw [e]
    refine ⟨rfl, ?_, ?_, ?_⟩
    · show (g.time.tail ++ [_]).map (date g) = (g.time.map (date g)).tail ++ [_]
      rw [List.map_append, List.map_tail, List.map_singleton, date_reltime hc]
    · refine List.pairwise_append.mpr ⟨hi.tail, List.pairwise_singleton _ _, fun a ha b hb => ?_⟩
      rw [List.mem_singleton.mp hb]
      exact lt_of_le_of_lt (last_max hi hne a (List.mem_of_mem_tail ha)) h
    · simp only [List.length_append, List.length_tail, List.length_singleton]
      omega
  | false =>
    have h := b2.mp hb
    have h' : ¬ g.time.getLastD 0 < t + Converters.reltime g.calendar g.origin gnew.origin := not_lt.mpr (h.le.trans (head_min hi _ (last_mem hne)))
    have e : gridAdvance g gnew = ({ g with time := (t + Converters.reltime g.calendar g.origin gnew.origin) :: g.time.dropLast },
        { gnew with time := [t + Converters.reltime g.calendar g.origin gnew.origin] }, .ok (-1)) := by
      simp only [gridAdvance, h1, List.map_cons, List.map_nil, if_neg h', if_pos h]
    rw [e]
    refine ⟨rfl, ?_, ?_, ?_⟩
    · show ((_ :: g.time.dropLast)).map (date g) = _ :: (g.time.map (date g)).dropLast
      rw [List.map_cons, List.map_dropLast, date_reltime hc]
    · refine List.pairwise_cons.mpr ⟨fun a ha => lt_of_lt_of_le h (head_min hi a (List.mem_of_mem_dropLast ha)), hi.sublist (List.dropLast_sublist _)⟩
    · simp only [List.length_cons, List.length_dropLast]
      omega

/-- C114. Otherwise, if there is not one snapshot or its date is neither after nor before all dates, `grid.advancetime` raises and the grid stays as it is. -/
theorem C114_grid_raises {g gnew : Gr} (hc : g.calendar = gnew.calendar) (hi : Increasing g.time) (hne : g.time ≠ [])
    (h : ∀ t, gnew.time = [t] → ¬ Beyond true (dates g) (date gnew t) ∧ ¬ Beyond false (dates g) (date gnew t)) :
    (∃ e, (gridAdvance g gnew).2.2 = .error e) ∧ (gridAdvance g gnew).1 = g := by
  unfold gridAdvance
  simp only
  split
  · rename_i t ht
    obtain ⟨t', e, e'⟩ : ∃ t', gnew.time = [t'] ∧ t' + Converters.reltime g.calendar g.origin gnew.origin = t := by
      revert ht
      rcases gnew.time with _ | ⟨a, _ | ⟨b, l⟩⟩ <;> intro ht
      · cases ht
      · exact ⟨a, rfl, (List.cons.inj ht).1⟩
      · cases ht
    obtain ⟨b1, b2⟩ := beyond_iff hc hi hne t'
    obtain ⟨n1, n2⟩ := h t' e
    rw [b1, e'] at n1
    rw [b2, e'] at n2
    rw [if_neg n1, if_neg n2]
    exact ⟨⟨_, rfl⟩, rfl⟩
  · exact ⟨⟨_, rfl⟩, rfl⟩

/-- C114. What the rest of `field.advancetime` does, if the comparison in its first line found the types to be the same: with the grid advanced, the oldest snapshot of the field is replaced, date and data. -/
theorem C114_field_partial {g gnew : Gr} (hc : g.calendar = gnew.calendar) (hi : Increasing g.time) {t : ℚ} (h1 : gnew.time = [t]) (forward : Bool)
    (hb : Beyond forward (dates g) (date gnew t)) {f fnew : F D} {d : D} (hd : fnew.data = [d]) (hl : f.data.length = g.time.length) (hne : g.time ≠ []) :
    ∃ f', fieldAdvance (.ok false) f fnew forward = .ok f' ∧ snapshots (gridAdvance g gnew).1 f' = replaced forward (snapshots g f) (date gnew t, d) := by
  obtain ⟨-, h2, -, -⟩ := C114_grid hc hi hne h1 forward hb
  have l : (dates g).length = f.data.length := by rw [hl]; exact List.length_map _
  cases forward with
  | true =>
    refine ⟨_, rfl, ?_⟩
    unfold snapshots
    rw [h2]
    show ((dates g).tail ++ [_]).zip (f.data.tail ++ fnew.data) = ((dates g).zip f.data).tail ++ [_]
    rw [hd, List.zip_append (by rw [List.length_tail, List.length_tail, l]), ← List.tail_zip]
    rfl
  | false =>
    refine ⟨_, rfl, ?_⟩
    unfold snapshots
    rw [h2]
    show (_ :: (dates g).dropLast).zip (fnew.data ++ f.data.dropLast) = _ :: ((dates g).zip f.data).dropLast
    rw [hd, List.singleton_append, List.zip_cons_cons, List.dropLast_eq_take, List.dropLast_eq_take, List.dropLast_eq_take, l, List.length_zip, l, Nat.min_self, List.zip_eq_zipWith, List.zip_eq_zipWith,
      List.take_zipWith]

/-! ### Field sets -/

/-- C114. `fieldset.advancetime` never returns, unless the new field set has no field other than vector fields. -/
theorem C114_never_fails (fs : List (NF D)) (s : S D) (h : scalars fs ≠ []) : ∃ e, (advancetime fs s).2 = .error e := loop_never fs 0 _ h

/-- C114. It changes no data. -/
theorem C114_data_fails (fs : List (NF D)) (s : S D) : (advancetime fs s).1.fields = s.fields := loop_data fs 0 _

/-- C114. When it raises, the times of the grid of the first field are those of `grid.advancetime`, and all others as before; with a snapshot that fits, it is the `TypeError` that is raised. -/
theorem C114_first (fs : List (NF D)) (s : S D) {n : String} {fnew f : F D} {rest : List (String × F D)} (h : scalars fs = (n, fnew) :: rest) (hf : s.fields n = some f) :
    (advancetime fs s).1.grids = Function.update s.grids f.grid (gridAdvance (s.grids f.grid) (s.news fnew.grid)).1 ∧
    (advancetime fs s).2 = .error (match (gridAdvance (s.grids f.grid) (s.news fnew.grid)).2.2 with | .error e => e | .ok _ => .type) := by
  obtain ⟨h1, -, h3⟩ := loop_first fs { s with advanced := fun _ => false } h hf fun _ => rfl
  exact ⟨h1, h3⟩

/-- C114. The property fails for every call with a snapshot that fits: it raises, and yet each snapshot of the fields on the grid of the first field now has another date than before: the date of the snapshot
that followed it. -/
theorem C114_moved_fails (fs : List (NF D)) (s : S D) {n : String} {fnew f : F D} {rest : List (String × F D)} (h : scalars fs = (n, fnew) :: rest) (hf : s.fields n = some f)
    (hc : (s.grids f.grid).calendar = (s.news fnew.grid).calendar) (hi : Increasing (s.grids f.grid).time) (hne : (s.grids f.grid).time ≠ []) {t : ℚ} (h1 : (s.news fnew.grid).time = [t])
    (hb : Beyond true (dates (s.grids f.grid)) (date (s.news fnew.grid) t)) :
    (advancetime fs s).2 = .error .type ∧ (advancetime fs s).1.fields n = some f ∧
      snapshots ((advancetime fs s).1.grids f.grid) f = ((dates (s.grids f.grid)).tail ++ [date (s.news fnew.grid) t]).zip f.data := by
  obtain ⟨a1, a2⟩ := C114_first fs s h hf
  obtain ⟨b1, b2, -, -⟩ := C114_grid hc hi hne h1 true hb
  refine ⟨by rw [a2, b1], by rw [C114_data_fails]; exact hf, ?_⟩
  unfold snapshots
  rw [a1, Function.update_self, b2]
  rfl

/-! ### Cases -/

/-- Two fields on one grid, with dates; the new snapshots are dated from another day. -/
def exS : S ℚ where
  grids := fun _ => ⟨[0, 1, 2], .np, 0⟩
  news := fun _ => ⟨[1], .np, 2000000000⟩
  fields := fun n => if n = "U" then some ⟨0, [0, 10, 20]⟩ else if n = "V" then some ⟨0, [5, 6, 7]⟩ else none
  advanced := fun _ => false

def exNew : List (NF ℚ) := [.vector, .scalar "U" ⟨0, [30]⟩, .scalar "V" ⟨0, [8]⟩]

/-- The hypotheses can be met, forward and backward. -/
example : (exS.grids 0).calendar = (exS.news 0).calendar ∧ Increasing (exS.grids 0).time ∧ Beyond true (dates (exS.grids 0)) (date (exS.news 0) 1) ∧
    Beyond false (dates (exS.grids 0)) (date ⟨[1], .np, -3000000000⟩ 1) ∧ scalars exNew = [("U", ⟨0, [30]⟩), ("V", ⟨0, [8]⟩)] ∧
    ((advancetime exNew exS).1.grids 0).time = [1, 2, 3] := by
  refine ⟨rfl, by simp [exS, Increasing], ?_, ?_, rfl, by decide +kernel⟩
  · simp [Beyond, dates, date, exS, Converters.ticks] <;> norm_num
  · simp [Beyond, dates, date, exS, Converters.ticks] <;> norm_num

/-- Snapshots that overlap, or more than one, are refused. -/
example : (gridAdvance (exS.grids 0) ⟨[-1], .np, 2000000000⟩).2.2 = .error .overlap ∧ (gridAdvance (exS.grids 0) ⟨[1, 2], .np, 2000000000⟩).2.2 = .error .snapshots ∧
    (gridAdvance (exS.grids 0) ⟨[1], .np, -3000000000⟩).1.time = [-2, 0, 1] := by decide +kernel

/-- C114. Samples after the call has raised: at time 1, where the field was 10, it is 0. -/
theorem C114_samples_fails :
    (match exS.fields "U", (advancetime exNew exS).1.fields "U" with
    | some f, some f' =>
      decide (evalTime (TAxis.full (exS.grids 0).time false false) (fun i => .ok (f.data.getD i 0)) 1 = .ok 10 ∧
        evalTime (TAxis.full ((advancetime exNew exS).1.grids 0).time false false) (fun i => .ok (f'.data.getD i 0)) 1 = .ok 0 ∧
        evalTime (TAxis.full ((advancetime exNew exS).1.grids 0).time false false) (fun i => .ok (f'.data.getD i 0)) 3 = .ok 20)
    | _, _ => false) = true := by decide +kernel

/-- C114. `grid.advancetime` changes the times of the new grid to those of the old origin, but not its origin: if the same snapshot is used again (after an error, say), it counts as another date. -/
theorem C114_again_fails :
    (gridAdvance (exS.grids 0) (exS.news 0)).2.2 = .ok 1 ∧ dates (gridAdvance (exS.grids 0) (exS.news 0)).1 = [1000000000, 2000000000, 3000000000] ∧
    (gridAdvance (gridAdvance (exS.grids 0) (exS.news 0)).1 (gridAdvance (exS.grids 0) (exS.news 0)).2.1).2.2 = .ok 1 ∧
    dates (gridAdvance (gridAdvance (exS.grids 0) (exS.news 0)).1 (gridAdvance (exS.grids 0) (exS.news 0)).2.1).1 = [2000000000, 3000000000, 5000000000] := by decide +kernel

end Parcels.Advance
