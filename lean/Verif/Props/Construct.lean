import Verif.Proofs.Construct
import Mathlib.Tactic.Ring
import Mathlib.Tactic.FieldSimp
import Mathlib.Tactic.NormNum

/-!
C79: new particles have the values they were given.
-/

namespace Parcels.Construct
open Parcels.Collection (arange maxOr)

/-- The depths as an array. -/
theorem depth_get {a : Args} {mindepth : ℚ} (i : Nat) : (depths a.lon.length mindepth a.depth)[i]? = depthOf a mindepth i := by
  unfold depthOf depths
  cases a.depth with
  | none => simp [List.getElem?_replicate]
  | some l => rfl

theorem mem_names {coord : DType} {user : List PVar} (k : String) (hk : k ∈ (builtin coord).map (·.name)) :
    k ∈ (classVars coord user).map (·.name) := by
  obtain ⟨v, hv, rfl⟩ := List.mem_map.mp hk
  exact List.mem_map_of_mem (mem_classVars.mpr (List.mem_append_left _ hv))

/-- C79: whenever the constructor returns, the particles have the positions, depths, times and other values given for them, and the initial values
of all other variables; for all classes, arguments, and whatever was in the memory before.
Missing: variables that take their initial value from a variable that comes later (`C79_copy_order_fails`) or does not exist
(`C79_copy_unknown_fails`). -/
theorem C79_values_partial (rnd : DType → ℚ → ℚ) (junk : String → Nat → Val) (coord : DType) (user : List PVar) (lastID : ℤ) (mindepth : ℚ)
    (a : Args) (hN : Named coord user a) (d : Data) (newID : ℤ) (h : create rnd junk coord user lastID mindepth a = .ok (d, newID)) :
    Describes rnd coord user lastID mindepth a d := by
  have hnd := nodup_classVars hN.vars
  have hdt : ∀ v ∈ builtin coord ++ user, dtypeOf (classVars coord user) v.name = v.dtype := fun v hv =>
    dtypeOf_mem hnd v (mem_classVars.mpr hv)
  have hcoord : dtypeOf (classVars coord user) "lon" = coord ∧ dtypeOf (classVars coord user) "lat" = coord ∧
      dtypeOf (classVars coord user) "depth" = coord ∧ dtypeOf (classVars coord user) "time" = .f64 :=
    ⟨hdt ⟨"lon", coord, .const (some 0)⟩ (by simp [builtin]), hdt ⟨"lat", coord, .const (some 0)⟩ (by simp [builtin]),
     hdt ⟨"depth", coord, .const (some 0)⟩ (by simp [builtin]), hdt ⟨"time", .f64, .const (some 0)⟩ (by simp [builtin])⟩
  obtain ⟨hd1, hd2, hd3, hd4⟩ := hcoord
  unfold create at h
  dsimp only at h
  generalize hdep : depths a.lon.length mindepth a.depth = depth at h
  have hdepth : ∀ i, depth[i]? = depthOf a mindepth i := fun i => by rw [← hdep]; exact depth_get i
  split_ifs at h with c1 c2 c3
  obtain ⟨c1a, c1b⟩ := c1
  have c2 := not_not.mp c2
  have c3' : ∀ k ∈ a.kwargs, a.lon.length = k.2.length := by
    intro k hk
    have := (List.all_eq_true.mp c3) k hk
    simpa using this
  cases hr : checkRepeat a.repeatdt (times a.lon.length a.time) with
  | error e => rw [hr] at h; simp at h
  | ok u =>
    rw [hr] at h
    simp only at h
    generalize hd0 : allocate junk a.lon.length (classVars coord user) = d0 at h
    rw [hd1, hd2, hd3, hd4] at h
    generalize hD : Data.set _ "fileid" _ = D at h
    have Dlon : D "lon" = some ((a.lon.map some).map (cast rnd coord)) := by rw [← hD]; rfl
    have Dlat : D "lat" = some ((a.lat.map some).map (cast rnd coord)) := by rw [← hD]; rfl
    have Ddep : D "depth" = some ((depth.map some).map (cast rnd coord)) := by rw [← hD]; rfl
    have Dtime : D "time" = some ((times a.lon.length a.time).map (cast rnd .f64)) := by rw [← hD]; rfl
    have Did : D "id" = some (((arange a.lon.length).map (· + lastID)).map fun (p : ℤ) => some (p : ℚ)) := by rw [← hD]; rfl
    have Dsize : (∀ v ∈ builtin coord ++ user, ∃ col, D v.name = some col) ∧ ∀ k col, D k = some col → col.length = a.lon.length := by
      have h0 : (∀ v ∈ builtin coord ++ user, ∃ col, d0 v.name = some col) ∧ ∀ k col, d0 k = some col → col.length = a.lon.length := by
        rw [← hd0]
        unfold allocate
        refine ⟨fun v hv => ?_, fun k col hk => ?_⟩
        · rw [if_pos (List.mem_map_of_mem (mem_classVars.mpr hv))]
          exact ⟨_, rfl⟩
        · split_ifs at hk
          simp only [Option.some.injEq] at hk
          subst hk
          simp
      rw [← hD]
      simp only [Data.set]
      refine ⟨fun v hv => ?_, fun k col hk => ?_⟩
      · split_ifs <;> first | exact ⟨_, rfl⟩ | exact h0.1 v hv
      · split_ifs at hk
        · simp only [Option.some.injEq] at hk; subst hk; simp
        · simp only [Option.some.injEq] at hk; subst hk; simp [arange]
        · simp only [Option.some.injEq] at hk; subst hk; simp [← c2]
        · simp only [Option.some.injEq] at hk; subst hk; simp [c1b]
        · simp only [Option.some.injEq] at hk; subst hk; simp
        · simp only [Option.some.injEq] at hk; subst hk; simp [c1a]
        · exact h0.2 k col hk
    cases hk : setKwargs rnd (classVars coord user) a.kwargs D with
    | error e => rw [hk] at h; simp at h
    | ok D1 =>
      rw [hk] at h
      simp only at h
      obtain ⟨k1, k2⟩ := setKwargs_spec hk hN.kwargs
      generalize hpts : (times a.lon.length a.time).zip (depth.zip (a.lat.zip a.lon)) = pts at h
      have hlen : pts.length = a.lon.length := by rw [← hpts]; simp; omega
      have hpt : ∀ i p, pts[i]? = some p → timeOf a i = some p.1 ∧ depthOf a mindepth i = some p.2.1 ∧ a.lat[i]? = some p.2.2.1 ∧
          a.lon[i]? = some p.2.2.2 := by
        intro i p hp
        have hi : i < a.lon.length := by
          have := (List.getElem?_eq_some_iff.mp hp).1; omega
        rw [← hpts] at hp
        rw [List.getElem?_zip_eq_some, List.getElem?_zip_eq_some, List.getElem?_zip_eq_some, times_get hi, hdepth] at hp
        exact hp
      cases hi : initRest rnd (["lat", "lon", "depth", "time", "id"] ++ a.kwargs.map (·.1)) pts (classVars coord user) D1 with
      | error e => rw [hi] at h; simp at h
      | ok D2 =>
        rw [hi] at h
        simp only [Except.ok.injEq, Prod.mk.injEq] at h
        obtain ⟨rfl, -⟩ := h
        change initRest rnd (givenNames a) pts (classVars coord user) D1 = .ok D2 at hi
        have hgiven : ∀ k ∈ givenNames a, D2 k = D1 k := fun k hk => initRest_other hi k (Or.inl hk)
        have hpos : ∀ k ∈ ["lat", "lon", "depth", "time"], D2 k = D k := by
          intro k hk
          rw [hgiven k (by unfold givenNames; rw [List.mem_append]; left; simp at hk ⊢; tauto), k1 k fun hm => hN.free k hm hk]
        have D1size : (∀ v ∈ builtin coord ++ user, ∃ col, D1 v.name = some col) ∧ ∀ k col, D1 k = some col → col.length = a.lon.length := by
          have hkw : ∀ k ∈ a.kwargs.map (·.1), ∃ col, D1 k = some col ∧ col.length = a.lon.length := by
            intro k hm
            obtain ⟨⟨k, col⟩, hc, rfl⟩ := List.mem_map.mp hm
            exact ⟨_, k2 _ _ hc, by simp [c3' _ hc]⟩
          refine ⟨fun v hv => ?_, fun k col hc => ?_⟩
          · by_cases hm : v.name ∈ a.kwargs.map (·.1)
            · obtain ⟨col, h1, -⟩ := hkw _ hm; exact ⟨col, h1⟩
            · rw [k1 _ hm]; exact Dsize.1 v hv
          · by_cases hm : k ∈ a.kwargs.map (·.1)
            · obtain ⟨c, h1, h2⟩ := hkw _ hm
              rw [hc] at h1
              simp only [Option.some.injEq] at h1
              rw [h1, h2]
            · rw [k1 _ hm] at hc; exact Dsize.2 k col hc
        have hlast : ∀ v pre post, classVars coord user = pre ++ v :: post → v.name ∉ post.map (·.name) := by
          intro v pre post e
          rw [e] at hnd
          simp only [List.map_append, List.map_cons, List.nodup_append, List.nodup_cons] at hnd
          exact hnd.2.1.1
        have hinit : ∀ v ∈ builtin coord ++ user, v.name ∉ givenNames a → ∃ d1 col, initCol pts d1 v.init = .ok col ∧
            D2 v.name = some (col.map (cast rnd v.dtype)) := by
          intro v hv hg
          obtain ⟨pre, post, e⟩ := List.append_of_mem (mem_classVars.mpr hv)
          rw [e] at hi
          obtain ⟨d1, col, -, h2, h3, -⟩ := initRest_split hi hg (hlast v pre post e)
          exact ⟨d1, col, h2, h3⟩
        have hsome : ∀ v ∈ builtin coord ++ user, ∃ col, D2 v.name = some col := by
          intro v hv
          by_cases hg : v.name ∈ givenNames a
          · rw [hgiven _ hg]; exact D1size.1 v hv
          · obtain ⟨d1, col, -, h3⟩ := hinit v hv hg; exact ⟨_, h3⟩
        have hsz := initRest_size hlen hi D1size.2
        exact {
          lon := by
            intro i x hx
            unfold value; rw [hpos "lon" (by simp), Dlon]; simp [hx, cast]
          lat := by
            intro i x hx
            unfold value; rw [hpos "lat" (by simp), Dlat]; simp [hx, cast]
          depth := by
            intro i x hx
            unfold value; rw [hpos "depth" (by simp), Ddep]; simp [hdepth, hx, cast]
          time := by
            intro i t hi' ht
            unfold value; rw [hpos "time" (by simp), Dtime]; simp [times_get hi', ht]
          id := by
            intro hid i hi'
            unfold value
            rw [hgiven "id" (by simp [givenNames]), k1 _ hid, Did]
            simp [arange, hi']
            ring
          kwargs := by
            intro k col v i w hm hv hvk hw
            unfold value
            rw [hgiven k (by unfold givenNames; exact List.mem_append_right _ (List.mem_map_of_mem hm)), k2 k col hm, ← hvk, hdt v hv]
            simp [hw]
          const := by
            intro v hv hg c hc i hi'
            obtain ⟨d1, col, h2, h3⟩ := hinit v hv hg
            rw [hc] at h2
            simp only [initCol, Except.ok.injEq] at h2
            subst h2
            unfold value; rw [h3]
            simp [List.getElem?_replicate, show i < pts.length by omega]
          field := by
            intro v hv hg f hc i hi'
            obtain ⟨d1, col, h2, h3⟩ := hinit v hv hg
            rw [hc] at h2
            simp only [initCol] at h2
            obtain ⟨t, w, q1, q2, q3⟩ := (sampleAll_spec h2).2 i _ (List.getElem?_eq_getElem (show i < pts.length by omega))
            obtain ⟨p1, p2, p3, p4⟩ := hpt i _ (List.getElem?_eq_getElem (show i < pts.length by omega))
            refine ⟨t, _, _, _, w, by rw [p1, q1], p2, p3, p4, q2, ?_⟩
            unfold value; rw [h3]; simp [q3, cast]
          copy := by
            intro v hv hg u hu hc hready i hi'
            have key : ∃ col, D2 u.name = some col ∧ D2 v.name = some (col.map (cast rnd v.dtype)) := by
              rcases ready_before hu hv hready with hug | ⟨l1, l2, l3, e⟩
              · obtain ⟨pre, post, e⟩ := List.append_of_mem (mem_classVars.mpr hv)
                rw [e] at hi
                obtain ⟨d1, col, -, h2, h3, h4⟩ := initRest_split hi hg (hlast v pre post e)
                obtain ⟨c, hcu⟩ := hsome u hu
                rw [hc] at h2
                simp only [initCol] at h2
                rw [← h4 _ (Or.inl hug), hcu] at h2
                simp only [Except.ok.injEq] at h2
                subst h2
                exact ⟨_, hcu, h3⟩
              · have hnot : u.name ∉ (v :: l3).map (·.name) := by
                  have := hnd
                  rw [e] at this
                  simp only [List.append_assoc, List.cons_append, List.map_append, List.map_cons, List.nodup_append, List.nodup_cons] at this
                  have h5 := this.2.1.1
                  intro hm
                  exact h5 (List.mem_append_right _ hm)
                rw [e] at hi
                obtain ⟨d1, col, -, h2, h3, h4⟩ := initRest_split hi hg (hlast v _ _ e)
                obtain ⟨c, hcu⟩ := hsome u hu
                rw [hc] at h2
                simp only [initCol] at h2
                rw [← h4 _ (Or.inr hnot), hcu] at h2
                simp only [Except.ok.injEq] at h2
                subst h2
                exact ⟨_, hcu, h3⟩
            obtain ⟨col, e1, e2⟩ := key
            have hl := hsz _ _ e1
            refine ⟨col[i]'(by omega), ?_, ?_⟩
            · unfold value; rw [e1]; simp [List.getElem?_eq_getElem (show i < col.length by omega)]
            · unfold value; rw [e2]; simp [List.getElem?_eq_getElem (show i < col.length by omega)]
          size := by
            intro v hv
            obtain ⟨col, hc⟩ := hsome v hv
            exact ⟨col, hc, hsz _ _ hc⟩ }

/-- C79: arguments of different lengths are rejected. -/
theorem C79_lengths (rnd : DType → ℚ → ℚ) (junk : String → Nat → Val) (coord : DType) (user : List PVar) (lastID : ℤ) (mindepth : ℚ)
    (a : Args)
    (h : a.lat.length ≠ a.lon.length ∨ (∃ l, a.depth = some l ∧ l.length ≠ a.lon.length) ∨
      (∃ l, a.time = .many l ∧ l.length ≠ 1 ∧ l.length ≠ a.lon.length) ∨ ∃ k ∈ a.kwargs, k.2.length ≠ a.lon.length) :
    create rnd junk coord user lastID mindepth a = .error .assertion := by
  unfold create
  dsimp only
  by_cases c1 : a.lon.length = a.lat.length ∧ a.lon.length = (depths a.lon.length mindepth a.depth).length
  swap
  · rw [if_pos c1]
  rw [if_neg (not_not.mpr c1)]
  by_cases c2 : a.lon.length = (times a.lon.length a.time).length
  swap
  · rw [if_pos c2]
  rw [if_neg (not_not.mpr c2)]
  by_cases c3 : (a.kwargs.all fun k => decide (a.lon.length = k.2.length)) = true
  swap
  · rw [if_pos c3]
  exfalso
  rcases h with h | ⟨l, h1, h2⟩ | ⟨l, h1, h2, h3⟩ | ⟨k, h1, h2⟩
  · exact h c1.1.symm
  · rw [h1] at c1; exact h2 c1.2.symm
  · rw [h1] at c2
    unfold times at c2
    rcases l with _ | ⟨t, _ | ⟨t', l⟩⟩
    · exact h3 c2.symm
    · simp at h2
    · exact h3 c2.symm
  · have := (List.all_eq_true.mp c3) k h1
    simp only [decide_eq_true_eq] at this
    exact h2 this.symm

/-- C79: the constructor returns if the lengths agree, keyword arguments are variables of the class, and fields for initial values can be
sampled at the positions and times given (without repeated release). -/
theorem C79_accepts (rnd : DType → ℚ → ℚ) (junk : String → Nat → Val) (coord : DType) (user : List PVar) (lastID : ℤ) (mindepth : ℚ)
    (a : Args) (hlat : a.lat.length = a.lon.length) (hdep : ∀ l, a.depth = some l → l.length = a.lon.length)
    (htime : ∀ l, a.time = .many l → l.length = 1 ∨ l.length = a.lon.length) (hkw : ∀ k ∈ a.kwargs, k.2.length = a.lon.length)
    (hvar : ∀ k ∈ a.kwargs.map (·.1), k ∈ (builtin coord ++ user).map (·.name)) (hrep : a.repeatdt = none)
    (hfield : ∀ v ∈ builtin coord ++ user, v.name ∉ givenNames a → ∀ f, v.init = .field f → ∀ i t z y x, timeOf a i = some t →
      depthOf a mindepth i = some z → a.lat[i]? = some y → a.lon[i]? = some x → ∃ t' w, t = some t' ∧ f t' z y x = some w) :
    ∃ d newID, create rnd junk coord user lastID mindepth a = .ok (d, newID) := by
  have hts : a.lon.length = (times a.lon.length a.time).length := by
    cases ht : a.time with
    | none => simp [times]
    | one t => simp [times]
    | many l =>
      unfold times
      rcases l with _ | ⟨t, _ | ⟨t', l⟩⟩
      · rcases htime _ ht with h | h
        · simp at h
        · exact h.symm
      · simp
      · rcases htime _ ht with h | h
        · simp at h
        · exact h.symm
  have hds : a.lon.length = (depths a.lon.length mindepth a.depth).length := by
    cases hd : a.depth with
    | none => simp [depths]
    | some l => exact (hdep l hd).symm
  unfold create
  dsimp only
  rw [if_neg (not_not.mpr ⟨hlat.symm, hds⟩), if_neg (not_not.mpr hts), if_neg]
  · rw [hrep]
    simp only [checkRepeat]
    obtain ⟨d1, h1⟩ := setKwargs_ok (rnd := rnd) (vs := classVars coord user) (kws := a.kwargs)
      (d := (((((allocate junk a.lon.length (classVars coord user)).set "lat" ((a.lat.map some).map (cast rnd (dtypeOf (classVars coord user) "lat")))).set
        "lon" ((a.lon.map some).map (cast rnd (dtypeOf (classVars coord user) "lon")))).set "depth"
        (((depths a.lon.length mindepth a.depth).map some).map (cast rnd (dtypeOf (classVars coord user) "depth")))).set "time"
        ((times a.lon.length a.time).map (cast rnd (dtypeOf (classVars coord user) "time")))).set "id"
        (((arange a.lon.length).map (· + lastID)).map fun (p : ℤ) => some (p : ℚ)) |>.set "fileid"
        ((a.lon.map fun _ => some (-1)).map (cast rnd (dtypeOf (classVars coord user) "fileid"))))
      (fun k hk => by
        obtain ⟨v, hv, e⟩ := List.mem_map.mp (hvar k hk)
        rw [← e]; exact List.mem_map_of_mem (mem_classVars.mpr hv))
    rw [h1]
    simp only
    have hpt : ∀ p ∈ (times a.lon.length a.time).zip ((depths a.lon.length mindepth a.depth).zip (a.lat.zip a.lon)), ∃ i,
        timeOf a i = some p.1 ∧ depthOf a mindepth i = some p.2.1 ∧ a.lat[i]? = some p.2.2.1 ∧ a.lon[i]? = some p.2.2.2 := by
      intro p hp
      obtain ⟨i, hi⟩ := List.mem_iff_getElem?.mp hp
      rw [List.getElem?_zip_eq_some, List.getElem?_zip_eq_some, List.getElem?_zip_eq_some, depth_get] at hi
      have hl := (List.getElem?_eq_some_iff.mp hi.2.2.2).1
      rw [times_get hl] at hi
      exact ⟨i, hi⟩
    have hloop : ∀ vs : List PVar, (∀ v ∈ vs, v ∈ builtin coord ++ user) → ∀ E, ∃ E', initRest rnd (givenNames a)
        ((times a.lon.length a.time).zip ((depths a.lon.length mindepth a.depth).zip (a.lat.zip a.lon))) vs E = .ok E' := by
      intro vs
      induction vs with
      | nil => exact fun _ E => ⟨E, rfl⟩
      | cons v vs ih =>
        intro hvs E
        rw [initRest]
        have ih' := ih fun w hw => hvs w (List.mem_cons_of_mem _ hw)
        split_ifs with hg
        · exact ih' E
        · have hc : ∃ col, initCol ((times a.lon.length a.time).zip ((depths a.lon.length mindepth a.depth).zip (a.lat.zip a.lon))) E v.init = .ok col := by
            cases hv : v.init with
            | const c => exact ⟨_, rfl⟩
            | copy k => unfold initCol; dsimp only; cases E k <;> exact ⟨_, rfl⟩
            | field f =>
              refine sampleAll_ok fun p hp => ?_
              obtain ⟨i, q1, q2, q3, q4⟩ := hpt p hp
              obtain ⟨t, w, e1, e2⟩ := hfield v (hvs v List.mem_cons_self) hg f hv i _ _ _ _ q1 q2 q3 q4
              exact ⟨t, w, e1, e2⟩
          obtain ⟨col, hc⟩ := hc
          rw [hc]
          exact ih' _
    obtain ⟨E', hE⟩ := hloop (classVars coord user) (fun v hv => mem_classVars.mp hv) d1
    unfold givenNames at hE
    rw [hE]
    exact ⟨_, _, rfl⟩
  · simp only [not_not]
    rw [List.all_eq_true]
    intro k hk
    simp [hkw k hk]

/-- C79: `from_line` places particles at equal distances from the start to the end, at the depth given. -/
theorem C79_line (start finish : ℚ × ℚ) (size : Nat) (z : ℚ) (time : TimeArg) (repeatdt : Option ℚ) :
    ∃ a, fromLine start finish size (.one z) time repeatdt = .ok a ∧ a.lon.length = size ∧ a.lat.length = size ∧
      a.depth = some (List.replicate size z) ∧ a.time = time ∧ a.repeatdt = repeatdt ∧ a.kwargs = [] ∧
      (∀ (i : Nat) (x y : ℚ), a.lon[i]? = some x → a.lat[i]? = some y → 2 ≤ size →
        (x - start.1) * (size - 1) = i * (finish.1 - start.1) ∧ (y - start.2) * (size - 1) = i * (finish.2 - start.2)) ∧
      (1 ≤ size → a.lon[0]? = some start.1 ∧ a.lat[0]? = some start.2) ∧
      (2 ≤ size → a.lon[size - 1]? = some finish.1 ∧ a.lat[size - 1]? = some finish.2) := by
  have hl : ∀ p q : ℚ, linspace p q (size : ℤ) = .ok ((List.range size).map fun (i : Nat) => if (size : ℤ) = 1 then p else p + (i : ℚ) * ((q - p) / (((size : ℤ) : ℚ) - 1))) := by
    intro p q
    unfold linspace
    rw [if_neg (by omega)]
    simp
  have hstep : ∀ (p q : ℚ) (i : Nat) (x : ℚ), 2 ≤ size →
      ((List.range size).map fun (i : Nat) => if (size : ℤ) = 1 then p else p + (i : ℚ) * ((q - p) / (((size : ℤ) : ℚ) - 1)))[i]? = some x →
      (x - p) * (size - 1) = i * (q - p) := by
    intro p q i x h2 hx
    obtain ⟨hi, hx⟩ := List.getElem?_eq_some_iff.mp hx
    simp only [List.length_map, List.length_range] at hi
    simp only [List.getElem_map, List.getElem_range] at hx
    rw [if_neg (by omega)] at hx
    have h2' : (2 : ℚ) ≤ size := by exact_mod_cast h2
    have h3 : (size : ℚ) - 1 ≠ 0 := by intro h; linarith
    rw [← hx]
    push_cast
    field_simp
    ring
  have hfirst : ∀ p q : ℚ, 1 ≤ size →
      ((List.range size).map fun (i : Nat) => if (size : ℤ) = 1 then p else p + (i : ℚ) * ((q - p) / (((size : ℤ) : ℚ) - 1)))[0]? = some p := by
    intro p q h1
    rw [List.getElem?_eq_some_iff]
    refine ⟨by simp; omega, ?_⟩
    simp
  have hlast : ∀ p q : ℚ, 2 ≤ size →
      ((List.range size).map fun (i : Nat) => if (size : ℤ) = 1 then p else p + (i : ℚ) * ((q - p) / (((size : ℤ) : ℚ) - 1)))[size - 1]? = some q := by
    intro p q h2
    rw [List.getElem?_eq_some_iff]
    refine ⟨by simp; omega, ?_⟩
    simp only [List.getElem_map, List.getElem_range]
    rw [if_neg (by omega)]
    have h2' : (2 : ℚ) ≤ size := by exact_mod_cast h2
    have h3 : (size : ℚ) - 1 ≠ 0 := by intro h; linarith
    rw [Nat.cast_sub (by omega)]
    push_cast
    field_simp
    ring
  refine ⟨_, by unfold fromLine; rw [hl, hl], by simp, by simp, by simp, rfl, rfl, rfl, ?_, ?_, ?_⟩
  · intro i x y hx hy h2
    exact ⟨hstep _ _ i x h2 hx, hstep _ _ i y h2 hy⟩
  · intro h1
    exact ⟨hfirst _ _ h1, hfirst _ _ h1⟩
  · intro h2
    exact ⟨hlast _ _ h2, hlast _ _ h2⟩

/-- A class with a variable that starts at the value of a field, one that starts at its longitude, and one that is given. -/
def exVars : List PVar :=
  [⟨"temp", .f32, .field fun t z y x => if x < 10 then some (t + z + y + x) else none⟩, ⟨"lon0", .f32, .copy "lon"⟩, ⟨"age", .f64, .const (some 0)⟩]
def exArgs : Args := { lon := [1, 2], lat := [3, 4], depth := none, time := .one 5, repeatdt := none, kwargs := [("age", [some 7, some 8])] }

example : Named .f32 exVars exArgs := ⟨by decide, by decide, by decide⟩
example : ((create (fun _ x => x) (fun _ _ => none) .f32 exVars 10 100 exArgs).toOption.map fun r =>
    (["id", "depth", "time", "temp", "lon0", "age"].map r.1, r.2)) =
    some ([some [some 10, some 11], some [some 100, some 100], some [some 5, some 5], some [some 109, some 111],
      some [some 1, some 2], some [some 7, some 8]], 12) := by decide +kernel
example : Ready (givenNames exArgs) (builtin .f32 ++ exVars) ⟨"lon", .f32, .const (some 0)⟩ ⟨"lon0", .f32, .copy "lon"⟩ :=
  Or.inl (by decide)

/-- C79 fails for a variable of 64 bits that starts at the value of one with 32 bits (or of one declared later): it gets whatever was in
the memory. -/
theorem C79_copy_order_fails (x : ℚ) :
    ((create (fun _ x => x) (fun _ _ => some x) .f32 [⟨"a", .f32, .const (some 1)⟩, ⟨"b", .f64, .copy "a"⟩] 0 0
      { lon := [0], lat := [0], depth := none, time := .none, repeatdt := none, kwargs := [] }).toOption.map fun r => (r.1 "a", r.1 "b")) =
    some (some [some 1], some [some x]) := rfl

/-- C79 fails for a variable that starts at the value of one that does not exist: no error, it starts at 0. -/
theorem C79_copy_unknown_fails :
    ((create (fun _ x => x) (fun _ _ => none) .f32 [⟨"b", .f32, .copy "longitude"⟩] 0 0
      { lon := [5], lat := [0], depth := none, time := .none, repeatdt := none, kwargs := [] }).toOption.map fun r => r.1 "b") =
    some (some [some 0]) := by decide +kernel

/-- C79 fails for repeated release: particles whose times differ are rejected only if the first time is not 0, and by a TypeError; an empty set cannot
be repeated (IndexError). -/
theorem C79_repeat_fails :
    let try_ := fun (ts : List Val) => (create (fun _ x => x) (fun _ _ => none) .f32 [] 0 0
      { lon := ts.map fun _ => 0, lat := ts.map fun _ => 0, depth := none, time := .many ts, repeatdt := some 10, kwargs := [] }).map fun r => r.1 "time"
    try_ [some 0, some 5] = .ok (some [some 0, some 5]) ∧ try_ [some 5, some 0] = .error .type ∧ try_ [] = .error .index := by decide +kernel

end Parcels.Construct
