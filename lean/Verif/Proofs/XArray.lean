import Verif.Spec.XArray
import Verif.Props.Load
import Mathlib.Tactic.Ring

/-! Lemmas for C122. -/

namespace Parcels.XArray
open Parcels.Load Parcels.Converters Parcels.FromNetcdf

theorem mem_named (l : Layout) (tN zN yN xN n : String) :
    n ∈ Named l tN zN yN xN ↔ (n = tN ∧ hasTime l = true) ∨ (n = zN ∧ l.hasDepth = true) ∨ n = yN ∨ n = xN := by
  cases l <;> simp [Named, hasTime, Layout.hasDepth]

variable {ds : DS} {d : List (String × String)} {da : DArray} {tr : Bool} {l : Layout} {tN zN yN xN : String} {size : String → Nat}

theorem Ordered.mem (h : Ordered ds d da tr l tN zN yN xN size) (n : String) :
    n ∈ da.dims ↔ (n = tN ∧ hasTime l = true) ∨ (n = zN ∧ l.hasDepth = true) ∨ n = yN ∨ n = xN := by
  rw [h.dims, ← mem_named]
  cases tr <;> simp

theorem coordOf_some {n : String} {c : Coord} (hc : ds.coords n = some c) (hd : ∀ k ∈ c.dims, k ∈ da.dims) : coordOf ds da n = some c := by
  unfold coordOf
  rw [hc]
  refine if_pos ?_
  rw [List.all_eq_true]
  intro k hk
  simpa using hd k hk

theorem vec_some {a : ND ℚ} {n : Nat} (h : a.shape = [n]) : vec a = some ((List.range n).map fun i => a.get [i]) := by
  unfold vec
  rw [h]
  rfl

theorem getD_map_range (n : Nat) (g : Nat → ℚ) (i : Nat) (h : i < n) : ((List.range n).map g).getD i 0 = g i := by
  rw [List.getD_eq_getElem?_getD]
  simp [h]

theorem Ordered.times (h : Ordered ds d da tr l tN zN yN xN size) : ∃ cal ts, timeOf ds da d = some (cal, ts) ∧ 1 ≤ ts.length ∧
    (hasTime l = true → ts.length = size tN) ∧ (hasTime l = false → ts.length = 1) ∧
    (∀ n c, d.lookup "time" = some n → ds.coords n = some c → cal = c.cal ∧ c.dims = [tN] ∧ ∀ i, i < ts.length → ts.getD i 0 = c.vals.get [i]) := by
  have ht := h.time
  unfold timeOf
  cases e : d.lookup "time" with
  | none =>
    rw [e] at ht
    refine ⟨.number, [0], rfl, by simp, fun q => (ht q).symm, fun _ => rfl, ?_⟩
    intro n c hn
    simp at hn
  | some n =>
    rw [e] at ht
    obtain ⟨h1, h2, c, hc, hd, hs⟩ := ht
    refine ⟨c.cal, (List.range (size tN)).map fun i => c.vals.get [i], ?_, by rw [List.length_map, List.length_range]; exact h2, fun _ => by simp, fun q => (by rw [q] at h1; cases h1), ?_⟩
    · simp only []
      rw [coordOf_some hc (by intro k hk; rw [hd] at hk; rw [h.mem]; left; exact ⟨by simpa using hk, h1⟩)]
      simp only [Option.bind_some]
      rw [vec_some hs]
      rfl
    · intro n' c' hn' hc'
      injection hn' with hn'
      subst hn'
      rw [hc] at hc'
      injection hc' with hc'
      subst hc'
      refine ⟨rfl, hd, ?_⟩
      intro i hi
      exact getD_map_range _ _ _ (by simpa using hi)

theorem Ordered.depths (h : Ordered ds d da tr l tN zN yN xN size) : ∃ zs, depthOf ds da d = some zs ∧
    (l.hasDepth = true → zs.length = size zN) ∧ (l.hasDepth = false → zs.length = 1) ∧
    (∀ n c, d.lookup "depth" = some n → ds.coords n = some c → c.dims = [zN] ∧ ∀ i, i < zs.length → zs.getD i 0 = c.vals.get [i]) := by
  have ht := h.depth
  unfold depthOf
  cases e : d.lookup "depth" with
  | none =>
    rw [e] at ht
    refine ⟨[0], rfl, fun q => (ht q).symm, fun _ => rfl, ?_⟩
    intro n c hn
    simp at hn
  | some n =>
    rw [e] at ht
    obtain ⟨h1, c, hc, hd, hs⟩ := ht
    refine ⟨(List.range (size zN)).map fun i => c.vals.get [i], ?_, fun _ => by simp, fun q => (by rw [q] at h1; cases h1), ?_⟩
    · simp only []
      rw [coordOf_some hc (by intro k hk; rw [hd] at hk; rw [h.mem]; right; left; exact ⟨by simpa using hk, h1⟩)]
      simp only [Option.bind_some]
      exact vec_some hs
    · intro n' c' hn' hc'
      injection hn' with hn'
      subst hn'
      rw [hc] at hc'
      injection hc' with hc'
      subst hc'
      refine ⟨hd, ?_⟩
      intro i hi
      exact getD_map_range _ _ _ (by simpa using hi)

/-- The index for each name. -/
def selOf (tN zN yN : String) (t z r x : Nat) : String → Nat := fun n => if n = tN then t else if n = zN then z else if n = yN then r else x

theorem sel_named (hn : [tN, zN, yN, xN].Nodup) (t z r x : Nat) :
    (Named l tN zN yN xN).map (selOf tN zN yN t z r x) = l.index t z r x := by
  simp only [List.nodup_cons, List.mem_cons, List.not_mem_nil, or_false, not_or] at hn
  obtain ⟨⟨h1, h2, h3⟩, ⟨h4, h5⟩, h6, -⟩ := hn
  cases l <;> simp [Named, Layout.index, selOf, Ne.symm h1, Ne.symm h2, Ne.symm h3, Ne.symm h4, Ne.symm h5, Ne.symm h6]

theorem size_named (T Z : Nat) (h1 : hasTime l = true → T = size tN) (h2 : l.hasDepth = true → Z = size zN) :
    (Named l tN zN yN xN).map size = l.shape T Z (size yN) (size xN) := by
  cases l <;> simp_all [Named, Layout.shape, hasTime, Layout.hasDepth]

/-- The field, and what it has at the nodes, for the coordinates as they are in the dataset. -/
theorem Ordered.field (h : Ordered ds d da tr l tN zN yN xN size) {var : String} {k : Kw} (hk : k.transpose = tr) {u : Unit'} {im : String}
    (hu : unitOf k.mesh k.ftype var = some u) (him : interpOf k.interp var = some im) :
    ∃ f, fieldOf ds da var d k = some f ∧ f.name = var ∧ f.unit = u ∧ f.interp = im ∧ f.periodic = none ∧
      f.extrap = k.extrap.getD (decide (f.grid.time.length = 1)) ∧
      f.grid.xdim = size xN ∧ f.grid.ydim = size yN ∧
      (hasTime l = true → f.grid.time.length = size tN) ∧ (hasTime l = false → f.grid.time.length = 1) ∧
      (l.hasDepth = true → f.grid.depth.length = size zN) ∧ (l.hasDepth = false → f.grid.depth.length = 1) ∧
      ∀ t z y x, t < f.grid.time.length → z < f.grid.depth.length → y < f.grid.ydim → x < f.grid.xdim → ∃ sel : String → Nat,
        (∀ (i : Nat) n, da.dims[i]? = some n → sel n < da.data.shape.getD i 0) ∧
        (∃ n c, d.lookup "lon" = some n ∧ ds.coords n = some c ∧ f.grid.lonAt y x = pick c.dims c.vals sel) ∧
        (∃ n c, d.lookup "lat" = some n ∧ ds.coords n = some c ∧ f.grid.latAt y x = pick c.dims c.vals sel) ∧
        (∀ n c, d.lookup "depth" = some n → ds.coords n = some c → f.grid.depth.getD z 0 = pick c.dims c.vals sel) ∧
        (∀ n c, d.lookup "time" = some n → ds.coords n = some c →
          f.cal = c.cal ∧ f.origin / ticks f.cal + f.grid.time.getD t 0 = pick c.dims c.vals sel / ticks c.cal) ∧
        nodeValue f.data t z y x = pick da.dims da.data sel := by
  subst hk
  obtain ⟨cal, ts, e1, n1, t1, t2, t3⟩ := h.times
  obtain ⟨zs, e2, z1, z2, z3⟩ := h.depths
  obtain ⟨ln, la, clon, clat, l1, l2, l3, l4, s1, s2, l5⟩ := h.lonlat
  have e3 : axisOf ds da d "lon" = some clon.vals := by
    unfold axisOf
    rw [l1]
    simp only [Option.bind_some]
    rw [coordOf_some l3 (by
      intro q hq
      rw [h.mem]
      rcases l5 with ⟨q1, -⟩ | ⟨q1, -⟩ <;> rw [q1] at hq
      · exact Or.inr (Or.inr (Or.inr (List.mem_singleton.1 hq)))
      · rcases List.mem_cons.1 hq with hq | hq
        · exact Or.inr (Or.inr (Or.inl hq))
        · exact Or.inr (Or.inr (Or.inr (List.mem_singleton.1 hq))))]
    rfl
  have e4 : axisOf ds da d "lat" = some clat.vals := by
    unfold axisOf
    rw [l2]
    simp only [Option.bind_some]
    rw [coordOf_some l4 (by
      intro q hq
      rw [h.mem]
      rcases l5 with ⟨-, q1⟩ | ⟨-, q1⟩ <;> rw [q1] at hq
      · exact Or.inr (Or.inr (Or.inl (List.mem_singleton.1 hq)))
      · rcases List.mem_cons.1 hq with hq | hq
        · exact Or.inr (Or.inr (Or.inl hq))
        · exact Or.inr (Or.inr (Or.inr (List.mem_singleton.1 hq))))]
    rfl
  obtain ⟨o, ts', rfl⟩ : ∃ o ts', ts = o :: ts' := by
    cases ts with
    | nil => simp at n1
    | cons o ts' => exact ⟨o, ts', rfl⟩
  have hs : (clon.vals.shape = [size xN] ∧ clat.vals.shape = [size yN]) ∨
      (clon.vals.shape = [size yN, size xN] ∧ clat.vals.shape = [size yN, size xN]) := by
    rcases l5 with ⟨q1, q2⟩ | ⟨q1, q2⟩
    · left; rw [s1, s2, q1, q2]; exact ⟨rfl, rfl⟩
    · right; rw [s1, s2, q1, q2]; exact ⟨rfl, rfl⟩
  have hc : (clon.vals.shape.length = 1 ∧ clat.vals.shape.length = 1) ∨ (clon.vals.shape.length = 2 ∧ clat.vals.shape.length = 2) := by
    rcases hs with ⟨q1, q2⟩ | ⟨q1, q2⟩ <;> rw [q1, q2] <;> simp
  have hsz : (Named l tN zN yN xN).map size = l.shape ((o :: ts').map (reltime cal o)).length zs.length (size yN) (size xN) :=
    size_named _ _ (fun q => by rw [List.length_map]; exact t1 q) z1
  obtain ⟨a, r1, r2, r3, r4, r5, r6⟩ := C69_array clon.vals clat.vals zs ((o :: ts').map (reltime cal o)) (size xN) (size yN) l k.transpose k.pop da.data
    hs (by
      rw [h.shape, h.dims]
      cases k.transpose
      · exact hsz
      · simp only [if_true]
        rw [List.map_reverse, hsz])
    (fun q => by
      rw [List.length_map]
      exact t2 (by rcases q with rfl | rfl <;> rfl))
    (fun q => z2 q)
  refine ⟨⟨var, createGrid clon.vals clat.vals zs ((o :: ts').map (reltime cal o)), cal, o, a, u, k.extrap.getD (decide ((o :: ts').length = 1)), none, im⟩, ?_,
    rfl, rfl, rfl, rfl, ?_, r2, r3, ?_, ?_, ?_, ?_, ?_⟩
  · unfold fieldOf
    rw [e1, e2, e3, e4, hu, him]
    simp only [Option.bind_some, List.head?_cons]
    unfold check
    rw [if_pos hc]
    simp only [Option.bind_some]
    rw [List.length_map] at r1
    rw [r1]
    rfl
  · simp only []
    rw [r5, List.length_map]
  · intro q; simp only []; rw [r5, List.length_map]; exact t1 q
  · intro q; simp only []; rw [r5, List.length_map]; exact t2 q
  · intro q; simp only []; rw [r4]; exact z1 q
  · intro q; simp only []; rw [r4]; exact z2 q
  · intro t z y x ht hz hy hx
    simp only [] at ht hz hy hx ⊢
    rw [r5] at ht
    rw [r4] at hz
    rw [r3] at hy
    rw [r2] at hx
    obtain ⟨row, w1, w2, w3, w4⟩ := r6 t z y x ht hz hy hx
    rw [List.length_map] at ht
    have hn := h.distinct
    have hn' := hn
    simp only [List.nodup_cons, List.mem_cons, List.not_mem_nil, or_false, not_or] at hn'
    obtain ⟨⟨d1, d2, d3⟩, ⟨d4, d5⟩, d6, -⟩ := hn'
    have st : selOf tN zN yN t z row x tN = t := by simp [selOf]
    have sz : selOf tN zN yN t z row x zN = z := by simp [selOf, Ne.symm d1]
    have sy : selOf tN zN yN t z row x yN = row := by simp [selOf, Ne.symm d2, Ne.symm d4]
    have sx : selOf tN zN yN t z row x xN = x := by simp [selOf, Ne.symm d3, Ne.symm d5, Ne.symm d6]
    refine ⟨selOf tN zN yN t z row x, ?_, ?_, ?_, ?_, ?_, ?_⟩
    · intro i n hi
      have hm : n ∈ da.dims := List.mem_of_getElem? hi
      rw [h.shape, List.getD_eq_getElem?_getD, List.getElem?_map, hi]
      simp only [Option.map_some, Option.getD_some]
      rw [h.mem] at hm
      rcases hm with ⟨rfl, q⟩ | ⟨rfl, q⟩ | rfl | rfl
      · rw [st, ← t1 q]; exact ht
      · rw [sz, ← z1 q]; exact hz
      · rw [sy]; exact w1
      · rw [sx]; exact hx
    · refine ⟨ln, clon, l1, l3, ?_⟩
      rw [w3]
      unfold pick
      rcases l5 with ⟨q1, -⟩ | ⟨q1, -⟩
      · rw [s1, q1]; simp [sx]
      · rw [s1, q1]; simp [sx, sy]
    · refine ⟨la, clat, l2, l4, ?_⟩
      rw [w2]
      unfold pick
      rcases l5 with ⟨-, q1⟩ | ⟨-, q1⟩
      · rw [s2, q1]; simp [sy]
      · rw [s2, q1]; simp [sx, sy]
    · intro n c hl hcn
      obtain ⟨q1, q2⟩ := z3 n c hl hcn
      rw [r4, q2 z hz]
      unfold pick
      rw [q1]
      simp [sz]
    · intro n c hl hcn
      obtain ⟨q0, q1, q2⟩ := t3 n c hl hcn
      refine ⟨q0, ?_⟩
      rw [r5]
      have e : ((o :: ts').map (reltime cal o)).getD t 0 = reltime cal o ((o :: ts').getD t 0) := by
        rw [List.getD_eq_getElem?_getD, List.getD_eq_getElem?_getD, List.getElem?_map, List.getElem?_eq_getElem ht]
        rfl
      rw [e, q2 t ht]
      unfold pick reltime
      rw [q1, ← q0]
      simp only [List.map_cons, List.map_nil, st]
      ring
    · rw [w4]
      unfold pick
      rw [h.dims]
      cases k.transpose
      · simp only [Bool.false_eq_true, if_false]; rw [sel_named hn]
      · simp only [if_true]; rw [List.map_reverse, sel_named hn]

/-! ### The attribute `Unit` -/

theorem fixUnit_vars (ds : DS) (a : DimArg) : (fixUnit ds a).vars = ds.vars := by
  unfold fixUnit
  split
  · split
    · split
      · split <;> rfl
      · rfl
    · rfl
  · rfl

/-- What a coordinate is after the call. -/
theorem fixUnit_coord (ds : DS) (a : DimArg) (m : String) (c : Coord) (hc : ds.coords m = some c) :
    ((fixUnit ds a).coords m = some c ∧ (a.lookup "time" = some (.one m) → c.units = true ∨ c.unit = none)) ∨
    (a.lookup "time" = some (.one m) ∧ c.units = false ∧ ∃ dec, c.unit = some dec ∧
      (fixUnit ds a).coords m = some { c with vals := ⟨c.vals.shape, fun i => dec (c.vals.get i)⟩, cal := .np }) := by
  cases e : a.lookup "time" with
  | none => left; unfold fixUnit; rw [e]; exact ⟨hc, fun q => by cases q⟩
  | some v =>
    cases v with
    | dict d => left; unfold fixUnit; rw [e]; exact ⟨hc, fun q => by injection q with q; cases q⟩
    | one n =>
      by_cases hm : m = n
      · subst hm
        cases hu : c.unit with
        | none =>
          left
          unfold fixUnit
          simp only [e, hc, hu]
          exact ⟨trivial, fun _ => Or.inr trivial⟩
        | some dec =>
          cases hs : c.units with
          | true =>
            left
            unfold fixUnit
            simp only [e, hc, hu, hs]
            simp [hc]
          | false =>
            right
            refine ⟨rfl, rfl, dec, rfl, ?_⟩
            unfold fixUnit
            simp only [e, hc, hu, hs]
            simp [convert, hu, hs]
      · left
        refine ⟨?_, fun q => by injection q with q; injection q with q; exact absurd q.symm hm⟩
        unfold fixUnit
        rw [e]
        simp only []
        split
        · split
          · split
            · exact hc
            · simp [convert, hm, hc]
          · exact hc
        · exact hc

theorem fixUnit_same (ds : DS) (a : DimArg) (m : String) (c : Coord) (hc : ds.coords m = some c) :
    ∃ c', (fixUnit ds a).coords m = some c' ∧ c'.dims = c.dims ∧ c'.vals.shape = c.vals.shape := by
  rcases fixUnit_coord ds a m c hc with ⟨h, -⟩ | ⟨-, -, dec, -, h⟩
  · exact ⟨c, h, rfl, rfl⟩
  · exact ⟨_, h, rfl, rfl⟩

theorem Ordered.fixed (h : Ordered ds d da tr l tN zN yN xN size) (a : DimArg) : Ordered (fixUnit ds a) d da tr l tN zN yN xN size := by
  refine ⟨h.distinct, h.dims, h.shape, ?_, ?_, ?_⟩
  · obtain ⟨ln, la, clon, clat, l1, l2, l3, l4, s1, s2, l5⟩ := h.lonlat
    obtain ⟨c1, a1, a2, a3⟩ := fixUnit_same ds a ln clon l3
    obtain ⟨c2, b1, b2, b3⟩ := fixUnit_same ds a la clat l4
    refine ⟨ln, la, c1, c2, l1, l2, a1, b1, by rw [a3, a2, s1], by rw [b3, b2, s2], ?_⟩
    rw [a2, b2]
    exact l5
  · have q := h.depth
    cases e : d.lookup "depth" with
    | none => rw [e] at q; exact q
    | some n =>
      rw [e] at q
      obtain ⟨q1, c, q2, q3, q4⟩ := q
      obtain ⟨c1, a1, a2, a3⟩ := fixUnit_same ds a n c q2
      exact ⟨q1, c1, a1, by rw [a2, q3], by rw [a3, q4]⟩
  · have q := h.time
    cases e : d.lookup "time" with
    | none => rw [e] at q; exact q
    | some n =>
      rw [e] at q
      obtain ⟨q1, q0, c, q2, q3, q4⟩ := q
      obtain ⟨c1, a1, a2, a3⟩ := fixUnit_same ds a n c q2
      exact ⟨q1, q0, c1, a1, by rw [a2, q3], by rw [a3, q4]⟩

theorem plain_means {c : Coord} (h : c.units = true ∨ c.unit = none) : c.means = c.cal ∧ ∀ v, c.seconds v = v / ticks c.cal := by
  unfold Coord.means Coord.seconds
  rcases h with h | h
  · rw [h]
    refine ⟨if_neg (by simp), fun v => ?_⟩
    cases c.unit <;> rfl
  · rw [h]
    exact ⟨if_neg (by simp), fun v => rfl⟩

/-! ### The loop -/

theorem names_some (a : DimArg) : ∀ d, names a = some d ↔ a = d.map fun p => (p.1, .one p.2) := by
  induction a with
  | nil =>
    intro d
    cases d <;> simp [names]
  | cons p rest ih =>
    intro d
    obtain ⟨k, v⟩ := p
    cases v with
    | dict e => cases d <;> simp [names]
    | one n =>
      cases d with
      | nil => simp [names]
      | cons q d =>
        simp only [names, Option.map_eq_some_iff, List.map_cons, List.cons.injEq]
        constructor
        · rintro ⟨l, h1, rfl, rfl⟩
          exact ⟨rfl, (ih _).1 h1⟩
        · rintro ⟨h1, h2⟩
          obtain ⟨q1, q2⟩ := q
          simp only [Prod.mk.injEq, DimVal.one.injEq] at h1
          obtain ⟨rfl, rfl⟩ := h1
          exact ⟨d, (ih _).2 h2, rfl, rfl⟩

theorem validKeys_iff (d : List (String × String)) : validKeys (d.map Prod.fst) = true ↔ ∀ p ∈ d, p.1 = "lon" ∨ p.1 = "lat" ∨ p.1 = "depth" ∨ p.1 = "time" := by
  unfold validKeys
  rw [List.all_eq_true]
  simp

theorem dimsFor_given {a : DimArg} {var : String} {d : List (String × String)} (h : Given a var d) : dimsFor a var = some d := by
  obtain ⟨h1, h2 | ⟨h2, h3⟩⟩ := h
  · unfold dimsFor
    rw [h2]
    exact if_pos ((validKeys_iff d).2 h1)
  · unfold dimsFor
    rw [h2]
    have e : a.map Prod.fst = d.map Prod.fst := by rw [h3, List.map_map]; rfl
    rw [e]
    refine (if_pos ((validKeys_iff d).2 h1)).trans ?_
    exact (names_some a d).2 h3

theorem given_dimsFor {a : DimArg} {var : String} {d : List (String × String)} (h : dimsFor a var = some d) : Given a var d := by
  unfold dimsFor at h
  cases e : a.lookup var with
  | none =>
    simp only [e] at h
    split at h
    · rename_i hv
      have e2 := (names_some a d).1 h
      refine ⟨(validKeys_iff d).1 ?_, Or.inr ⟨e, e2⟩⟩
      have : a.map Prod.fst = d.map Prod.fst := by rw [e2, List.map_map]; rfl
      rw [← this]
      exact hv
    · cases h
  | some v =>
    cases v with
    | one n => simp [e] at h
    | dict d' =>
      simp only [e] at h
      split at h
      · rename_i hv
        injection h with h
        subst h
        exact ⟨(validKeys_iff d').1 hv, Or.inl e⟩
      · cases h

theorem loop_mem {ds : DS} {a : DimArg} {k : Kw} : ∀ {vars : List (String × String)} {fs : List XField}, loop ds a k vars = some fs →
    fs.length = vars.length ∧ ∀ (i : Nat) (vn : String × String) (f : XField), vars[i]? = some vn → fs[i]? = some f → ∃ d da, dimsFor a vn.1 = some d ∧ ds.vars vn.2 = some da ∧
      fieldOf ds da vn.1 d k = some f := by
  intro vars
  induction vars with
  | nil =>
    intro fs h
    simp only [loop, Option.some.injEq] at h
    subst h
    exact ⟨rfl, fun i vn f hi => by simp at hi⟩
  | cons p rest ih =>
    intro fs h
    obtain ⟨var, name⟩ := p
    simp only [loop, Option.bind_eq_some_iff, Option.map_eq_some_iff] at h
    obtain ⟨d, h1, da, h2, f0, h3, fs', h4, rfl⟩ := h
    obtain ⟨g1, g2⟩ := ih h4
    refine ⟨by simp [g1], ?_⟩
    intro i vn f hi hf
    cases i with
    | zero =>
      simp only [List.getElem?_cons_zero, Option.some.injEq] at hi hf
      subst hi
      subst hf
      exact ⟨d, da, h1, h2, h3⟩
    | succ i =>
      simp only [List.getElem?_cons_succ] at hi hf
      exact g2 i vn f hi hf

theorem loop_total {ds : DS} {a : DimArg} {k : Kw} : ∀ {vars : List (String × String)},
    (∀ vn ∈ vars, ∃ d da f, dimsFor a vn.1 = some d ∧ ds.vars vn.2 = some da ∧ fieldOf ds da vn.1 d k = some f) → ∃ fs, loop ds a k vars = some fs := by
  intro vars
  induction vars with
  | nil => intro _; exact ⟨[], rfl⟩
  | cons p rest ih =>
    intro h
    obtain ⟨var, name⟩ := p
    obtain ⟨d, da, f, h1, h2, h3⟩ := h (var, name) (by simp)
    obtain ⟨fs, h4⟩ := ih fun vn hv => h vn (by simp [hv])
    refine ⟨f :: fs, ?_⟩
    simp only [loop]
    rw [h1, h2]
    simp only [Option.bind_some]
    rw [h3]
    simp only [Option.bind_some]
    rw [h4]
    rfl

end Parcels.XArray
