import Verif.Spec.ReleaseGrid
import Verif.Proofs.GridRun3
import Verif.Props.ReleaseRun

/-!
Lemmas for C118.
-/

namespace Parcels.ReleaseGrid

open Recovery (TP RMap)
open GridRun (Hint bare strip filterMap_bare regular_strip)
open WholeRun (Opts Run St Scheme Exec trajectory record records outputTimes core Regular Deletes Raises kernel scipyExec jitExec ne_zero_of)
open ReleaseRun (Repeat Repeats everyone releases batch releaseTimes execute scipyPass jitPass IsMode)

variable {V : Type}

/-- The schemes of the two modes give the trajectories of `ref`. -/
structure Link (ref f : Scheme V) (f' : Scheme (V × (Nat → Hint))) (Good : (Nat → Hint) → Prop) : Prop where
  scipy : trajectory f = trajectory ref
  jit : ∀ dt t q, Good q.2.vars.2 → (trajectory f' dt t q).map bare = trajectory ref dt t (strip q)
  file : ∀ dt t q, Good q.2.vars.2 → (record f' dt t q).map bare = record ref dt t (strip q)

theorem zip_strip (t dt : ℚ) : ∀ (vs : List (V × (Nat → Hint))) (is : List Nat),
    (List.zipWith (fun i v => ((i, ⟨t, dt, .evaluate, v⟩) : TP (V × (Nat → Hint)))) is vs).map strip =
      List.zipWith (fun i v => ((i, ⟨t, dt, .evaluate, v⟩) : TP V)) is (vs.map Prod.fst)
  | [], is => by simp
  | v :: vs, [] => rfl
  | v :: vs, i :: is => by
    simp only [List.zipWith_cons_cons, List.map_cons]
    rw [zip_strip t dt vs is]
    rfl

theorem batch_strip (dt : ℚ) (vs : List (V × (Nat → Hint))) (id : Nat) (t : ℚ) : (batch dt vs id t).map strip = batch dt (vs.map Prod.fst) id t := by
  unfold batch
  rw [zip_strip, List.length_map]

theorem releases_strip (dt : ℚ) (vs : List (V × (Nat → Hint))) : ∀ (ts : List ℚ) (id : Nat), (releases dt vs id ts).map strip = releases dt (vs.map Prod.fst) id ts
  | [], _ => rfl
  | t :: ts, id => by
    show (batch dt vs id t ++ releases dt vs (id + vs.length) ts).map strip = batch dt (vs.map Prod.fst) id t ++ releases dt (vs.map Prod.fst) (id + (vs.map Prod.fst).length) ts
    rw [List.map_append, batch_strip, releases_strip dt vs ts, List.length_map]

theorem everyone_strip (o : Opts) (S : ℚ) (rep : Repeat (V × (Nat → Hint))) (vs : List (V × (Nat → Hint))) (N : Nat) (ps : List (TP (V × (Nat → Hint)))) :
    (everyone o S rep vs N ps).map strip = everyone o S (bareRep rep) (vs.map Prod.fst) N (ps.map strip) := by
  unfold everyone
  rw [List.map_append, releases_strip]
  rfl

theorem batch_mem {dt : ℚ} {t : ℚ} {q : TP V} : ∀ {vs : List V} {is : List Nat}, q ∈ List.zipWith (fun i v => ((i, ⟨t, dt, .evaluate, v⟩) : TP V)) is vs → q.2.vars ∈ vs
  | [], is, h => by simp at h
  | v :: vs, [], h => by simp at h
  | v :: vs, i :: is, h => by
    simp only [List.zipWith_cons_cons, List.mem_cons] at h
    rcases h with rfl | h
    · exact List.mem_cons_self
    · exact List.mem_cons_of_mem _ (batch_mem h)

theorem releases_vars {dt : ℚ} {vs : List V} {q : TP V} : ∀ {ts : List ℚ} {id : Nat}, q ∈ releases dt vs id ts → q.2.vars ∈ vs
  | [], _, h => by cases h
  | t :: ts, id, h => by
    rcases List.mem_append.mp h with h | h
    · exact batch_mem h
    · exact releases_vars h

theorem everyone_good {Good : (Nat → Hint) → Prop} {o : Opts} {S : ℚ} {rep : Repeat (V × (Nat → Hint))} {vs : List (V × (Nat → Hint))} {N : Nat} {ps : List (TP (V × (Nat → Hint)))}
    (hp : ∀ q ∈ ps, Good q.2.vars.2) (hv : ∀ v ∈ vs, Good v.2) : ∀ q ∈ everyone o S rep vs N ps, Good q.2.vars.2 := by
  intro q hq
  rcases List.mem_append.mp hq with h | h
  · exact hp q h
  · exact hv _ (releases_vars h)

theorem repeats_bare {o : Opts} {S : ℚ} {rep : Repeat (V × (Nat → Hint))} (h : Repeats o S rep) : Repeats o S (bareRep rep) := h

theorem pair_good {ref f : Scheme V} {f' : Scheme (V × (Nat → Hint))} {Good : (Nat → Hint) → Prop} (L : Link ref f f' Good)
    {user : RMap Unit V} {user' : RMap Unit (V × (Nat → Hint))} {o : Opts} {S : ℚ} {N : ℕ} {ps : List (TP (V × (Nat → Hint)))} (h : Regular o S N ps)
    (hh : ∀ q ∈ ps, Good q.2.vars.2) {rep : Repeat (V × (Nat → Hint))} (hrep : Repeats o S rep) {vs : List (V × (Nat → Hint))} (hv : rep.held = some vs) (hg : ∀ v ∈ vs, Good v.2)
    (hok : (Deletes user ∧ Deletes user') ∨
      ∀ q ∈ everyone o S (bareRep rep) (vs.map Prod.fst) N (ps.map strip), (trajectory ref o.dt (S + N * o.dt) q).isSome)
    {exec : Exec V} {pass} (hm : IsMode (kernel f) user exec pass) {exec' : Exec (V × (Nat → Hint))} {pass'} (hm' : IsMode (kernel f') user' exec' pass')
    (fresh : V → V) (fresh' : V × (Nat → Hint) → V × (Nat → Hint)) (fuel fuel' : ℕ) (file : Output.PFile) (r : Run V × Repeat V)
    (r' : Run (V × (Nat → Hint)) × Repeat (V × (Nat → Hint)))
    (hr : execute o exec pass fresh fuel file (bareRep rep) (ps.map strip) = some r) (hr' : execute o exec' pass' fresh' fuel' file rep ps = some r') :
    ∃ s s', r.1 = .done s ∧ r'.1 = .done s' ∧ Follow ref o S N (everyone o S (bareRep rep) (vs.map Prod.fst) N (ps.map strip)) file s s' := by
  have hbv : (bareRep rep).held = some (vs.map Prod.fst) := by simp [bareRep, hv]
  have good := everyone_good (o := o) (S := S) (rep := rep) (N := N) hh hg
  have hok1 : Deletes user ∨ ∀ q ∈ everyone o S (bareRep rep) (vs.map Prod.fst) N (ps.map strip), (trajectory f o.dt (S + N * o.dt) q).isSome := by
    rw [L.scipy]
    exact hok.imp_left And.left
  have hok2 : Deletes user' ∨ ∀ q ∈ everyone o S rep vs N ps, (trajectory f' o.dt (S + N * o.dt) q).isSome := by
    refine hok.imp And.right fun H q hq => ?_
    have := H (strip q) (by rw [← everyone_strip]; exact List.mem_map_of_mem hq)
    rw [← L.jit _ _ q (good q hq), Option.isSome_map] at this
    exact this
  obtain ⟨s, e1, e2⟩ := ReleaseRun.C102_run hm (regular_strip h) (repeats_bare hrep) hbv hok1 fresh fuel file r hr
  obtain ⟨s', e1', e2'⟩ := ReleaseRun.C102_run hm' h hrep hv hok2 fresh' fuel' file r' hr'
  refine ⟨s, s', e1, e1', by rw [e2, L.scipy], ?_, fun c1 c2 c3 i hi => ?_, fun c1 c2 c3 i hi => ?_⟩
  · rw [e2', filterMap_bare _ _ _ _ _ fun q hq => L.jit _ _ q (good q hq), everyone_strip]
  · obtain ⟨s2, a1, a2⟩ := ReleaseRun.C102_records hm (regular_strip h) (repeats_bare hrep) hbv hok1 fresh fuel file r hr c1 c2 c3 i hi
    rw [e1] at a1
    injection a1 with a1
    subst a1
    rw [a2]
    unfold record
    rw [L.scipy]
  · obtain ⟨s2, a1, a2⟩ := ReleaseRun.C102_records hm' h hrep hv hok2 fresh' fuel' file r' hr' c1 c2 c3 i hi
    rw [e1'] at a1
    injection a1 with a1
    subst a1
    rw [a2, List.map_flatMap]
    congr 1
    funext t
    rw [filterMap_bare _ _ _ _ _ fun q hq => L.file _ _ q (good q hq), everyone_strip]

theorem pair_bad {ref f : Scheme V} {f' : Scheme (V × (Nat → Hint))} {Good : (Nat → Hint) → Prop} (L : Link ref f f' Good)
    {user : RMap Unit V} {user' : RMap Unit (V × (Nat → Hint))} {o : Opts} {S : ℚ} {N : ℕ} {ps : List (TP (V × (Nat → Hint)))} (h : Regular o S N ps)
    (hh : ∀ q ∈ ps, Good q.2.vars.2) {rep : Repeat (V × (Nat → Hint))} (hrep : Repeats o S rep) {vs : List (V × (Nat → Hint))} (hv : rep.held = some vs) (hg : ∀ v ∈ vs, Good v.2)
    (hu : Raises user) (hu' : Raises user')
    (hbad : ∃ q ∈ everyone o S (bareRep rep) (vs.map Prod.fst) N (ps.map strip), trajectory ref o.dt (S + N * o.dt) q = none)
    {exec : Exec V} {pass} (hm : IsMode (kernel f) user exec pass) {exec' : Exec (V × (Nat → Hint))} {pass'} (hm' : IsMode (kernel f') user' exec' pass')
    (fresh : V → V) (fresh' : V × (Nat → Hint) → V × (Nat → Hint)) (fuel fuel' : ℕ) (file : Output.PFile) (r : Run V × Repeat V)
    (r' : Run (V × (Nat → Hint)) × Repeat (V × (Nat → Hint)))
    (hr : execute o exec pass fresh fuel file (bareRep rep) (ps.map strip) = some r) (hr' : execute o exec' pass' fresh' fuel' file rep ps = some r') :
    (∃ s, r.1 = .raised s) ∧ ∃ s', r'.1 = .raised s' := by
  have hbv : (bareRep rep).held = some (vs.map Prod.fst) := by simp [bareRep, hv]
  have good := everyone_good (o := o) (S := S) (rep := rep) (N := N) hh hg
  obtain ⟨q, hq, hn⟩ := hbad
  refine ⟨ReleaseRun.C102_raises hm (regular_strip h) (repeats_bare hrep) hbv hu ⟨q, hq, by rw [L.scipy]; exact hn⟩ fresh fuel file r hr, ?_⟩
  rw [← everyone_strip] at hq
  obtain ⟨p, hp, rfl⟩ := List.mem_map.mp hq
  refine ReleaseRun.C102_raises hm' h hrep hv hu' ⟨p, hp, ?_⟩ fresh' fuel' file r' hr'
  rw [← L.jit _ _ p (good p hp), Option.map_eq_none_iff] at hn
  exact hn

/-- The first run of a set, which has not fixed what is released. -/
theorem pair_first {ref f : Scheme V} {f' : Scheme (V × (Nat → Hint))} {Good : (Nat → Hint) → Prop} (L : Link ref f f' Good)
    {user : RMap Unit V} {user' : RMap Unit (V × (Nat → Hint))} {o : Opts} {S : ℚ} {N : ℕ} {ps : List (TP (V × (Nat → Hint)))} (h : Regular o S N ps)
    (hh : ∀ q ∈ ps, Good q.2.vars.2) {rep : Repeat (V × (Nat → Hint))} (hrep : Repeats o S rep) (hv : rep.held = none)
    (hall : ∀ q ∈ ps.map strip, (trajectory ref o.dt (S + N * o.dt) q).isSome)
    {exec : Exec V} {pass} (hm : IsMode (kernel f) user exec pass) {exec' : Exec (V × (Nat → Hint))} {pass'} (hm' : IsMode (kernel f') user' exec' pass')
    {fresh : V → V} {fresh' : V × (Nat → Hint) → V × (Nat → Hint)} (hf : ∀ x, (fresh' x).1 = fresh x.1 ∧ Good (fresh' x).2)
    (hu : Deletes user ∧ Deletes user') (fuel fuel' : ℕ) (file : Output.PFile) (r : Run V × Repeat V)
    (r' : Run (V × (Nat → Hint)) × Repeat (V × (Nat → Hint)))
    (hr : execute o exec pass fresh fuel file (bareRep rep) (ps.map strip) = some r) (hr' : execute o exec' pass' fresh' fuel' file rep ps = some r') :
    ∃ n : ℕ, 0 < n ∧ n ≤ N ∧ ∃ s s', r.1 = .done s ∧ r'.1 = .done s' ∧
      Follow ref o S N (everyone o S (bareRep rep) (((ps.map strip).filterMap (trajectory ref o.dt (S + n * o.dt))).map fun c => fresh c.2.2) N (ps.map strip)) file s s' := by
  have hbv : (bareRep rep).held = none := by simp [bareRep, hv]
  have hall1 : ∀ q ∈ ps.map strip, (trajectory f o.dt (S + N * o.dt) q).isSome := by rw [L.scipy]; exact hall
  have hall2 : ∀ q ∈ ps, (trajectory f' o.dt (S + N * o.dt) q).isSome := by
    intro q hq
    have := hall (strip q) (List.mem_map_of_mem hq)
    rw [← L.jit _ _ q (hh q hq), Option.isSome_map] at this
    exact this
  obtain ⟨n, a1, a2, -, -, a5, us, a6, a7, -⟩ := ReleaseRun.C102_first hm (regular_strip h) (repeats_bare hrep) hbv hall1 fresh fuel file r hr
  obtain ⟨n', -, -, -, -, b5, vs, b6, b7, -⟩ := ReleaseRun.C102_first hm' h hrep hv hall2 fresh' fuel' file r' hr'
  have hn : n' = n := by
    have e := b5.symm.trans (show _ = _ from a5)
    injection e with e
    have hne := ne_zero_of h.step
    have : (n' : ℚ) * o.dt = n * o.dt := by linarith
    exact_mod_cast mul_right_cancel₀ hne this
  subst hn
  have e : vs.map Prod.fst = us := by
    rw [a6, b6, L.scipy, ← filterMap_bare _ _ _ _ _ fun q hq => L.jit o.dt (S + n' * o.dt) q (hh q hq), List.map_map, List.map_map]
    exact List.map_congr_left fun c _ => (hf _).1
  have hg : ∀ v ∈ vs, Good v.2 := by
    intro v hv'
    rw [b6] at hv'
    obtain ⟨c, -, rfl⟩ := List.mem_map.mp hv'
    exact (hf _).2
  refine ⟨n', a1, a2, ?_⟩
  have key := pair_good (rep := { rep with held := some vs }) L h hh hrep rfl hg (Or.inl hu) hm hm' fresh fresh' fuel fuel' file r r'
    (by rw [← e] at a7; exact a7) b7
  rw [e, a6, L.scipy] at key
  exact key

end Parcels.ReleaseGrid
