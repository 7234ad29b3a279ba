import Verif.Proofs.JitExec

/-!
Lemmas for C48: whole executions.
-/

namespace Parcels.JitExec

open KernelLoop (Particle Kern KOut KRes Call)
open Recovery
open JitLoop hiding cond

variable {W V : Type}

/-! ### Recovery functions without a world -/

/-- What the recovery loop does with a particle. -/
def plainHandle (u : Plain V) (q : Particle V) : Handled Unit V := handleOne (recoveryMap (lift u)) () q

theorem recoveryMap_lift (u : Plain V) (c : Code) :
    ∃ v : Option (Particle V → Option (Particle V)),
      (∀ W : Type, recoveryMap (lift (W := W) u) c = v.map fun h w p => (w, h p)) ∧
      (v = none ∨ v = some (fun _ => none) ∨ ∃ c', v = u c') := by
  by_cases hc : c = .errorThroughSurface ∧ (u .errorOutOfBounds).isSome ∧ (u .errorThroughSurface).isNone
  · obtain ⟨h1, h2, h3⟩ := hc
    refine ⟨u .errorOutOfBounds, fun W => ?_, .inr (.inr ⟨_, rfl⟩)⟩
    unfold recoveryMap extendUser lift
    rw [if_pos ⟨h1, by simpa using h2, by simpa using h3⟩]
    obtain ⟨h, hh⟩ := Option.isSome_iff_exists.mp h2
    rw [hh]
    rfl
  · cases hu : u c with
    | some h =>
      refine ⟨some h, fun W => ?_, .inr (.inr ⟨c, hu.symm⟩)⟩
      unfold recoveryMap extendUser lift
      rw [if_neg (by simpa using hc), hu]
      rfl
    | none =>
      have hb : ∀ W : Type, recoveryMap (lift (W := W) u) c = baseMap c := by
        intro W
        unfold recoveryMap extendUser lift
        rw [if_neg (by simpa using hc), hu]
        rfl
      cases c with
      | error => exact ⟨some fun _ => none, fun W => by rw [hb]; rfl, .inr (.inl rfl)⟩
      | errorInterpolation => exact ⟨some fun _ => none, fun W => by rw [hb]; rfl, .inr (.inl rfl)⟩
      | errorOutOfBounds => exact ⟨some fun _ => none, fun W => by rw [hb]; rfl, .inr (.inl rfl)⟩
      | errorTimeExtrapolation => exact ⟨some fun _ => none, fun W => by rw [hb]; rfl, .inr (.inl rfl)⟩
      | errorThroughSurface => exact ⟨some fun _ => none, fun W => by rw [hb]; rfl, .inr (.inl rfl)⟩
      | success => exact ⟨none, fun W => by rw [hb]; rfl, .inl rfl⟩
      | evaluate => exact ⟨none, fun W => by rw [hb]; rfl, .inl rfl⟩
      | «repeat» => exact ⟨none, fun W => by rw [hb]; rfl, .inl rfl⟩
      | delete => exact ⟨none, fun W => by rw [hb]; rfl, .inl rfl⟩
      | stopExecution => exact ⟨none, fun W => by rw [hb]; rfl, .inl rfl⟩
      | other n => exact ⟨none, fun W => by rw [hb]; rfl, .inl rfl⟩

theorem handleOne_plain (u : Plain V) (w : W) (q : Particle V) :
    handleOne (recoveryMap (lift u)) w q =
      match plainHandle u q with
      | .stop => .stop
      | .raised _ => .raised w
      | .cont _ p => .cont w p := by
  obtain ⟨v, hv, _⟩ := recoveryMap_lift u q.state
  unfold plainHandle handleOne
  by_cases h1 : q.state = .stopExecution
  · simp only [if_pos h1]
  by_cases h2 : q.state = .repeat
  · simp only [if_neg h1, if_pos h2]
  by_cases h3 : q.state = .delete
  · simp only [if_neg h1, if_neg h2, if_pos h3]
  simp only [if_neg h1, if_neg h2, if_neg h3]
  rw [hv W, hv Unit]
  cases v with
  | none => rfl
  | some h =>
    simp only [Option.map_some]
    cases h { q with state := .success } with
    | none => rfl
    | some p => rfl

theorem plainHandle_tame {u : Plain V} (hu : TamePlain u) {q q' : Particle V} {w : Unit} (h : plainHandle u q = .cont w q')
    (h0 : q.dt ≠ 0) : q'.state ≠ .repeat ∧ q'.dt ≠ 0 := by
  obtain ⟨v, hv, hv'⟩ := recoveryMap_lift u q.state
  unfold plainHandle handleOne at h
  by_cases h1 : q.state = .stopExecution
  · rw [if_pos h1] at h; cases h
  by_cases h2 : q.state = .repeat
  · rw [if_neg h1, if_pos h2] at h
    obtain ⟨_, rfl⟩ := Handled.cont.inj h
    exact ⟨by simp, h0⟩
  by_cases h3 : q.state = .delete
  · rw [if_neg h1, if_neg h2, if_pos h3] at h
    obtain ⟨_, rfl⟩ := Handled.cont.inj h
    exact ⟨h2, h0⟩
  rw [if_neg h1, if_neg h2, if_neg h3, hv Unit] at h
  cases v with
  | none =>
    obtain ⟨_, rfl⟩ := Handled.cont.inj h
    exact ⟨by simp, h0⟩
  | some f =>
    simp only [Option.map_some] at h
    cases hf : f { q with state := .success } with
    | none => rw [hf] at h; cases h
    | some p =>
      rw [hf] at h
      simp only at h
      obtain ⟨_, rfl⟩ := Handled.cont.inj h
      have : p.state ≠ .repeat ∧ p.dt ≠ 0 := by
        rcases hv' with hv' | hv' | ⟨c', hv'⟩
        · cases hv'
        · rw [Option.some.inj hv'] at hf
          cases hf
        · have := hu c' f { q with state := .success } p hv'.symm hf
          exact ⟨this.1, this.2 h0⟩
      split
      · exact ⟨by simp, this.2⟩
      · exact this

theorem plainHandle_repeat (u : Plain V) {q : Particle V} (h : q.state = .repeat) :
    plainHandle u q = .cont () { q with state := .evaluate } := by
  unfold plainHandle handleOne
  rw [if_neg (by rw [h]; simp), if_pos h]

/-! ### The life of a particle -/

/-- With all data in memory, `p` ends as `r` (removed if its state is Delete) after `k` executions. -/
inductive LifeN (P : Particle V → KOut V) (u : Plain V) (E dt : ℚ) (F : Nat) : Nat → Particle V → Particle V → Prop
  | done {p q} : Ex P E dt F p q → ¬ isError q → LifeN P u E dt F 1 p q
  | gone {p q q'} : Ex P E dt F p q → isError q → plainHandle u q = .cont () q' → q'.state = .delete → LifeN P u E dt F 1 p q'
  | again {p q q' r k} : Ex P E dt F p q → isError q → plainHandle u q = .cont () q' → q'.state ≠ .delete →
    LifeN P u E dt F k q' r → LifeN P u E dt F (k + 1) p r

theorem LifeN.mono {P : Particle V → KOut V} {u : Plain V} {E dt : ℚ} {F F' : Nat} (hF : F ≤ F') {k : Nat} {p r : Particle V}
    (h : LifeN P u E dt F k p r) : LifeN P u E dt F' k p r := by
  induction h with
  | done h1 h2 => exact .done (h1.mono hF) h2
  | gone h1 h2 h3 h4 => exact .gone (h1.mono hF) h2 h3 h4
  | again h1 h2 h3 h4 _ ih => exact .again (h1.mono hF) h2 h3 h4 ih

theorem LifeN.pos {P : Particle V → KOut V} {u : Plain V} {E dt : ℚ} {F : Nat} {k : Nat} {p r : Particle V}
    (h : LifeN P u E dt F k p r) : 1 ≤ k := by
  cases h <;> omega

theorem LifeN.replace {P : Particle V → KOut V} {u : Plain V} {E dt : ℚ} {F : Nat} {k : Nat} {p r : Particle V}
    (h : LifeN P u E dt F k p r) (p' : Particle V) (hp : ∀ m q, Ex P E dt m p q → ∃ m', Ex P E dt m' p' q) :
    ∃ F', LifeN P u E dt F' k p' r := by
  cases h with
  | done h1 h2 =>
    obtain ⟨m, hm⟩ := hp F _ h1
    exact ⟨m, .done hm h2⟩
  | gone h1 h2 h3 h4 =>
    obtain ⟨m, hm⟩ := hp F _ h1
    exact ⟨m, .gone hm h2 h3 h4⟩
  | again h1 h2 h3 h4 h5 =>
    obtain ⟨m, hm⟩ := hp F _ h1
    exact ⟨max m F, .again (hm.mono (le_max_left _ _)) h2 h3 h4 (h5.mono (le_max_right _ _))⟩

/-! ### If the execution in memory ends, so does the other -/

section
variable {K : Kern W V} {P : Particle V → KOut V} {I pend : W → Prop} {μ : W → Nat} {u : Plain V} {E dt : ℚ} {F : Nat}

/-- A particle before a pass, with its future. -/
structure Task (P : Particle V → KOut V) (u : Plain V) (E dt : ℚ) (F : Nat) (p : TP V) (a : Nat × TP V) : Prop where
  tag : p.1 = a.2.1
  dt0 : p.2.dt ≠ 0
  state : p.2.state ≠ .repeat
  life : LifeN P u E dt F a.1 p.2 a.2.2

/-- A particle after a pass, with its future. -/
inductive At (P : Particle V → KOut V) (u : Plain V) (E dt : ℚ) (F : Nat) (pend : Prop) : Nat → Particle V → Particle V → Prop
  | ok {q} : ¬ isError q → (∀ m, 1 ≤ m → Ex P E dt m q q) → q.state ≠ .repeat → At P u E dt F pend 1 q q
  | gone {q q'} : isError q → plainHandle u q = .cont () q' → q'.state = .delete → At P u E dt F pend 1 q q'
  | again {q q' r k} : isError q → plainHandle u q = .cont () q' → q'.state ≠ .delete → LifeN P u E dt F k q' r →
    At P u E dt F pend (k + 1) q r
  | wait {q r k} : q.state = .repeat → pend → LifeN P u E dt F k { q with state := .evaluate } r → At P u E dt F pend k q r

theorem At.imp {X Y : Prop} (hXY : X → Y) {k : Nat} {q r : Particle V} (h : At P u E dt F X k q r) : At P u E dt F Y k q r := by
  cases h with
  | ok h1 h2 h3 => exact .ok h1 h2 h3
  | gone h1 h2 h3 => exact .gone h1 h2 h3
  | again h1 h2 h3 h4 => exact .again h1 h2 h3 h4
  | wait h1 h2 h3 => exact .wait h1 (hXY h2) h3

/-- After a pass. -/
structure AtT (P : Particle V → KOut V) (u : Plain V) (E dt : ℚ) (F : Nat) (pend : Prop) (p : TP V) (a : Nat × TP V) : Prop where
  tag : p.1 = a.2.1
  dt0 : p.2.dt ≠ 0
  life : At P u E dt F pend a.1 p.2 a.2.2

theorem not_error {q : Particle V} (h : ¬ isError q) : q.state = .success ∨ q.state = .evaluate := by
  unfold isError at h
  by_cases h1 : q.state = .success
  · exact .inl h1
  · right
    by_contra h2
    exact h ⟨h1, h2⟩

theorem pass_forth (hA : Answers K P I pend μ) (hP : Tame P) :
    ∀ (ps : List (TP V)) (tasks : List (Nat × TP V)) (w : W), I w → List.Forall₂ (Task P u E dt F) ps tasks →
    ∃ w' rs, JitLoop.pass K E dt F w none (ps.map Prod.snd) = some (w', none, rs) ∧ I w' ∧ (pend w → pend w') ∧ μ w' ≤ μ w ∧
      List.Forall₂ (AtT P u E dt F (pend w')) (List.zipWith (fun a r => (a.1, r.1)) ps rs) tasks
  | [], _, w, hI, h => by
    cases h
    exact ⟨w, [], rfl, hI, id, le_refl _, .nil⟩
  | p :: ps, _, w, hI, h => by
    cases h with
    | @cons _ a _ tasks ht hts =>
      have hex : ∃ q, Ex P E dt F p.2 q := by
        have hlife := ht.life
        generalize a.1 = k at hlife
        cases hlife with
        | done h1 _ => exact ⟨_, h1⟩
        | gone h1 _ _ _ => exact ⟨_, h1⟩
        | again h1 _ _ _ _ => exact ⟨_, h1⟩
      obtain ⟨q, hq⟩ := hex
      obtain ⟨s, e1, e2, e3, e4, e5, e6, e7⟩ := exec1_forth hA hP E dt F w hI p.2 q ht.dt0 ht.state hq
      obtain ⟨w', rs, f1, f2, f3, f4, f5⟩ := pass_forth hA hP ps tasks s.w e2 hts
      refine ⟨w', (s.p, s.trace) :: rs, ?_, f2, fun h => f3 (e3 h), f4.trans e4, ?_⟩
      · show (match exec1 K E dt F w none p.2 with | none => none | some s => _) = _
        rw [e1]
        simp only
        rw [e5, f1]
      · refine .cons ⟨ht.tag, e6, ?_⟩ f5
        simp only
        rcases e7 with e7 | ⟨⟨e7, e8⟩, e9⟩
        · rw [e7]
          have hlife := ht.life
          generalize a.1 = k at hlife ⊢
          generalize a.2.2 = r at hlife ⊢
          cases hlife with
          | done h1 h2 =>
            obtain rfl := h1.det hq
            have hne := not_error h2
            refine .ok h2 (exec1_stable hP E dt F p.2 _ ht.dt0 ht.state h1 hne) ?_
            rcases hne with h | h <;> rw [h] <;> simp
          | gone h1 h2 h3 h4 =>
            obtain rfl := h1.det hq
            exact .gone h2 h3 h4
          | again h1 h2 h3 h4 h5 =>
            obtain rfl := h1.det hq
            exact .again h2 h3 h4 h5
        · refine .wait e7 (f3 e8) ?_
          have hlife := ht.life
          generalize a.1 = k at hlife ⊢
          generalize a.2.2 = r at hlife ⊢
          cases hlife with
          | done h1 h2 =>
            obtain rfl := h1.det hq
            exact .done e9 h2
          | gone h1 h2 h3 h4 =>
            obtain rfl := h1.det hq
            exact .gone e9 h2 h3 h4
          | again h1 h2 h3 h4 h5 =>
            obtain rfl := h1.det hq
            exact .again e9 h2 h3 h4 h5

theorem handle_forth (hu : TamePlain u) (hF : 1 ≤ F) (X : Prop) :
    ∀ (ps : List (TP V)) (tasks : List (Nat × TP V)) (w : W), List.Forall₂ (AtT P u E dt F X) ps tasks →
    ∃ ps1 tasks1, handleAll (recoveryMap (lift u)) w ps = .done w ps1 ∧ List.Forall₂ (Task P u E dt F) (kept ps1) tasks1 ∧
      kept (tasks.map Prod.snd) = kept (tasks1.map Prod.snd) ∧
      (dropped (tasks.map Prod.snd)).Perm (dropped ps1 ++ dropped (tasks1.map Prod.snd)) ∧
      (tasks1.map Prod.fst).sum ≤ (tasks.map Prod.fst).sum ∧
      ((tasks1.map Prod.fst).sum < (tasks.map Prod.fst).sum ∨ ∀ p ∈ ps, isError p.2 → X)
  | [], _, w, h => by
    cases h
    exact ⟨[], [], rfl, .nil, rfl, List.Perm.refl _, le_refl _, .inr (by simp)⟩
  | p :: ps, _, w, h => by
    cases h with
    | @cons _ a _ tasks ht hts =>
      obtain ⟨ps1, tasks1, e1, e2, e3, e4, e5, e6⟩ := handle_forth hu hF X ps tasks w hts
      obtain ⟨k, tag, r⟩ := a
      obtain ⟨ptag, q⟩ := p
      obtain ⟨h1, h2, h3⟩ := ht
      simp only at h1 h2 h3
      subst h1
      -- a particle that goes on as `x`, with weight `j ≤ k`
      have goOn : ∀ (x : Particle V) (j : Nat), (handleAll (recoveryMap (lift u)) w ((ptag, q) :: ps) = .done w ((ptag, x) :: ps1)) →
          x.state ≠ .delete → x.state ≠ .repeat → x.dt ≠ 0 → LifeN P u E dt F j x r → j ≤ k →
          (j < k ∨ (isError q → X)) →
          ∃ ps1' tasks1', handleAll (recoveryMap (lift u)) w ((ptag, q) :: ps) = .done w ps1' ∧
            List.Forall₂ (Task P u E dt F) (kept ps1') tasks1' ∧
            kept (((k, ptag, r) :: tasks).map Prod.snd) = kept (tasks1'.map Prod.snd) ∧
            (dropped (((k, ptag, r) :: tasks).map Prod.snd)).Perm (dropped ps1' ++ dropped (tasks1'.map Prod.snd)) ∧
            (tasks1'.map Prod.fst).sum ≤ (((k, ptag, r) :: tasks).map Prod.fst).sum ∧
            ((tasks1'.map Prod.fst).sum < (((k, ptag, r) :: tasks).map Prod.fst).sum ∨
              ∀ p ∈ (ptag, q) :: ps, isError p.2 → X) := by
        intro x j hh hx1 hx2 hx3 hx4 hj hj'
        have hkx : kept ((ptag, x) :: ps1) = (ptag, x) :: kept ps1 := by
          unfold kept
          rw [List.filter_cons_of_pos (by simpa using hx1)]
        have hdx : dropped ((ptag, x) :: ps1) = dropped ps1 := by
          unfold dropped
          rw [List.filter_cons_of_neg (by simpa using hx1)]
        refine ⟨(ptag, x) :: ps1, (j, ptag, r) :: tasks1, hh, ?_, ?_, ?_, ?_, ?_⟩
        · rw [hkx]
          exact .cons ⟨rfl, hx3, hx2, hx4⟩ e2
        · unfold kept at e3 ⊢
          simp only [List.map_cons, List.filter_cons]
          rw [e3]
        · rw [hdx]
          unfold dropped at e4 ⊢
          simp only [List.map_cons, List.filter_cons]
          split
          · exact (e4.cons _).trans List.perm_middle.symm
          · exact e4
        · simp only [List.map_cons, List.sum_cons]
          omega
        · simp only [List.map_cons, List.sum_cons]
          rcases hj' with hj' | hj'
          · left; omega
          · rcases e6 with e6 | e6
            · left; omega
            · right
              intro p hp
              rcases List.mem_cons.mp hp with rfl | hp
              · exact hj'
              · exact e6 p hp
      have hAll : ∀ x, isError q → plainHandle u q = .cont () x →
          handleAll (recoveryMap (lift u)) w ((ptag, q) :: ps) = .done w ((ptag, x) :: ps1) := by
        intro x he hx
        unfold handleAll
        rw [if_pos he, handleOne_plain, hx]
        simp only
        rw [e1]
      cases h3 with
      | ok g1 g2 g3 =>
        refine goOn r 1 ?_ ?_ g3 h2 (.done (g2 F hF) g1) (le_refl _) (.inr fun h => absurd h g1)
        · unfold handleAll
          rw [if_neg g1, e1]
        · rcases not_error g1 with h | h <;> rw [h] <;> simp
      | gone g1 g2 g3 =>
        obtain ⟨x, hx⟩ : ∃ x, x = r := ⟨r, rfl⟩
        rw [← hx] at g2 g3 ⊢
        have hkx : kept ((ptag, x) :: ps1) = kept ps1 := by
          unfold kept
          rw [List.filter_cons_of_neg (by simpa using g3)]
        have hdx : dropped ((ptag, x) :: ps1) = (ptag, x) :: dropped ps1 := by
          unfold dropped
          rw [List.filter_cons_of_pos (by simpa using g3)]
        refine ⟨(ptag, x) :: ps1, tasks1, hAll x g1 g2, ?_, ?_, ?_, ?_, ?_⟩
        · rw [hkx]; exact e2
        · rw [← e3]
          unfold kept
          simp [g3]
        · rw [hdx]
          unfold dropped at e4 ⊢
          simp only [List.map_cons, List.filter_cons, g3]
          exact e4.cons _
        · simp only [List.map_cons, List.sum_cons]
          omega
        · left
          simp only [List.map_cons, List.sum_cons]
          omega
      | @again _ x _ j g1 g2 g3 g4 =>
        have := plainHandle_tame hu g2 h2
        exact goOn x j (hAll x g1 g2) g3 this.1 this.2 g4 (by omega) (.inl (by omega))
      | wait g1 g2 g3 =>
        have he : isError q := by unfold isError; rw [g1]; simp
        exact goOn { q with state := .evaluate } k (hAll _ he (plainHandle_repeat u g1)) (by simp) (by simp) h2 g3 (le_refl _)
          (.inr fun _ => g2)

theorem rounds_forth (hA : Answers K P I pend μ) (hP : Tame P) (hu : TamePlain u) (hF : 1 ≤ F) (prep : W → W)
    (hprep : ∀ w, I w → I (prep w) ∧ μ (prep w) ≤ μ w ∧ (pend w → μ (prep w) < μ w)) :
    ∀ (M : Nat) (ps : List (TP V)) (tasks : List (Nat × TP V)) (w : W), I w → List.Forall₂ (AtT P u E dt F (pend w)) ps tasks →
    (tasks.map Prod.fst).sum + μ w ≤ M →
    ∃ n, ∀ removed, ∃ rem', rounds K prep (recoveryMap (lift u)) E dt F n (w, none) ps removed =
      some (.normal, kept (tasks.map Prod.snd), rem') ∧ rem'.Perm (removed ++ dropped (tasks.map Prod.snd)) := by
  intro M
  induction M using Nat.strong_induction_on with
  | _ M ih =>
    intro ps tasks w hI hAt hM
    by_cases herr : ps.any (fun p => decide (isError p.2)) = true
    · obtain ⟨ps1, tasks1, e1, e2, e3, e4, e5, e6⟩ := handle_forth hu hF (pend w) ps tasks w hAt
      obtain ⟨i1, i2, i3⟩ := hprep w hI
      obtain ⟨w', rs, f1, f2, f3, f4, f5⟩ := pass_forth hA hP (kept ps1) tasks1 (prep w) i1 e2
      have hlt : (tasks1.map Prod.fst).sum + μ w' < M := by
        rcases e6 with h | h
        · omega
        · rw [List.any_eq_true] at herr
          obtain ⟨p, hp, hpe⟩ := herr
          have := i3 (h p hp (by simpa using hpe))
          omega
      obtain ⟨n, hn⟩ := ih _ hlt _ tasks1 w' f2 f5 (le_refl _)
      refine ⟨n + 1, fun removed => ?_⟩
      obtain ⟨rem', g1, g2⟩ := hn (removed ++ dropped ps1)
      refine ⟨rem', ?_, ?_⟩
      · unfold rounds
        rw [if_pos herr]
        simp only
        rw [e1]
        simp only
        unfold runPass
        simp only
        rw [f1]
        simp only
        rw [g1, e3]
      · refine g2.trans ?_
        rw [List.append_assoc]
        exact (List.Perm.append_left removed e4).symm
    · have hno : ∀ p ∈ ps, ¬ isError p.2 := by
        intro p hp he
        apply herr
        rw [List.any_eq_true]
        exact ⟨p, hp, by simpa using he⟩
      have heq : ps = tasks.map Prod.snd ∧ dropped (tasks.map Prod.snd) = [] ∧ kept (tasks.map Prod.snd) = tasks.map Prod.snd := by
        clear hM herr ih
        induction hAt with
        | nil => exact ⟨rfl, rfl, rfl⟩
        | @cons p a ps tasks h _ ih =>
          obtain ⟨j1, j2, j3⟩ := ih fun q hq => hno q (List.mem_cons_of_mem _ hq)
          have hp := hno p List.mem_cons_self
          obtain ⟨k, tag, r⟩ := a
          obtain ⟨ptag, q⟩ := p
          obtain ⟨h1, h2, h3⟩ := h
          simp only at h1 h2 h3 hp
          subst h1
          cases h3 with
          | ok g1 _ _ =>
            have hnd : r.state ≠ Code.delete := by
              rcases not_error g1 with h | h <;> rw [h] <;> simp
            refine ⟨by simp [j1], ?_, ?_⟩
            · unfold dropped at j2 ⊢
              simp only [List.map_cons, List.filter_cons, hnd, decide_false, Bool.false_eq_true, if_false]
              exact j2
            · unfold kept at j3 ⊢
              rw [List.map_cons, List.filter_cons_of_pos (by simpa using hnd)]
              rw [j3]
          | gone g1 _ _ => exact absurd g1 hp
          | again g1 _ _ _ => exact absurd g1 hp
          | wait g1 _ _ => exact absurd (by unfold isError; rw [g1]; simp) hp
      refine ⟨1, fun removed => ⟨removed, ?_, ?_⟩⟩
      · unfold rounds
        rw [if_neg herr, heq.2.2, heq.1]
      · rw [heq.2.1, List.append_nil]

theorem plainHandle_delete {q : Particle V} (h : q.state = .delete) : plainHandle u q = .cont () q := by
  unfold plainHandle handleOne
  rw [if_neg (by rw [h]; simp), if_neg (by rw [h]; simp), if_pos h]

theorem first_forth (X : Prop) :
    ∀ (ps : List (TP V)) (tasks : List (Nat × TP V)), List.Forall₂ (AtT P u E dt F X) ps tasks →
    ∃ tasks1, List.Forall₂ (AtT P u E dt F X) (kept ps) tasks1 ∧
      kept (tasks.map Prod.snd) = kept (tasks1.map Prod.snd) ∧
      (dropped (tasks.map Prod.snd)).Perm (dropped ps ++ dropped (tasks1.map Prod.snd))
  | [], _, h => by
    cases h
    exact ⟨[], .nil, rfl, List.Perm.refl _⟩
  | p :: ps, _, h => by
    cases h with
    | @cons _ a _ tasks ht hts =>
      obtain ⟨tasks1, e2, e3, e4⟩ := first_forth X ps tasks hts
      by_cases hd : p.2.state = .delete
      · have hr : a.2 = p := by
          obtain ⟨k, tag, r⟩ := a
          obtain ⟨ptag, q⟩ := p
          obtain ⟨h1, h2, h3⟩ := ht
          simp only at h1 h2 h3 hd
          subst h1
          cases h3 with
          | ok g1 _ _ => exact absurd hd (by rcases not_error g1 with h | h <;> rw [h] <;> simp)
          | gone g1 g2 g3 =>
            rw [plainHandle_delete hd] at g2
            rw [(Handled.cont.inj g2).2]
          | again g1 g2 g3 _ =>
            rw [plainHandle_delete hd] at g2
            rw [(Handled.cont.inj g2).2] at hd
            exact absurd hd g3
          | wait g1 _ _ => rw [g1] at hd; cases hd
        refine ⟨tasks1, ?_, ?_, ?_⟩
        · unfold kept
          rw [List.filter_cons_of_neg (by simpa using hd)]
          exact e2
        · rw [← e3]
          unfold kept
          rw [List.map_cons, hr, List.filter_cons_of_neg (by simpa using hd)]
        · unfold dropped at e4 ⊢
          rw [List.map_cons, hr, List.filter_cons_of_pos (by simpa using hd), List.filter_cons_of_pos (by simpa using hd)]
          exact e4.cons _
      · refine ⟨a :: tasks1, ?_, ?_, ?_⟩
        · unfold kept
          rw [List.filter_cons_of_pos (by simpa using hd)]
          exact .cons ht e2
        · unfold kept at e3 ⊢
          simp only [List.map_cons, List.filter_cons]
          rw [e3]
        · unfold dropped at e4 ⊢
          rw [List.filter_cons_of_neg (a := p) (by simpa using hd)]
          simp only [List.map_cons, List.filter_cons]
          split
          · exact (e4.cons _).trans List.perm_middle.symm
          · exact e4

/-- If every particle has a life, the execution ends. -/
theorem execute_forth (hA : Answers K P I pend μ) (hP : Tame P) (hu : TamePlain u) (hF : 1 ≤ F) (start prep : W → W) (w : W)
    (hstart : I (prep (start w)))
    (hprep : ∀ w, I w → I (prep w) ∧ μ (prep w) ≤ μ w ∧ (pend w → μ (prep w) < μ w)) (ps : List (TP V)) (tasks : List (Nat × TP V))
    (ht : List.Forall₂ (Task P u E dt F) (ps.map fun p => (p.1, { p.2 with state := .evaluate })) tasks) :
    ∃ n rem', execute K start prep (lift u) E dt F n (w, none) ps = some (.normal, kept (tasks.map Prod.snd), rem') ∧
      rem'.Perm (dropped (tasks.map Prod.snd)) := by
  obtain ⟨w', rs, f1, f2, f3, f4, f5⟩ := pass_forth hA hP _ tasks (prep (start w)) hstart ht
  obtain ⟨tasks1, e2, e3, e4⟩ := first_forth _ _ _ f5
  obtain ⟨n, hn⟩ := rounds_forth hA hP hu hF prep hprep _ _ tasks1 w' f2 e2 (le_refl _)
  obtain ⟨rem', g1, g2⟩ := hn _
  refine ⟨n, rem', ?_, g2.trans e4.symm⟩
  unfold execute runPass
  simp only
  rw [f1]
  simp only
  rw [g1, e3]

/-! ### If the execution ends, every particle has its life -/

/-- The life of a particle, as far as the end is concerned. -/
def Life (P : Particle V → KOut V) (u : Plain V) (E dt : ℚ) (p r : Particle V) : Prop := ∃ F k, LifeN P u E dt F k p r

/-- What is to come for a particle after a pass. -/
def After (P : Particle V → KOut V) (u : Plain V) (E dt : ℚ) (q r : Particle V) : Prop :=
  (¬ isError q ∧ r = q) ∨
  ∃ q', isError q ∧ plainHandle u q = .cont () q' ∧ ((q'.state = .delete ∧ r = q') ∨ (q'.state ≠ .delete ∧ Life P u E dt q' r))

theorem Ex.life {m : Nat} {p q r : Particle V} (h : Ex P E dt m p q) (ha : After P u E dt q r) : Life P u E dt p r := by
  rcases ha with ⟨h1, rfl⟩ | ⟨q', h1, h2, ⟨h3, rfl⟩ | ⟨h3, F, k, h4⟩⟩
  · exact ⟨m, 1, .done h h1⟩
  · exact ⟨m, 1, .gone h h1 h2 h3⟩
  · exact ⟨max m F, k + 1, .again (h.mono (le_max_left _ _)) h1 h2 h3 (h4.mono (le_max_right _ _))⟩

/-- Tagged versions. -/
def TLife (P : Particle V → KOut V) (u : Plain V) (E dt : ℚ) (p r : TP V) : Prop := p.1 = r.1 ∧ Life P u E dt p.2 r.2
def TAfter (P : Particle V → KOut V) (u : Plain V) (E dt : ℚ) (p r : TP V) : Prop := p.1 = r.1 ∧ After P u E dt p.2 r.2

/-- Particles after a pass; those without an error would not be changed by another one. -/
structure Settled (P : Particle V → KOut V) (E dt : ℚ) (q : Particle V) : Prop where
  dt0 : q.dt ≠ 0
  same : ¬ isError q → ∀ m, 1 ≤ m → Ex P E dt m q q

theorem pass_back (hA : Answers K P I pend μ) (hP : Tame P) :
    ∀ (ps : List (TP V)) (w w' : W) (g : Option ℚ) (qs : List (Particle V × List (Call V))), I w →
    (∀ p ∈ ps, p.2.dt ≠ 0 ∧ p.2.state ≠ .repeat) →
    JitLoop.pass K E dt F w none (ps.map Prod.snd) = some (w', g, qs) →
    I w' ∧ g = none ∧ (∀ q ∈ List.zipWith (fun a r => (a.1, r.1)) ps qs, Settled P E dt q.2) ∧
    ∀ rs, List.Forall₂ (TAfter P u E dt) (List.zipWith (fun a r => (a.1, r.1)) ps qs) rs → List.Forall₂ (TLife P u E dt) ps rs
  | [], w, w', g, qs, hI, _, h => by
    obtain ⟨rfl, rfl, rfl⟩ : w = w' ∧ none = g ∧ [] = qs := by
      have := Option.some.inj h
      simpa using this
    exact ⟨hI, rfl, by simp, fun rs h => by cases h; exact .nil⟩
  | p :: ps, w, w', g, qs, hI, hp, h => by
    change (match exec1 K E dt F w none p.2 with | none => none | some s => _) = _ at h
    cases he : exec1 K E dt F w none p.2 with
    | none => rw [he] at h; cases h
    | some s =>
      rw [he] at h
      simp only at h
      obtain ⟨p0, p1⟩ := hp p List.mem_cons_self
      obtain ⟨e1, e2, e3, e4⟩ := exec1_back hA hP E dt F w hI p.2 p0 p1 s he
      rw [e2] at h
      cases hr : JitLoop.pass K E dt F s.w none (ps.map Prod.snd) with
      | none => rw [hr] at h; cases h
      | some x =>
        obtain ⟨w2, g2, qs2⟩ := x
        rw [hr] at h
        obtain ⟨rfl, rfl, rfl⟩ : w2 = w' ∧ g2 = g ∧ (s.p, s.trace) :: qs2 = qs := by
          have := Option.some.inj h
          simpa using this
        obtain ⟨i1, i2, i3, i4⟩ := pass_back hA hP ps s.w w2 g2 qs2 e1 (fun q hq => hp q (List.mem_cons_of_mem _ hq)) hr
        refine ⟨i1, i2, ?_, ?_⟩
        · intro q hq
          simp only [List.zipWith_cons_cons, List.mem_cons] at hq
          rcases hq with rfl | hq
          · refine ⟨e3, fun hne => ?_⟩
            rcases e4 with ⟨m, hm⟩ | ⟨hs, _⟩
            · exact exec1_stable hP E dt m p.2 _ p0 p1 hm (not_error hne)
            · exact absurd (by unfold isError; rw [hs]; simp) hne
          · exact i3 q hq
        · intro rs hrs
          simp only [List.zipWith_cons_cons] at hrs
          cases hrs with
          | @cons _ r _ rs h1 h2 =>
            refine .cons ⟨h1.1, ?_⟩ (i4 rs h2)
            obtain ⟨_, h1⟩ := h1
            simp only at h1
            rcases e4 with ⟨m, hm⟩ | ⟨hs, hm⟩
            · exact hm.life h1
            · rcases h1 with ⟨h1, _⟩ | ⟨q', h1, h3, h4⟩
              · exact absurd (by unfold isError; rw [hs]; simp) h1
              · rw [plainHandle_repeat u hs] at h3
                obtain ⟨_, rfl⟩ := Handled.cont.inj h3
                rcases h4 with ⟨h4, _⟩ | ⟨_, F', k, h4⟩
                · cases h4
                · obtain ⟨F'', h5⟩ := h4.replace p.2 hm
                  exact ⟨F'', k, h5⟩

theorem handle_back (hu : TamePlain u) :
    ∀ (ps ps1 : List (TP V)) (w w' : W), (∀ p ∈ ps, Settled P E dt p.2) → handleAll (recoveryMap (lift u)) w ps = .done w' ps1 →
    w' = w ∧ (∀ p ∈ ps1, p.2.dt ≠ 0 ∧ p.2.state ≠ .repeat) ∧
    ∀ rs, List.Forall₂ (TLife P u E dt) (kept ps1) rs →
      ∃ rs', List.Forall₂ (TAfter P u E dt) ps rs' ∧ kept rs' = kept rs ∧ (dropped rs').Perm (dropped ps1 ++ dropped rs)
  | [], ps1, w, w', _, h => by
    obtain ⟨rfl, rfl⟩ : w = w' ∧ [] = ps1 := by
      have := Round.done.inj h
      simpa using this
    refine ⟨rfl, by simp, fun rs hrs => ?_⟩
    have : rs = [] := by cases hrs; rfl
    subst this
    exact ⟨[], .nil, rfl, List.Perm.refl _⟩
  | p :: ps, ps1, w, w', hp, h => by
    obtain ⟨ptag, q⟩ := p
    have h0 := (hp _ List.mem_cons_self).dt0
    have hps : ∀ p ∈ ps, Settled P E dt p.2 := fun p hp' => hp p (List.mem_cons_of_mem _ hp')
    unfold handleAll at h
    by_cases he : isError q
    · rw [if_pos he, handleOne_plain] at h
      cases hq : plainHandle u q with
      | stop => rw [hq] at h; cases h
      | raised _ => rw [hq] at h; cases h
      | cont x q' =>
        rw [hq] at h
        simp only at h
        cases hr : handleAll (recoveryMap (lift u)) w ps with
        | stopped => rw [hr] at h; cases h
        | raised => rw [hr] at h; cases h
        | done w2 ps2 =>
          rw [hr] at h
          obtain ⟨rfl, rfl⟩ : w2 = w' ∧ (ptag, q') :: ps2 = ps1 := by
            have := Round.done.inj h
            simpa using this
          obtain ⟨rfl, i2, i3⟩ := handle_back hu ps ps2 w w2 hps hr
          obtain ⟨t1, t2⟩ := plainHandle_tame hu hq h0
          refine ⟨rfl, ?_, ?_⟩
          · intro p hp
            rcases List.mem_cons.mp hp with rfl | hp
            · exact ⟨t2, t1⟩
            · exact i2 p hp
          · intro rs hrs
            by_cases hd : q'.state = .delete
            · have hk : kept ((ptag, q') :: ps2) = kept ps2 := by
                unfold kept
                rw [List.filter_cons_of_neg (by simpa using hd)]
              rw [hk] at hrs
              obtain ⟨rs', j1, j2, j3⟩ := i3 rs hrs
              refine ⟨(ptag, q') :: rs', .cons ⟨rfl, .inr ⟨q', he, hq, .inl ⟨hd, rfl⟩⟩⟩ j1, ?_, ?_⟩
              · rw [← j2]
                unfold kept
                rw [List.filter_cons_of_neg (by simpa using hd)]
              · unfold dropped at j3 ⊢
                rw [List.filter_cons_of_pos (by simpa using hd), List.filter_cons_of_pos (by simpa using hd)]
                exact j3.cons _
            · have hk : kept ((ptag, q') :: ps2) = (ptag, q') :: kept ps2 := by
                unfold kept
                rw [List.filter_cons_of_pos (by simpa using hd)]
              rw [hk] at hrs
              cases hrs with
              | @cons _ r _ rs g1 g2 =>
                obtain ⟨rs', j1, j2, j3⟩ := i3 rs g2
                refine ⟨r :: rs', .cons ⟨g1.1, .inr ⟨q', he, hq, .inr ⟨hd, g1.2⟩⟩⟩ j1, ?_, ?_⟩
                · unfold kept at j2 ⊢
                  simp only [List.filter_cons]
                  rw [j2]
                · unfold dropped at j3 ⊢
                  rw [List.filter_cons_of_neg (a := (ptag, q')) (by simpa using hd)]
                  simp only [List.filter_cons]
                  split
                  · exact (j3.cons _).trans List.perm_middle.symm
                  · exact j3
    · rw [if_neg he] at h
      cases hr : handleAll (recoveryMap (lift u)) w ps with
      | stopped => rw [hr] at h; cases h
      | raised => rw [hr] at h; cases h
      | done w2 ps2 =>
        rw [hr] at h
        obtain ⟨rfl, rfl⟩ : w2 = w' ∧ (ptag, q) :: ps2 = ps1 := by
          have := Round.done.inj h
          simpa using this
        obtain ⟨rfl, i2, i3⟩ := handle_back hu ps ps2 w w2 hps hr
        have hd : q.state ≠ .delete := by rcases not_error he with h | h <;> rw [h] <;> simp
        have hr2 : q.state ≠ .repeat := by rcases not_error he with h | h <;> rw [h] <;> simp
        refine ⟨rfl, ?_, ?_⟩
        · intro p hp
          rcases List.mem_cons.mp hp with rfl | hp
          · exact ⟨h0, hr2⟩
          · exact i2 p hp
        · intro rs hrs
          have hk : kept ((ptag, q) :: ps2) = (ptag, q) :: kept ps2 := by
            unfold kept
            rw [List.filter_cons_of_pos (by simpa using hd)]
          rw [hk] at hrs
          cases hrs with
          | @cons _ r _ rs g1 g2 =>
            obtain ⟨rs', j1, j2, j3⟩ := i3 rs g2
            have hsame : r.2 = q := by
              obtain ⟨_, F', k, g1⟩ := g1
              simp only at g1
              have hst := (hp _ List.mem_cons_self).same he (max F' 1) (le_max_right _ _)
              have key : ∀ x, Ex P E dt F' q x → x = q := fun x hx => hx.det hst
              generalize r.2 = r2 at g1 ⊢
              cases g1 with
              | done k1 _ => exact key _ k1
              | gone k1 k2 _ _ => rw [key _ k1] at k2; exact absurd k2 he
              | again k1 k2 _ _ _ => rw [key _ k1] at k2; exact absurd k2 he
            refine ⟨r :: rs', .cons ⟨g1.1, .inl ⟨he, hsame⟩⟩ j1, ?_, ?_⟩
            · unfold kept at j2 ⊢
              simp only [List.filter_cons]
              rw [j2]
            · unfold dropped at j3 ⊢
              rw [List.filter_cons_of_neg (a := (ptag, q)) (by simpa using hd)]
              simp only [List.filter_cons]
              split
              · exact (j3.cons _).trans List.perm_middle.symm
              · exact j3

theorem rounds_back (hA : Answers K P I pend μ) (hP : Tame P) (hu : TamePlain u) (prep : W → W) (hprep : ∀ w, I w → I (prep w)) :
    ∀ (n : Nat) (ps removed : List (TP V)) (w : W) (ps' rem' : List (TP V)), I w → (∀ p ∈ ps, Settled P E dt p.2) →
    rounds K prep (recoveryMap (lift u)) E dt F n (w, none) ps removed = some (.normal, ps', rem') →
    ∃ rs, List.Forall₂ (TAfter P u E dt) ps rs ∧ ps' = kept rs ∧ rem'.Perm (removed ++ dropped rs)
  | 0, _, _, _, _, _, _, _, h => by cases h
  | n + 1, ps, removed, w, ps', rem', hI, hps, h => by
    unfold rounds at h
    by_cases herr : ps.any (fun p => decide (isError p.2)) = true
    · rw [if_pos herr] at h
      simp only at h
      cases hh : handleAll (recoveryMap (lift u)) w ps with
      | stopped => rw [hh] at h; simp at h
      | raised => rw [hh] at h; simp at h
      | done w1 ps1 =>
        rw [hh] at h
        simp only at h
        obtain ⟨rfl, e2, e3⟩ := handle_back hu ps ps1 w w1 hps hh
        unfold runPass at h
        simp only at h
        cases hr : JitLoop.pass K E dt F (prep w1) none ((kept ps1).map Prod.snd) with
        | none => rw [hr] at h; cases h
        | some x =>
          obtain ⟨w2, g2, qs⟩ := x
          rw [hr] at h
          simp only at h
          obtain ⟨f1, rfl, f3, f4⟩ := pass_back (u := u) hA hP (kept ps1) (prep w1) w2 g2 qs (hprep _ hI)
            (fun p hp => e2 p (List.mem_of_mem_filter hp)) hr
          obtain ⟨rs, k1, k2, k3⟩ := rounds_back hA hP hu prep hprep n _ _ w2 ps' rem' f1 f3 h
          obtain ⟨rs', j1, j2, j3⟩ := e3 rs (f4 rs k1)
          refine ⟨rs', j1, k2.trans j2.symm, k3.trans ?_⟩
          rw [List.append_assoc]
          exact (List.Perm.append_left removed j3).symm
    · rw [if_neg herr] at h
      have hno : ∀ p ∈ ps, ¬ isError p.2 := by
        intro p hp he
        apply herr
        rw [List.any_eq_true]
        exact ⟨p, hp, by simpa using he⟩
      obtain ⟨rfl, rfl⟩ : ps = ps' ∧ removed = rem' := by
        have := Option.some.inj h
        simpa using this
      have hnd : ∀ p ∈ ps, p.2.state ≠ .delete := fun p hp => by
        rcases not_error (hno p hp) with h | h <;> rw [h] <;> simp
      refine ⟨ps, ?_, ?_, ?_⟩
      · clear h hps hI hnd herr
        induction ps with
        | nil => exact .nil
        | cons p ps ih =>
          exact .cons ⟨rfl, .inl ⟨hno p List.mem_cons_self, rfl⟩⟩ (ih fun q hq => hno q (List.mem_cons_of_mem _ hq))
      · unfold kept
        rw [List.filter_eq_self.mpr fun p hp => by simpa using hnd p hp]
      · have : dropped ps = [] := by
          unfold dropped
          rw [List.filter_eq_nil_iff]
          exact fun p hp => by simpa using hnd p hp
        rw [this, List.append_nil]

theorem first_back :
    ∀ (ps rs : List (TP V)), List.Forall₂ (TAfter P u E dt) (kept ps) rs →
      ∃ rs', List.Forall₂ (TAfter P u E dt) ps rs' ∧ kept rs' = kept rs ∧ (dropped rs').Perm (dropped ps ++ dropped rs)
  | [], rs, h => by
    have : rs = [] := by cases h; rfl
    subst this
    exact ⟨[], .nil, rfl, List.Perm.refl _⟩
  | p :: ps, rs, h => by
    by_cases hd : p.2.state = .delete
    · have hk : kept (p :: ps) = kept ps := by
        unfold kept
        rw [List.filter_cons_of_neg (by simpa using hd)]
      rw [hk] at h
      obtain ⟨rs', j1, j2, j3⟩ := first_back ps rs h
      refine ⟨p :: rs', .cons ⟨rfl, .inr ⟨p.2, ?_, plainHandle_delete hd, .inl ⟨hd, rfl⟩⟩⟩ j1, ?_, ?_⟩
      · unfold isError; rw [hd]; simp
      · rw [← j2]
        unfold kept
        rw [List.filter_cons_of_neg (by simpa using hd)]
      · unfold dropped at j3 ⊢
        rw [List.filter_cons_of_pos (by simpa using hd), List.filter_cons_of_pos (by simpa using hd)]
        exact j3.cons _
    · have hk : kept (p :: ps) = p :: kept ps := by
        unfold kept
        rw [List.filter_cons_of_pos (by simpa using hd)]
      rw [hk] at h
      cases h with
      | @cons _ r _ rs g1 g2 =>
        obtain ⟨rs', j1, j2, j3⟩ := first_back ps rs g2
        refine ⟨r :: rs', .cons g1 j1, ?_, ?_⟩
        · unfold kept at j2 ⊢
          simp only [List.filter_cons]
          rw [j2]
        · unfold dropped at j3 ⊢
          rw [List.filter_cons_of_neg (a := p) (by simpa using hd)]
          simp only [List.filter_cons]
          split
          · exact (j3.cons _).trans List.perm_middle.symm
          · exact j3

/-- If the execution ends normally, every particle has a life, and the result is what the lives say. -/
theorem execute_back (hA : Answers K P I pend μ) (hP : Tame P) (hu : TamePlain u) (start prep : W → W) (w : W)
    (hstart : I (prep (start w))) (hprep : ∀ w, I w → I (prep w)) (n : Nat) (ps ps' rem' : List (TP V)) (h0 : ∀ p ∈ ps, p.2.dt ≠ 0)
    (h : execute K start prep (lift u) E dt F n (w, none) ps = some (.normal, ps', rem')) :
    ∃ rs, List.Forall₂ (TLife P u E dt) (ps.map fun p => (p.1, { p.2 with state := .evaluate })) rs ∧ ps' = kept rs ∧
      rem'.Perm (dropped rs) := by
  unfold execute runPass at h
  simp only at h
  cases hr : JitLoop.pass K E dt F (prep (start w)) none ((ps.map fun p => (p.1, { p.2 with state := .evaluate })).map Prod.snd) with
  | none => rw [hr] at h; cases h
  | some x =>
    obtain ⟨w2, g2, qs⟩ := x
    rw [hr] at h
    simp only at h
    obtain ⟨f1, rfl, f3, f4⟩ := pass_back (u := u) hA hP _ _ w2 g2 qs hstart (by
      intro p hp
      obtain ⟨q, hq, rfl⟩ := List.mem_map.mp hp
      exact ⟨h0 q hq, by simp⟩) hr
    obtain ⟨rs, k1, k2, k3⟩ := rounds_back hA hP hu prep hprep n _ _ w2 ps' rem' f1
      (fun p hp => f3 p (List.mem_of_mem_filter hp)) h
    obtain ⟨rs', j1, j2, j3⟩ := first_back _ rs k1
    exact ⟨rs', f4 rs' j1, k2.trans j2.symm, k3.trans j3.symm⟩

theorem tasks_of_life (ps rs : List (TP V)) (h : List.Forall₂ (TLife P u E dt) ps rs)
    (h0 : ∀ p ∈ ps, p.2.dt ≠ 0 ∧ p.2.state ≠ .repeat) :
    ∃ F tasks, 1 ≤ F ∧ tasks.map Prod.snd = rs ∧ List.Forall₂ (Task P u E dt F) ps tasks := by
  induction h with
  | nil => exact ⟨1, [], le_refl _, rfl, .nil⟩
  | @cons p r ps rs h1 _ ih =>
    obtain ⟨F, tasks, e1, e2, e3⟩ := ih fun q hq => h0 q (List.mem_cons_of_mem _ hq)
    obtain ⟨h1, F', k, h2⟩ := h1
    obtain ⟨g1, g2⟩ := h0 p List.mem_cons_self
    refine ⟨max F F', (k, r) :: tasks, le_trans e1 (le_max_left _ _), by simp [e2], .cons ⟨h1, g1, g2, h2.mono (le_max_right _ _)⟩ ?_⟩
    exact e3.imp fun _ _ t => ⟨t.tag, t.dt0, t.state, t.life.mono (le_max_left _ _)⟩

end

/-! ### Two kernels that answer the same -/

/-- If the execution of one kernel ends normally, so does that of another one with the same answers, with the same
particles. -/
theorem execute_same {W' : Type} {K : Kern W V} {K' : Kern W' V} {P : Particle V → KOut V} {I pend : W → Prop} {μ : W → Nat}
    {I' pend' : W' → Prop} {μ' : W' → Nat} (hA : Answers K P I pend μ) (hA' : Answers K' P I' pend' μ') (hP : Tame P)
    {u : Plain V} (hu : TamePlain u) {E dt : ℚ} (start prep : W → W) (w : W) (hstart : I (prep (start w)))
    (hprep : ∀ w, I w → I (prep w)) (start' prep' : W' → W') (w' : W') (hstart' : I' (prep' (start' w')))
    (hprep' : ∀ w, I' w → I' (prep' w) ∧ μ' (prep' w) ≤ μ' w ∧ (pend' w → μ' (prep' w) < μ' w))
    (F n : Nat) (ps ps' rem' : List (TP V)) (h0 : ∀ p ∈ ps, p.2.dt ≠ 0)
    (h : execute K start prep (lift u) E dt F n (w, none) ps = some (.normal, ps', rem')) :
    ∃ F' n' rem'', execute K' start' prep' (lift u) E dt F' n' (w', none) ps = some (.normal, ps', rem'') ∧ rem''.Perm rem' := by
  obtain ⟨rs, h1, rfl, h3⟩ := execute_back hA hP hu start prep w hstart hprep n ps ps' rem' h0 h
  obtain ⟨F', tasks, e1, rfl, e3⟩ := tasks_of_life _ rs h1 (by
    intro p hp
    obtain ⟨q, hq, rfl⟩ := List.mem_map.mp hp
    exact ⟨h0 q hq, by simp⟩)
  obtain ⟨n', rem'', f1, f2⟩ := execute_forth hA' hP hu e1 start' prep' w' hstart' hprep' ps tasks e3
  exact ⟨F', n', rem'', f1, f2.trans h3.symm⟩

theorem whole_answers (P : Particle V → KOut V) : Answers (whole P) P (fun _ => True) (fun _ => False) (fun _ => 0) where
  inv _ _ _ := trivial
  res _ _ _ := .inl rfl
  keep _ _ _ h := h
  le _ _ _ := le_refl _

end Parcels.JitExec
