import Verif.Proofs.QPCTerm

/-!
The far bound loop of `QProblem::hotstart` ends, and the limits it passes to the homotopy.
-/
namespace QpOASES
namespace QPC
open ReturnValue SubjectToStatus SubjectToType HessianType QProblemStatus

set_option linter.unusedSectionVars false

variable {K : Type} [Field K] [LinearOrder K] [IsStrictOrderedRing K]

theorem solveRegularisedQP_grow {sq : K → K} {s : QPC K} {gNew : Nat → K} {lbNew ubNew lbANew ubANew : Option (Nat → K)} {nWSR : Int}
    {c : Option K} {p : Int} {o : OutC K} (hp : p ≤ nWSR)
    (h : solveRegularisedQP sq s gNew lbNew ubNew lbANew ubANew nWSR c p = .ok o) :
    o.s.options.growFarBounds = s.options.growFarBounds ∧ o.nWSR ≤ nWSR := by
  by_cases hr : QPB.NotReady s.toQPB
  · obtain ⟨c', e⟩ := solveRegularisedQP_notReady hr sq gNew lbNew ubNew lbANew ubANew nWSR c p
    rw [e] at h
    cases h
    exact ⟨rfl, le_rfl⟩
  · have S := solveRegularisedQP_cases hr hp h
    exact ⟨congrArg (fun p => p.2.2.2.2.2.2.2.2.1.growFarBounds) S.lasting, S.upper⟩

theorem farLoop_noDiv (sq : K → K) (gNew : Nat → K) (lbNew ubNew lbANew ubANew : Option (Nat → K)) (nWSR : Int) (c : Option K) (g : K)
    (hg : 1 ≤ g) :
    ∀ (fuel : Nat) (s : QPC K) (far : K) (f : Far K) (p : Int) (needed remaining : K), 0 < far →
      s.options.growFarBounds = g → p ≤ nWSR → INFTY ≤ far * g ^ fuel → fuel ≠ 0 →
      QPB.NoDiv (farLoop sq gNew lbNew ubNew lbANew ubANew nWSR c fuel s far f p needed remaining) := by
  intro fuel
  induction fuel with
  | zero => intro s far f p needed remaining _ _ _ _ h0; exact absurd rfl h0
  | succ fuel ih =>
    intro s far f p needed remaining hf hgr hp hI _
    have next : ∀ (s' : QPC K) (q : Int) (f : Far K) (n r : K), s'.options.growFarBounds = g → q ≤ nWSR → ¬ far * g ≥ INFTY →
        QPB.NoDiv (farLoop sq gNew lbNew ubNew lbANew ubANew nWSR c fuel s' (far * g) f q n r) := by
      intro s' q f n r h1 h2 h3
      have h0 : fuel ≠ 0 := by
        rintro rfl
        rw [pow_one] at hI
        exact h3 hI
      refine ih s' (far * g) f q n r (mul_pos hf (lt_of_lt_of_le one_pos hg)) h1 h2 ?_ h0
      rw [pow_succ'] at hI
      rw [mul_assoc]
      exact hI
    unfold farLoop
    refine QPB.NoDiv.bind' (solveRegularisedQP_ends _ _ _ _ _ _ _ _ _ _).noDiv fun o e => ?_
    obtain ⟨g1, n1⟩ := solveRegularisedQP_grow hp e
    dsimp only
    rw [g1, hgr]
    split
    · split
      · exact .ok _
      · rename_i h3
        exact .bind (updateFarBounds_ends _ _ _ _ _ _ _).noDiv fun a => next _ _ _ _ _ (g1.trans hgr) n1 h3
    · split
      · refine .bind (.cdiv _ _) fun q => ?_
        split
        · exact .ok _
        · split
          · exact .ok _
          · rename_i h3
            exact .bind (updateFarBounds_ends _ _ _ _ _ _ _).noDiv fun a => next _ _ _ _ _ (g1.trans hgr) n1 h3
      · exact .ok _

theorem hotstartMain_noDiv (sq : K → K) (fuel : Nat) (s : QPC K) (gNew : Nat → K) (lbNew ubNew lbANew ubANew : Option (Nat → K)) (nWSR : Int)
    (c : Option K) (a : K) (hb : 0 ≤ nWSR) (h1 : 0 < s.options.initialFarBounds) (h2 : 1 ≤ s.options.growFarBounds)
    (hI : INFTY ≤ s.options.initialFarBounds * s.options.growFarBounds ^ fuel) (h0 : fuel ≠ 0) :
    QPB.NoDiv (hotstartMain sq fuel s gNew lbNew ubNew lbANew ubANew nWSR c a) := by
  unfold hotstartMain
  split
  · exact .ok _
  · have goal2 : ∀ (r1 : ReturnValue) (s1 : QPC K), s1.options.initialFarBounds = s.options.initialFarBounds →
        s1.options.growFarBounds = s.options.growFarBounds →
        QPB.NoDiv (if r1 ≠ SUCCESSFUL_RETURN then .ok ⟨r1, nWSR, c, s1⟩
        else if s1.options.enableFarBounds = false then
          solveRegularisedQP sq s1 gNew lbNew ubNew lbANew ubANew nWSR c 0
        else do
          let f ← updateFarBounds s1 (s1.initialFar lbNew ubNew lbANew ubANew) lbNew ubNew lbANew ubANew
            ⟨fun _ => 0, fun _ => 0, fun _ => 0, fun _ => 0⟩
          let (o, needed) ← farLoop sq gNew lbNew ubNew lbANew ubANew nWSR c fuel s1 (s1.initialFar lbNew ubNew lbANew ubANew) f 0 0 INFTY
          .ok { o with cputime := c.map fun _ => needed + a }) := by
      intro r1 s1 hi hg
      have hle := initialFar_ge s1 lbNew ubNew lbANew ubANew
      rw [hi] at hle
      split
      · exact .ok _
      · split
        · exact (solveRegularisedQP_ends _ _ _ _ _ _ _ _ _ _).noDiv
        · refine .bind (updateFarBounds_ends _ _ _ _ _ _ _).noDiv fun b => .bind ?_ fun b => .ok _
          refine farLoop_noDiv sq gNew lbNew ubNew lbANew ubANew nWSR c _ h2 fuel s1 _ _ 0 0 INFTY (lt_of_lt_of_le h1 hle) hg hb ?_ h0
          exact hI.trans (mul_le_mul_of_nonneg_right hle (pow_nonneg (zero_le_one.trans h2) _))
    dsimp only
    split
    · refine .bind' (setupInitialCholesky_ends _ _).noDiv fun b e => ?_
      obtain ⟨r, s1⟩ := b
      obtain ⟨⟨H, v, R, Q, t, e, hc, es⟩, -⟩ := setupInitialCholesky_fields e
      refine goal2 r s1 ?_ ?_ <;> rw [es]
    · exact goal2 SUCCESSFUL_RETURN { s with count := s.count + 1 } rfl rfl

theorem hotstart_noDiv (sq : K → K) (fuel : Nat) (s : QPC K) (gNew : Nat → K) (lbNew ubNew lbANew ubANew : Option (Nat → K)) (nWSR : Int)
    (c : Option K) (gB gC : QPB.Guess) (hb : 0 ≤ nWSR) (h1 : 0 < s.options.initialFarBounds) (h2 : 1 ≤ s.options.growFarBounds)
    (hI : INFTY ≤ s.options.initialFarBounds * s.options.growFarBounds ^ fuel) (h0 : fuel ≠ 0) :
    QPB.NoDiv (hotstart sq fuel s gNew lbNew ubNew lbANew ubANew nWSR c gB gC) := by
  have main : ∀ (s1 : QPC K) (c : Option K) (a : K), s1.dims = s.dims →
      QPB.NoDiv (hotstartMain sq fuel s1 gNew lbNew ubNew lbANew ubANew nWSR c a) := by
    intro s1 c a h
    have hi : s1.options.initialFarBounds = s.options.initialFarBounds := congrArg (fun a => a.2.2.1) h
    have hg : s1.options.growFarBounds = s.options.growFarBounds := congrArg (fun a => a.2.2.2.1) h
    exact hotstartMain_noDiv _ _ _ _ _ _ _ _ _ _ _ hb (by rw [hi]; exact h1) (by rw [hg]; exact h2) (by rw [hi, hg]; exact hI) h0
  have guessed : ∀ gB gC : Option WS, QPB.NoDiv (do
      let p := s.toQPB.startClock c
      let (r, s) ← setupAuxiliaryQP sq { s with toQPB := p.2 } gB gC
      if r ≠ SUCCESSFUL_RETURN then .ok ⟨RET_SETUP_AUXILIARYQP_FAILED, nWSR, c, s⟩ else
      let s := { s with status := QPS_AUXILIARYQPSOLVED }
      let q := s.toQPB.stopClock c p.1
      let auxTime := q.1.getD 0
      hotstartMain sq fuel { s with toQPB := q.2 } gNew lbNew ubNew lbANew ubANew nWSR (c.map fun c => c - auxTime) auxTime) := by
    intro gB gC
    refine .bind' (setupAuxiliaryQP_ends _ _ _ _).noDiv fun b e => ?_
    obtain ⟨r, s1⟩ := b
    have hd := setupAuxiliaryQP_dims e
    obtain ⟨k, ek⟩ := startClock_fields s c
    rw [ek] at hd
    have hd : s1.dims = s.dims := hd
    dsimp only
    split
    · exact .ok _
    · refine main _ _ _ ?_
      obtain ⟨k', e'⟩ := QPB.stopClock_keep ({ s1 with status := QPS_AUXILIARYQPSOLVED } : QPC K).toQPB c (s.toQPB.startClock c).1
      rw [e']
      exact hd
  unfold hotstart
  split
  · exact .ok _
  · cases gB with
    | null =>
      cases gC with
      | null => exact main _ _ _ rfl
      | self => exact guessed _ _
      | other w => exact guessed _ _
    | self => exact guessed _ _
    | other w => exact guessed _ _

theorem init_noDiv (sq : K → K) (fuel : Nat) (s : QPC K) (H g A lb ub lbA ubA : Option (Nat → K)) (nWSR : Int) (c : Option K)
    (xOpt yOpt : Option (Nat → K)) (gB gC : Option WS) (R : Option (Nat → K)) (hb : 0 ≤ nWSR)
    (h1 : 0 < s.options.initialFarBounds) (h2 : 1 ≤ s.options.growFarBounds)
    (hI : INFTY ≤ s.options.initialFarBounds * s.options.growFarBounds ^ fuel) (h0 : fuel ≠ 0) :
    QPB.NoDiv (init sq fuel s H g A lb ub lbA ubA nWSR c xOpt yOpt gB gC R) := by
  have start : ∀ s0 : QPC K, s0.dims0 = s.dims0 → QPB.NoDiv (solveInitialQP sq fuel s0 xOpt yOpt gB gC R nWSR c) := by
    intro s0 hs0
    unfold solveInitialQP
    refine .bind' (prepareInitialQP_ends _ _ _ _ _ _ _ _ _).noDiv fun e he => ?_
    have P := prepareInitialQP_setUp he
    cases e with
    | error o => exact .ok _
    | ok s1 =>
      have hs1 : s1.dims0 = s.dims0 := by
        refine (dims0_of P.1).trans (Eq.trans ?_ hs0)
        obtain ⟨k, e⟩ := startClock_fields s0 c
        rw [e]; rfl
      dsimp only
      refine .bind ?_ fun o => ?_
      · obtain ⟨k, e⟩ := QPB.stopClock_keep s1.toQPB c (s0.toQPB.startClock c).1
        rw [e]
        have hi : s1.options.initialFarBounds = s.options.initialFarBounds := congrArg (fun a => a.2.2.1) hs1
        have hg : s1.options.growFarBounds = s.options.growFarBounds := congrArg (fun a => a.2.2.2.1) hs1
        exact hotstart_noDiv sq fuel { s1 with now := k } _ _ _ _ _ _ _ _ _ hb (by dsimp only; rw [hi]; exact h1)
          (by dsimp only; rw [hg]; exact h2) (by dsimp only; rw [hi, hg]; exact hI) h0
      · split
        · exact .ok _
        · split
          · exact .ok _
          · split <;> exact .ok _
  unfold init
  split
  · exact .ok _
  · have hr : (if s.status ≠ QPS_NOTINITIALISED then s.reset else s).dims0 = s.dims0 := by split <;> rfl
    dsimp only
    generalize (if s.status ≠ QPS_NOTINITIALISED then s.reset else s) = s0 at hr ⊢
    split
    · exact .ok _
    split
    · exact .ok _
    split
    · exact .ok _
    split
    · exact .ok _
    have hd := (dims0_of (setupQPdata_dims s0 H g A lb ub lbA ubA)).trans hr
    generalize s0.setupQPdata H g A lb ub lbA ubA = p at hd
    obtain ⟨r, s1⟩ := p
    dsimp only at hd ⊢
    split
    · exact .ok _
    · exact start _ hd

/-! ### The limits -/

open QPB (FarFactor) in
theorem farC_spec (s : QPC K) (cur : K) (hn : s.options.enableRamping = true → 2 ≤ s.nV + s.nC)
    (lbNew ubNew : Option (Nat → K)) : ∀ (m i : Nat) (lf uf : Nat → K), ∃ lf' uf',
      farC s cur lbNew ubNew m i lf uf = .ok (lf', uf') ∧
      (∀ j, j < i → lf' j = lf j ∧ uf' j = uf j) ∧
      ∀ j, i ≤ j → j < i + m → ∃ f, FarFactor s.toQPB f ∧ lf' j = QPB.farLower (cur * f) lbNew j ∧ uf' j = QPB.farUpper (cur * f) ubNew j := by
  intro m
  induction m with
  | zero =>
    intro i lf uf
    exact ⟨lf, uf, rfl, fun _ _ => ⟨rfl, rfl⟩, fun j h1 h2 => by omega⟩
  | succ m ih =>
    intro i lf uf
    obtain ⟨f, hf, e⟩ := QPB.farVal_spec s.toQPB cur (s.nV + i) hn
    rw [farC_succ e]
    obtain ⟨lf', uf', e', h1, h2⟩ := ih (i+1) (updA lf i (QPB.farLower (cur * f) lbNew i)) (updA uf i (QPB.farUpper (cur * f) ubNew i))
    refine ⟨lf', uf', e', fun j hj => ?_, fun j hj hj' => ?_⟩
    · obtain ⟨a, b⟩ := h1 j (by omega)
      rw [updA_ne _ _ (by omega)] at a b
      exact ⟨a, b⟩
    · by_cases hji : j = i
      · subst hji
        obtain ⟨a, b⟩ := h1 j (by omega)
        rw [updA_same] at a b
        exact ⟨f, hf, a, b⟩
      · exact h2 j (by omega) (by omega)

/-- The first far bound is below infinity, and no finite limit exceeds it on its own side of zero. -/
theorem initialFar_spec (s : QPC K) (lbNew ubNew lbANew ubANew : Option (Nat → K)) :
    s.toQPB.initialFar lbNew ubNew ≤ s.initialFar lbNew ubNew lbANew ubANew ∧
    (∀ u, ubANew = some u → ∀ i < s.nC, u i < INFTY → u i ≤ s.initialFar lbNew ubNew lbANew ubANew) ∧
    (∀ l, lbANew = some l → ∀ i < s.nC, -INFTY < l i → -(l i) ≤ s.initialFar lbNew ubNew lbANew ubANew) ∧
    (s.options.initialFarBounds < INFTY → s.initialFar lbNew ubNew lbANew ubANew < INFTY) := by
  have up : ∃ f1, s.toQPB.initialFar lbNew ubNew ≤ f1 ∧ (∀ u, ubANew = some u → ∀ i < s.nC, u i < INFTY → u i ≤ f1) ∧
      (s.options.initialFarBounds < INFTY → f1 < INFTY) ∧
      s.initialFar lbNew ubNew lbANew ubANew = (match lbANew with
        | some l => loop (fun i f => if l i > -INFTY ∧ l i < -f then -(l i) else f) s.nC f1
        | none => f1) := by
    have h0 := (QPB.initialFar_spec s.toQPB lbNew ubNew).2.2.2
    cases ubANew with
    | none => exact ⟨_, le_refl _, fun u h => (by cases h), h0, rfl⟩
    | some u =>
      obtain ⟨a, b, c⟩ := QPB.loop_raise (fun i => u i < INFTY) u s.nC (s.toQPB.initialFar lbNew ubNew)
      refine ⟨_, a, fun u' h => ?_, fun h => ?_, rfl⟩
      · cases h; exact b
      · rcases c with c | ⟨i, _, hp, c⟩
        · rw [c]; exact h0 h
        · rw [c]; exact hp
  obtain ⟨f1, h1, h2, h3, e⟩ := up
  rw [e]
  cases lbANew with
  | none => exact ⟨h1, h2, fun l h => (by cases h), h3⟩
  | some l =>
    obtain ⟨a, b, c⟩ := QPB.loop_raise (fun i => l i > -INFTY) (fun i => -l i) s.nC f1
    have eq : (fun (i : Nat) (f : K) => if l i > -INFTY ∧ l i < -f then -l i else f) = fun i f => if l i > -INFTY ∧ -l i > f then -l i else f := by
      funext i f
      have : (l i < -f) = (-l i > f) := propext (by constructor <;> intro h <;> linarith)
      simp only [this]
    dsimp only
    rw [eq]
    refine ⟨h1.trans a, fun u hu i hi hf => (h2 u hu i hi hf).trans a, fun l' hl i hi hf => ?_, fun h => ?_⟩
    · cases hl
      exact b i hi hf
    · rcases c with c | ⟨i, _, hp, c⟩
      · rw [c]; exact h3 h
      · rw [c]
        have hp : -INFTY < l i := hp
        show -l i < INFTY
        linarith

end QPC
end QpOASES
