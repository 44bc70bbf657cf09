import Verif.Spec.StartSet
import Verif.Proofs.QPCReg
import Verif.Props.C53_General
import Verif.Props.C34_General

/-!
C69: a cold start begins with the working set asked for (solver for general constraints).
-/
namespace QpOASES.Props.General
open Spec ReturnValue SubjectToStatus SubjectToType HessianType QProblemStatus
open QpOASES.QPC
open QPB (lowerOf upperOf)

set_option linter.unusedSectionVars false

variable {K : Type} [Field K] [LinearOrder K] [IsStrictOrderedRing K]

theorem wanted_bound {s : QPB K} {xOpt yOpt : Option (Nat → K)} {gB : Option WS} {i : Nat} {kind : SubjectToType} (hk : s.bounds.type i = kind)
    {d : SubjectToStatus} (hd : s.options.initialStatusBounds = d) :
    Wanted (gB.map fun w => w.getStatus i) (yOpt.map fun y => y i) (xOpt.map fun x => x i) (s.lb i) (s.ub i) s.options.boundTolerance kind d
      (s.auxStatus xOpt yOpt gB i) := by
  subst hk hd
  unfold QPB.auxStatus Wanted
  cases gB with
  | some w =>
    refine ⟨fun h => if_pos h, fun h => if_neg h⟩
  | none =>
    cases yOpt with
    | some y =>
      cases xOpt
      all_goals
        dsimp only [Option.map_some, Option.map_none]
        refine ⟨fun h => if_pos h, fun h => ?_, fun h => ?_⟩
        · have := EPS_pos' (K := K)
          rw [if_neg (show ¬ EPS < y i by linarith), if_pos h]
        · have := abs_le.1 h
          rw [if_neg (not_lt.2 this.2), if_neg (not_lt.2 this.1)]
          exact ⟨fun h => if_pos h, fun h => if_neg h⟩
    | none =>
      cases xOpt with
      | some x =>
        dsimp only [Option.map_some, Option.map_none]
        refine ⟨fun h => if_pos (by linarith), fun h1 h2 => ?_, fun h1 h2 => ?_⟩
        · rw [if_neg (by linarith), if_pos (by linarith)]
        · rw [if_neg (by linarith), if_neg (by linarith)]
          exact ⟨fun h => if_pos h, fun h => if_neg h⟩
      | none =>
        dsimp only [Option.map_none]
        refine ⟨fun h => by rw [h], fun h => by rw [h], fun h => by rw [h]⟩

theorem wanted_constraint {s : QPC K} {xOpt yOpt : Option (Nat → K)} {gC : Option WS} {i : Nat} {kind : SubjectToType} (hk : s.cons.type i = kind)
    {v : Nat → K} (hv : ∀ x, xOpt = some x → s.Ax i = v i ∧ s.Axu i = v i) :
    Wanted (gC.map fun w => w.getStatus i) (yOpt.map fun y => y (s.nV + i)) (xOpt.map fun _ => v i) (s.lbA i) (s.ubA i) s.options.boundTolerance kind
      ST_INACTIVE (s.auxStatusC xOpt yOpt gC i) := by
  subst hk
  unfold QPC.auxStatusC Wanted
  cases gC with
  | some w =>
    refine ⟨fun h => if_pos h, fun h => if_neg h⟩
  | none =>
    cases yOpt with
    | some y =>
      cases xOpt
      all_goals
        dsimp only [Option.map_some, Option.map_none]
        refine ⟨fun h => if_pos h, fun h => ?_, fun h => ?_⟩
        · have := EPS_pos' (K := K)
          rw [if_neg (show ¬ EPS < y (s.nV + i) by linarith), if_pos h]
        · have := abs_le.1 h
          rw [if_neg (not_lt.2 this.2), if_neg (not_lt.2 this.1)]
          exact ⟨fun h => if_pos h, fun h => if_neg h⟩
    | none =>
      cases xOpt with
      | some x =>
        obtain ⟨h1, h2⟩ := hv x rfl
        dsimp only [Option.map_some, Option.map_none]
        rw [h1, h2]
        refine ⟨fun h => if_pos h, fun h1 h2 => ?_, fun h1 h2 => ?_⟩
        · rw [if_neg (by linarith), if_pos h2]
        · rw [if_neg (by linarith), if_neg (by linarith)]
          exact ⟨fun h => if_pos h, fun h => if_neg h⟩
      | none =>
        dsimp only [Option.map_none]
        refine ⟨fun h => if_pos h, fun h => if_neg (by rw [h]; decide), fun h => if_neg (by rw [h]; decide)⟩

theorem auxBoundsB_active (aux : Option WS) : ∀ (m i : Nat) (s : QPC K),
    (auxBoundsB aux m i s).2.active = s.active ∧ (auxBoundsB aux m i s).2.lasting = s.lasting := by
  intro m
  induction m with
  | zero => intro i s; exact ⟨rfl, rfl⟩
  | succ m ih =>
    intro i s
    unfold auxBoundsB
    split
    · exact ⟨rfl, rfl⟩
    · exact ⟨(ih _ _).1.trans rfl, (ih _ _).2.trans rfl⟩

theorem auxBoundsC_active (aux : Option WS) : ∀ (m i : Nat) (s : QPC K),
    (auxBoundsC aux m i s).2.active = s.active ∧ (auxBoundsC aux m i s).2.lasting = s.lasting := by
  intro m
  induction m with
  | zero => intro i s; exact ⟨rfl, rfl⟩
  | succ m ih =>
    intro i s
    unfold auxBoundsC
    split
    · exact ⟨rfl, rfl⟩
    · exact ⟨(ih _ _).1.trans rfl, (ih _ _).2.trans rfl⟩

theorem setupAuxiliaryQPbounds_active (s : QPC K) (aux : Option (WS × WS)) :
    (setupAuxiliaryQPbounds s aux).2.active = s.active ∧ (setupAuxiliaryQPbounds s aux).2.lasting = s.lasting := by
  unfold setupAuxiliaryQPbounds
  have h1 := auxBoundsB_active (aux.map (·.1)) s.nV 0 s
  generalize auxBoundsB (aux.map (·.1)) s.nV 0 s = p at h1
  obtain ⟨r, s1⟩ := p
  dsimp only at h1 ⊢
  split
  · exact h1
  · exact ⟨(auxBoundsC_active _ _ _ _).1.trans h1.1, (auxBoundsC_active _ _ _ _).2.trans h1.2⟩

/-- An auxiliary QP that could be prepared has a working set set up from the candidates. -/
theorem prepareAuxiliary_cases {sq : K → K} {s s' : QPC K} {xOpt yOpt : Option (Nat → K)} {gB gC : Option WS} {R : Option (Nat → K)}
    {nWSR : Int} {c : Option K} (h : prepareAuxiliary sq s xOpt yOpt gB gC R nWSR c = .ok (.ok s')) :
    ∃ auxB auxC H v s1, QPB.obtainAux (s.toQPB.auxStatus xOpt yOpt gB) s.nV 0 (WS.init s.nV) = some auxB ∧
      QPB.obtainAux (s.auxStatusC xOpt yOpt gC) s.nC 0 (WS.init s.nC) = some auxC ∧
      setupAuxiliaryWorkingSet sq ({ s with H := H, regVal := v } : QPC K).setupTQfactorisation (some auxB) (some auxC) true = .ok (SUCCESSFUL_RETURN, s1) ∧
      s'.active = s1.active ∧ s'.lasting = s1.lasting := by
  unfold prepareAuxiliary at h
  split at h
  · rename_i auxB auxC hB hC
    have goal2 : ∀ (r1 : ReturnValue) (s1 : QPC K) (H : Option (Nat → Nat → K)) (v : K), s1 = { s with H := H, regVal := v } →
        (if r1 ≠ SUCCESSFUL_RETURN then Res.ok (Except.error ⟨RET_INIT_FAILED_REGULARISATION, nWSR, c, s1⟩) else do
          let s := s1.setupTQfactorisation
          let (r, s) ← setupAuxiliaryWorkingSet sq s (some auxB) (some auxC) true
          if r ≠ SUCCESSFUL_RETURN then .ok (.error ⟨RET_INIT_FAILED, nWSR, c, s⟩) else do
          let s := { s with toQPB := QPB.takeFactor { s.toQPB with haveCholesky := false } (xOpt.isNone && yOpt.isNone && gB.isNone && gC.isNone) R }
          let s ← setupAuxiliaryQPgradient s
          match setupAuxiliaryQPbounds s (some (auxB, auxC)) with
          | (r, s) =>
            if r ≠ SUCCESSFUL_RETURN then .ok (.error ⟨RET_INIT_FAILED, nWSR, c, s⟩) else
            let s := { s with status := QPS_AUXILIARYQPSOLVED }
            if s.options.enableRamping then do
              let s ← performRamping s
              .ok (.ok s)
            else .ok (.ok s) : Res (Except (OutC K) (QPC K))) = .ok (.ok s') →
        ∃ auxB' auxC' H v s1, some auxB = some auxB' ∧ some auxC = some auxC' ∧
          setupAuxiliaryWorkingSet sq ({ s with H := H, regVal := v } : QPC K).setupTQfactorisation (some auxB') (some auxC') true = .ok (SUCCESSFUL_RETURN, s1) ∧
          s'.active = s1.active ∧ s'.lasting = s1.lasting := by
      intro r1 s1 H v hs1 h
      split at h
      · cases h
      · dsimp only at h
        obtain ⟨⟨r2, s2⟩, e2, h⟩ := Res.bind_eq_ok.1 h
        dsimp only at h
        split at h
        · cases h
        · next hr2 =>
          rw [not_not] at hr2
          subst hr2
          rw [hs1] at e2
          refine ⟨auxB, auxC, H, v, s2, rfl, rfl, e2, ?_⟩
          obtain ⟨s3, e3, h⟩ := Res.bind_eq_ok.1 h
          obtain ⟨g, f3⟩ := setupAuxiliaryQPgradient_fields e3
          have a3 : s3.active = s2.active ∧ s3.lasting = s2.lasting := by
            rw [f3]
            have : ∀ b : Bool, ({ s2 with toQPB := QPB.takeFactor { s2.toQPB with haveCholesky := false } b R } : QPC K).active = s2.active ∧
                ({ s2 with toQPB := QPB.takeFactor { s2.toQPB with haveCholesky := false } b R } : QPC K).lasting = s2.lasting := by
              intro b
              have : ∃ R' hc, QPB.takeFactor { s2.toQPB with haveCholesky := false } b R = { s2.toQPB with R := R', haveCholesky := hc } := by
                unfold QPB.takeFactor
                repeat' split
                all_goals exact ⟨_, _, rfl⟩
              obtain ⟨R', hc, e⟩ := this
              rw [e]
              exact ⟨rfl, rfl⟩
            exact this _
          have a4 := setupAuxiliaryQPbounds_active s3 (some (auxB, auxC))
          generalize setupAuxiliaryQPbounds s3 (some (auxB, auxC)) = p at h a4
          obtain ⟨r4, s4⟩ := p
          dsimp only at h a4
          split at h
          · cases h
          · split at h
            · obtain ⟨s5, e5, h⟩ := Res.bind_eq_ok.1 h
              cases h
              obtain ⟨q1, q2⟩ := performRamping_still e5
              have q1 : s'.lasting = s4.lasting := congrArg (fun t => t.1.1) q1
              exact ⟨(q2.trans a4.1).trans a3.1, (q1.trans a4.2).trans a3.2⟩
            · cases h
              exact ⟨a4.1.trans a3.1, a4.2.trans a3.2⟩
    rw [hB, hC]
    split at h
    · obtain ⟨⟨r1, s1⟩, e1, h⟩ := Res.bind_eq_ok.1 h
      obtain ⟨H, v, f⟩ := regulariseHessian_fields e1
      exact goal2 r1 s1 H v f h
    · exact goal2 SUCCESSFUL_RETURN s s.H s.regVal rfl h
  · cases h

theorem lasting_eq {s t : QPC K} (h : s.lasting = t.lasting) : s.nV = t.nV ∧ s.nC = t.nC ∧ s.A = t.A ∧ s.options.epsLITests = t.options.epsLITests := by
  simp only [QPC.lasting, Prod.mk.injEq] at h
  exact ⟨h.1, h.2.1, h.2.2.2.2.1, by injection h.2.2.2.2.2.2.2.2.1⟩

theorem Adopted.of_active {sq : K → K} {upd : Bool} {s0 t s : QPC K} {wB wC : WS} {tB tC : Nat → SubjectToType} (h : Adopted sq upd s0 t wB wC tB tC)
    (ha : s.active = t.active) (hl : s.lasting = t.lasting) : Adopted sq upd s0 s wB wC tB tC := by
  obtain ⟨hn, hm, hA, he⟩ := lasting_eq hl
  have hb : s.bounds.status = t.bounds.status := congrArg Prod.fst ha
  have hc : s.cons.status = t.cons.status := congrArg Prod.snd ha
  have st : Stage t s := ⟨fun _ _ => by rw [hb], fun _ _ => by rw [hc], hA.symm, he.symm⟩
  refine ⟨?_, ?_, ?_, ?_, ?_, ?_⟩
  · rw [hn, hb]; exact h.onlyB
  · rw [hm, hc]; exact h.onlyC
  · rw [hn]; intro i hi hg; rw [hb]; exact (h.allB i hi hg).imp_right (LeftOutB.mono st)
  · rw [hm]; intro i hi hg; rw [hc]; exact (h.allC i hi hg).imp_right (LeftOutC.mono st)
  · rw [hn, hb]; exact h.eqB
  · rw [hm]; intro i hi hg; rw [hc]; exact (h.eqC i hi hg).imp_right (LeftOutC.mono st)

/-- Nothing is active, the factors are those of the empty working set. -/
structure Empty (s : QPC K) : Prop where
  bounds : ∀ i < s.nV, s.bounds.status i = ST_INACTIVE
  cons : ∀ k < s.nC, s.cons.status k = ST_INACTIVE
  basis : NullBasis s

theorem empty_of {s : QPC K} (hs : s.Shape) (hB : ∀ i < s.nV, s.bounds.status i = ST_INACTIVE) (hC : ∀ k < s.nC, s.cons.status k = ST_INACTIVE) :
    Empty s.setupTQfactorisation.plainLI := by
  have h0 : s.nAC = 0 := by
    show s.cons.fixed.length = 0
    rw [List.length_eq_zero_iff, List.eq_nil_iff_forall_not_mem]
    intro k hk
    have hlt := hs.okC.lt_fixed hk
    rcases hs.okC.fixed k hk with h | h <;> rw [hC k (by rw [← hs.nC]; exact hlt)] at h <;> cases h
  have b : ({ s with H := none } : QPC K).setupTQfactorisation.Base :=
    setupTQfactorisation_base ⟨hs.okB, hs.okC, hs.nB, hs.nC, hs.size⟩ (fun _ h => by cases h) h0
  have n := b.nullBasis
  exact ⟨hB, hC, n.count, n.orth, n.null⟩

theorem kind_bound (s : QPB K) (i : Nat) : s.typeOf (some s.lb) (some s.ub) i = kindOf s.options (s.lb i) (s.ub i) := by
  unfold QPB.typeOf kindOf
  dsimp only
  split
  · rfl
  · by_cases h : s.options.enableEqualities = true ∧ s.lb i > s.ub i - s.options.boundTolerance
    · rw [if_pos h, if_pos ⟨h.1, h.2, h.2⟩]
    · rw [if_neg h, if_neg (fun h' => h ⟨h'.1, h'.2.1⟩)]

theorem kind_constraint {s : QPC K} {i : Nat} (h0 : s.cons.type i ≠ ST_DISABLED) : s.typeOfC (some s.lbA) (some s.ubA) i = kindOf s.options (s.lbA i) (s.ubA i) := by
  unfold typeOfC kindOf
  dsimp only
  rw [if_neg h0]
  split
  · rfl
  · by_cases h : s.options.enableEqualities = true ∧ s.lbA i > s.ubA i - s.options.boundTolerance
    · rw [if_pos h, if_pos ⟨h.1, h.2, h.2⟩]
    · rw [if_neg h, if_neg (fun h' => h ⟨h'.1, h'.2.1⟩)]

/-- The candidates for the working set of a cold start with the options `o` and the arguments given. -/
structure WantedSet (o : Options K) (nV nC : Nat) (a : Nat → K) (lb ub lbA ubA xOpt yOpt : Option (Nat → K)) (gB gC : Option WS) (wB wC : WS) : Prop where
  bounds : ∀ i < nV, Wanted (gB.map fun w => w.getStatus i) (yOpt.map fun y => y i) (xOpt.map fun x => x i) (lowerOf lb i) (upperOf ub i)
    o.boundTolerance (kindOf o (lowerOf lb i) (upperOf ub i)) o.initialStatusBounds (wB.getStatus i)
  cons : ∀ k < nC, Wanted (gC.map fun w => w.getStatus k) (yOpt.map fun y => y (nV + k)) (xOpt.map fun x => ∑ j ∈ Finset.range nV, a (k * nV + j) * x j)
    (lowerOf lbA k) (upperOf ubA k) o.boundTolerance (kindOf o (lowerOf lbA k) (upperOf ubA k)) ST_INACTIVE (wC.getStatus k)

/-- The working set with which a cold start begins. -/
theorem coldStart_set {sq : K → K} {s : QPC K} (hs : Usable s) {H : Option (Nat → K)} {g a : Nat → K} {lb ub lbA ubA xOpt yOpt : Option (Nat → K)}
    {gB gC : Option WS} {R : Option (Nat → K)} {nWSR : Int} {c : Option K} {s1 : QPC K}
    (h : ColdStart sq (s.given H (some g) (some a) lb ub lbA ubA) xOpt yOpt gB gC R nWSR c s1) :
    ∃ wB wC s0, WantedSet s.options s.nV s.nC a lb ub lbA ubA xOpt yOpt gB gC wB wC ∧ Empty s0 ∧
      Adopted sq false s0 s1 wB wC (fun i => kindOf s.options (lowerOf lb i) (upperOf ub i))
        (fun k => kindOf s.options (lowerOf lbA k) (upperOf ubA k)) := by
  have st := hs.cold H g a lb ub lbA ubA
  have h : ColdStart sq (s.coldData H g a lb ub lbA ubA) xOpt yOpt gB gC R nWSR c s1 := h
  generalize s.coldData H g a lb ub lbA ubA = d at st h
  unfold ColdStart at h
  obtain ⟨now, en⟩ := startClock_fields d c
  rw [en] at h
  unfold prepareInitialQP at h
  obtain ⟨t, op, e1, -⟩ := QPB.determineHessianType_frame ({ d.toQPB with now := now, status := QPS_NOTINITIALISED } : QPB K)
  have ho := QPB.determineHessianType_options ({ d.toQPB with now := now, status := QPS_NOTINITIALISED } : QPB K)
  dsimp only at h
  rw [e1] at h ho
  dsimp only at ho
  rw [st.options] at ho
  have o1 : op.boundTolerance = s.options.boundTolerance := by rcases ho with ho | ho <;> rw [ho]
  have o2 : op.initialStatusBounds = s.options.initialStatusBounds := by rcases ho with ho | ho <;> rw [ho]
  have ok : ∀ l u, kindOf op l u = kindOf s.options l u := by intro l u; rcases ho with ho | ho <;> rw [ho] <;> rfl
  clear ho e1
  split at h
  · cases h
  generalize hp : setupAuxiliaryQPsolution _ xOpt yOpt = p at h
  have pn : p.nV = s.nV := by rw [← hp, ← st.nV]; rfl
  have pm : p.nC = s.nC := by rw [← hp, ← st.nC]; rfl
  have pl : p.lb = lowerOf lb := by rw [← hp, ← st.lb]; rfl
  have pu : p.ub = upperOf ub := by rw [← hp, ← st.ub]; rfl
  have po : p.options = op := by rw [← hp]; rfl
  have pd : p.nC ≠ 0 → p.A = (fun k j => a (k * p.nV + j)) ∧ p.lbA = lowerOf lbA ∧ p.ubA = upperOf ubA := by
    rw [← hp]; exact st.data
  have pshape : p.Shape := by
    rw [← hp]
    exact ⟨WS.setupAllFree_ok st.freeB st.fixedB, WS.setupAllFree_ok (by show d.cons.free = []; rw [st.cons]; rfl) (by show d.cons.fixed = []; rw [st.cons]; rfl),
      st.nB, by show d.cons.n = d.nC; rw [st.cons]; rfl, st.size⟩
  have pB : ∀ i, p.bounds.status i = ST_INACTIVE := by rw [← hp]; exact fun _ => rfl
  have pC : ∀ i, p.cons.status i = ST_INACTIVE := by rw [← hp]; exact fun _ => rfl
  have ptB : ∀ i < s.nV, p.bounds.type i = kindOf s.options (lowerOf lb i) (upperOf ub i) := by
    intro i hi
    rw [← hp, ← st.lb, ← st.ub, ← ok]
    show (if i < d.nV then _ else _) = _
    rw [if_pos (by rw [st.nV]; exact hi)]
    exact kind_bound { d.toQPB with now := now, status := QPS_NOTINITIALISED, hessianType := t, options := op } i
  have ptC : ∀ i < s.nC, p.cons.type i = kindOf s.options (lowerOf lbA i) (upperOf ubA i) := by
    intro i hi
    obtain ⟨-, d2, d3⟩ := st.data (by rw [st.nC]; omega)
    rw [← hp, ← d2, ← d3, ← ok]
    show (if i < d.nC then _ else _) = _
    rw [if_pos (by rw [st.nC]; exact hi)]
    exact kind_constraint (s := { d with now := now, status := QPS_NOTINITIALISED, hessianType := t, options := op })
      (by show d.cons.type i ≠ _; rw [st.cons]; exact fun h => by cases h)
  have pAx : ∀ x, xOpt = some x → ∀ k < s.nC, p.Ax k = ∑ j ∈ Finset.range s.nV, a (k * s.nV + j) * x j ∧ p.Axu k = ∑ j ∈ Finset.range s.nV, a (k * s.nV + j) * x j := by
    intro x hx k hk
    obtain ⟨d1, -, -⟩ := st.data (by rw [st.nC]; omega)
    have : d.prodA x k = ∑ j ∈ Finset.range s.nV, a (k * s.nV + j) * x j := by rw [prodA_eq, d1, st.nV]
    subst hx
    rw [← hp, ← this]
    exact ⟨rfl, rfl⟩
  clear hp
  obtain ⟨auxB, auxC, H', v, t1, k1, k2, k3, k4, k5⟩ := prepareAuxiliary_cases h
  have a1 := (QPB.obtainAux_spec (p.toQPB.auxStatus xOpt yOpt gB) p.nV 0 (WS.init p.nV) (by simp [WS.init])).1 _ k1
  have a2 := (QPB.obtainAux_spec (p.auxStatusC xOpt yOpt gC) p.nC 0 (WS.init p.nC) (by simp [WS.init])).1 _ k2
  have nB : auxB.n = s.nV := a1.1.trans pn
  have nC : auxC.n = s.nC := a2.1.trans pm
  have gB' : ∀ i < s.nV, QPB.Proper (auxB.getStatus i) ∧ auxB.getStatus i = p.toQPB.auxStatus xOpt yOpt gB i := by
    intro i hi
    rw [WS.getStatus_of_lt (by rw [nB]; exact hi)]
    have := a1.2.1 i (by omega) (by omega)
    exact ⟨by rw [this.2]; exact this.1, this.2⟩
  have gC' : ∀ i < s.nC, QPB.Proper (auxC.getStatus i) ∧ auxC.getStatus i = p.auxStatusC xOpt yOpt gC i := by
    intro i hi
    rw [WS.getStatus_of_lt (by rw [nC]; exact hi)]
    have := a2.2.1 i (by omega) (by omega)
    exact ⟨by rw [this.2]; exact this.1, this.2⟩
  have ad := (setupAuxiliaryWorkingSet_guess (s := ({ p with H := H', regVal := v } : QPC K).setupTQfactorisation)
    ⟨pshape.okB, pshape.okC, pshape.nB, pshape.nC, pshape.size⟩ (fun i hi => (gB' i (pn ▸ hi)).1) (fun i hi => (gC' i (pm ▸ hi)).1)
    (fun _ => ⟨fun i _ => pB i, fun i _ => pC i⟩) (fun h => by cases h) k3)
  have tn : t1.nV = s.nV := (still_nV ad.2.2).trans pn
  have tm : t1.nC = s.nC := (still_nC ad.2.2).trans pm
  have ad := ad.1
  have em : Empty (({ p with H := H', regVal := v } : QPC K).setupTQfactorisation).plainLI :=
    empty_of ⟨pshape.okB, pshape.okC, pshape.nB, pshape.nC, pshape.size⟩ (fun i _ => pB i) (fun i _ => pC i)
  refine ⟨auxB, auxC, _, ⟨fun i hi => ?_, fun k hk => ?_⟩, em, Adopted.of_active ⟨?_, ?_, ad.allB, ad.allC, ?_, ?_⟩ k4 k5⟩
  · have := wanted_bound (s := p.toQPB) (xOpt := xOpt) (yOpt := yOpt) (gB := gB) (ptB i hi) rfl
    rw [← (gB' i hi).2, pl, pu, po, o1, o2] at this
    exact this
  · obtain ⟨-, d2, d3⟩ := pd (by omega)
    have := wanted_constraint (s := p) (xOpt := xOpt) (yOpt := yOpt) (gC := gC) (v := fun k => p.Ax k) (ptC k hk) (fun x hx => ⟨rfl, (pAx x hx k hk).2.trans (pAx x hx k hk).1.symm⟩)
    rw [← (gC' k hk).2, d2, d3, po, o1, pn] at this
    cases xOpt with
    | none => exact this
    | some x => rw [Option.map_some] at this ⊢; rw [← (pAx x rfl k hk).1]; exact this
  · intro i hi h; exact (ad.onlyB i hi h).imp_right (fun h => (ptB i (by omega)).symm.trans h)
  · intro i hi h; exact (ad.onlyC i hi h).imp_right (fun h => (ptC i (by omega)).symm.trans h)
  · intro i hi h; exact ad.eqB i hi ((ptB i (by omega)).trans h)
  · intro i hi h; exact ad.eqC i hi ((ptC i (by omega)).trans h)

/-- **C69**: a call of `init` that gets to the homotopy starts it with the working set asked for: the one guessed, else the one told by the
guessed multipliers, else the one told by the guessed point, else the default one; except for members left out because of linear dependence on
members that are active, and equalities, which are always active.  Whatever differs at the end is due to at most `nWSR` recalculations. -/
theorem C69_init {sq : K → K} {fuel : Nat} {s : QPC K} (hs : Usable s) {H : Option (Nat → K)} {g a : Nat → K} {lb ub lbA ubA : Option (Nat → K)}
    {nWSR : Int} {c : Option K} {xOpt yOpt : Option (Nat → K)} {gB gC : Option WS} {R : Option (Nat → K)} {o : OutC K} (hb : 0 ≤ nWSR)
    (h : init sq fuel s H (some g) (some a) lb ub lbA ubA nWSR c xOpt yOpt gB gC R = .ok o)
    (hr : o.rv = SUCCESSFUL_RETURN ∨ o.rv = RET_MAX_NWSR_REACHED ∨ o.rv = RET_INIT_FAILED_INFEASIBILITY ∨
        o.rv = RET_INIT_FAILED_UNBOUNDEDNESS ∨ o.rv = RET_INIT_FAILED_HOTSTART) :
    ∃ s1 wB wC s0, WantedSet s.options s.nV s.nC a lb ub lbA ubA xOpt yOpt gB gC wB wC ∧ Empty s0 ∧
      Adopted sq false s0 s1 wB wC (fun i => kindOf s.options (lowerOf lb i) (upperOf ub i))
        (fun k => kindOf s.options (lowerOf lbA k) (upperOf ubA k)) ∧
      ∃ k : Nat, Recalcs sq k s1 o.s ∧ (k : Int) ≤ nWSR := by
  have h38 := (C38_init hb h).2
  rcases init_outcome h with ⟨_, b⟩ | ⟨d, ed, s1, cs, -⟩
  · exfalso
    rcases b with ⟨b, _⟩ | b | b | b | b <;> rw [b] at hr <;> exact absurd hr (by decide)
  · subst ed
    obtain ⟨wB, wC, s0, w1, w2, w3⟩ := coldStart_set hs cs
    obtain ⟨k, r1, r2, -⟩ := h38 s1 cs hr
    exact ⟨s1, wB, wC, s0, w1, w2, w3, k, r1, r2⟩

/-! ### bound-constrained solver -/

theorem auxiliary_cases {sq : K → K} {s s' : QPB K} (hst : s.status = QPS_PREPARINGAUXILIARYQP) (hw : s.bounds.OK) (hn : s.bounds.n = s.nV)
    (hin : ∀ i < s.nV, s.bounds.status i = ST_INACTIVE) {xOpt yOpt : Option (Nat → K)} {gB : Option WS} {R : Option (Nat → K)}
    {nWSR : Int} {c : Option K} (h : QPB.prepareAuxiliary sq s xOpt yOpt gB R nWSR c = .ok (.ok s')) :
    ∀ i < s.nV, s'.bounds.status i = s.auxStatus xOpt yOpt gB i := by
  unfold QPB.prepareAuxiliary at h
  split at h
  · cases h
  next aux hB =>
  have a1 := (QPB.obtainAux_spec (s.auxStatus xOpt yOpt gB) s.nV 0 (WS.init s.nV) (by simp [WS.init])).1 _ hB
  have gB' : ∀ i < s.nV, QPB.Proper (aux.getStatus i) ∧ aux.getStatus i = s.auxStatus xOpt yOpt gB i := by
    intro i hi
    have e : aux.n = s.nV := a1.1
    rw [WS.getStatus_of_lt (by rw [e]; exact hi)]
    have := a1.2.1 i (by omega) (by omega)
    exact ⟨by rw [this.2]; exact this.1, this.2⟩
  obtain ⟨w, f1, -, -, -, -, -, f7⟩ := QPB.setupAuxiliaryWorkingSet_afresh sq hst hw hn (aux := aux) (fun j hj => ⟨(gB' j hj).1, hin j hj⟩)
  rw [f1, Res.bind_ok] at h
  dsimp only at h
  rw [if_neg (by simp)] at h
  suffices hs : s'.bounds = w by
    intro i hi
    rw [hs, f7 i hi, (gB' i hi).2]
  have goal2 : ∀ (r1 : ReturnValue) (s1 : QPB K), s1.bounds = w →
      (if r1 ≠ SUCCESSFUL_RETURN then Res.ok (Except.error ⟨RET_INIT_FAILED_REGULARISATION, nWSR, c, s1⟩) else do
        let s := QPB.takeFactor { s1 with haveCholesky := false } (xOpt.isNone && yOpt.isNone && gB.isNone) R
        let (r, s) ← (do
          let s ← QPB.setupAuxiliaryQPgradient s
          Res.ok (QPB.setupAuxiliaryQPbounds true s.nV 0 s))
        if r ≠ SUCCESSFUL_RETURN then .ok (.error ⟨RET_INIT_FAILED, nWSR, c, s⟩)
        else .ok (.ok { s with status := QPS_AUXILIARYQPSOLVED }) : Res (Except (Out K) (QPB K))) = .ok (.ok s') → s'.bounds = w := by
    intro r1 s1 hs1 h
    split at h
    · cases h
    · dsimp only at h
      obtain ⟨⟨r2, s2⟩, e2, h⟩ := Res.bind_eq_ok.1 h
      obtain ⟨s3, e3, e2⟩ := Res.bind_eq_ok.1 e2
      obtain ⟨g, rfl⟩ := QPB.setupAuxiliaryQPgradient_keep e3
      dsimp only at h
      split at h
      · cases h
      · cases h
        show s2.bounds = w
        have e2 : QPB.setupAuxiliaryQPbounds _ _ _ _ = (r2, s2) := Res.ok.inj e2
        have hk := (QPB.setupAuxiliaryQPbounds_keep true _ 0 _).1.symm.trans (congrArg (fun q => q.2.bounds) e2)
        rw [← hs1]
        refine hk.symm.trans ?_
        show (QPB.takeFactor _ _ _).bounds = _
        unfold QPB.takeFactor
        repeat' split
        all_goals rfl
  split at h
  · obtain ⟨⟨r1, s1⟩, e1, h⟩ := Res.bind_eq_ok.1 h
    exact goal2 r1 s1 (QPB.regulariseHessian_keep e1).1 h
  · exact goal2 SUCCESSFUL_RETURN { s with bounds := w } rfl h

/-- The working set with which a cold start of the bound-constrained solver begins. -/
theorem coldStart_setB {sq : K → K} {s : QPB K} (hs : QPB.Usable s) {H : Option (Nat → K)} {g : Nat → K} {lb ub xOpt yOpt : Option (Nat → K)}
    {gB : Option WS} {R : Option (Nat → K)} {nWSR : Int} {c : Option K} {s1 : QPB K}
    (h : Props.ColdStart sq (s.coldData H g lb ub) xOpt yOpt gB R nWSR c s1) :
    ∀ i < s.nV, Wanted (gB.map fun w => w.getStatus i) (yOpt.map fun y => y i) (xOpt.map fun x => x i) (lowerOf lb i) (upperOf ub i)
      s.options.boundTolerance (kindOf s.options (lowerOf lb i) (upperOf ub i)) s.options.initialStatusBounds (s1.bounds.status i) := by
  obtain ⟨c1, c2, c3, c4, -, -, c7, -, c9, c10, -⟩ := hs.cold H g lb ub
  generalize s.coldData H g lb ub = d at *
  unfold Props.ColdStart at h
  obtain ⟨now, en⟩ := QPB.startClock_keep d c
  rw [en] at h
  unfold QPB.prepareInitialQP at h
  obtain ⟨t, op, e1, -⟩ := QPB.determineHessianType_frame ({ d with now := now, status := QPS_NOTINITIALISED } : QPB K)
  have ho := QPB.determineHessianType_options ({ d with now := now, status := QPS_NOTINITIALISED } : QPB K)
  dsimp only at h
  rw [e1] at h ho
  dsimp only at ho
  rw [c7] at ho
  have o1 : op.boundTolerance = s.options.boundTolerance := by rcases ho with ho | ho <;> rw [ho]
  have o2 : op.initialStatusBounds = s.options.initialStatusBounds := by rcases ho with ho | ho <;> rw [ho]
  have ok : ∀ l u, kindOf op l u = kindOf s.options l u := by intro l u; rcases ho with ho | ho <;> rw [ho] <;> rfl
  clear ho e1
  split at h
  · cases h
  intro i hi
  have key := auxiliary_cases (s := { (({ d with now := now, status := QPS_NOTINITIALISED, hessianType := t, options := op } : QPB K).setupSubjectToType (some d.lb) (some d.ub)) with
      status := QPS_PREPARINGAUXILIARYQP
      bounds := (({ d with now := now, status := QPS_NOTINITIALISED, hessianType := t, options := op } : QPB K).setupSubjectToType (some d.lb) (some d.ub)).bounds.setupAllFree
      x := xOpt.getD fun _ => 0
      y := yOpt.getD fun _ => 0 }) rfl (WS.setupAllFree_ok c1 c2) c3 (fun _ _ => rfl) h i (by rw [← c4] at hi; exact hi)
  rw [key, ← o1, ← o2, ← ok, ← c9, ← c10]
  refine wanted_bound ?_ rfl
  show (if i < d.nV then _ else _) = _
  rw [if_pos (by rw [c4]; exact hi)]
  exact kind_bound { d with now := now, status := QPS_NOTINITIALISED, hessianType := t, options := op } i

/-- **C69**, bound-constrained solver: the homotopy of a cold start begins with exactly the working set asked for; no bound is left out. -/
theorem C69_init_bounds {sq : K → K} {fuel : Nat} {s : QPB K} (hs : QPB.Usable s) {H : Option (Nat → K)} {g : Nat → K} {lb ub : Option (Nat → K)}
    {nWSR : Int} {c : Option K} {xOpt yOpt : Option (Nat → K)} {gB : Option WS} {R : Option (Nat → K)} {o : Out K} (hb : 0 ≤ nWSR)
    (h : QPB.init sq fuel s H (some g) lb ub nWSR c xOpt yOpt gB R = .ok o)
    (hr : o.rv = SUCCESSFUL_RETURN ∨ o.rv = RET_MAX_NWSR_REACHED ∨ o.rv = RET_INIT_FAILED_INFEASIBILITY ∨
        o.rv = RET_INIT_FAILED_UNBOUNDEDNESS ∨ o.rv = RET_INIT_FAILED_HOTSTART) :
    ∃ s1, (∀ i < s.nV, Wanted (gB.map fun w => w.getStatus i) (yOpt.map fun y => y i) (xOpt.map fun x => x i) (lowerOf lb i) (upperOf ub i)
        s.options.boundTolerance (kindOf s.options (lowerOf lb i) (upperOf ub i)) s.options.initialStatusBounds (s1.bounds.status i)) ∧
      ∃ k : Nat, QPB.Recalcs sq k s1 o.s ∧ (k : Int) ≤ nWSR := by
  have h38 := (Props.C38_init hb h).2
  rcases Props.init_outcome h with ⟨_, b⟩ | ⟨g', eg, s1, cs, -⟩
  · exfalso
    rcases b with b | b | b | b | b <;> rw [b] at hr <;> exact absurd hr (by decide)
  · cases eg
    obtain ⟨k, r1, r2, -⟩ := h38 _ s1 rfl cs hr
    exact ⟨s1, coldStart_setB hs cs, k, r1, r2⟩

/-! ### the hypotheses are met -/
section
open QpOASES.Runs

/-- A cold start with guesses of the point and of the multipliers. -/
def set69 : Res (OutC ℚ) := QPC.init rootC 5 gen0 (some (vec [4,0,0,25])) (some (vec [-20,-50])) (some (vec [3,4])) (some (vec [-100,-100]))
  (some (vec [100,100])) (some (vec [-50])) (some (vec [5])) 10 none (some (vec [1/2,7])) (some (vec [2,0,-3])) none none none

/-- `C69_init`: the guessed multipliers ask for the first variable at its lower and the constraint at its upper limit; the run is successful. -/
example : holds set69 (fun o => decide (o.rv = SUCCESSFUL_RETURN)) = true := by decide +kernel

example : QPC.Usable gen0 := gen0_usable

/-- The homotopy indeed begins with that working set. -/
example : holds (QPC.prepareInitialQP rootC gen0c (some (vec [1/2, 7])) (some (vec [2, 0, -3])) none none none 10 none) (fun e => match e with
      | .ok s => decide (s.bounds.status 0 = ST_LOWER ∧ s.bounds.status 1 = ST_INACTIVE ∧ s.cons.status 0 = ST_UPPER)
      | .error _ => false) = true := by
  decide +kernel

/-- `C69_init_bounds`: a guessed point near the upper limit of the first variable. -/
def start69 : QPB ℚ := (QPB.new 2 HST_IDENTITY fun _ => 0).setOptions plain

example : QPB.Usable start69 := .fresh 2 HST_IDENTITY _ plain

example : holds (QPB.init rootC 5 start69 none (some (vec [-3,1])) (some (vec [-5,-5])) (some (vec [2,5])) 10 none (some (vec [2,0])) none none none)
    (fun o => decide (o.rv = SUCCESSFUL_RETURN ∧ o.s.bounds.status 0 = ST_UPPER ∧ o.s.x 0 = 2 ∧ o.s.x 1 = -1)) = true := by decide +kernel

end

end QpOASES.Props.General
