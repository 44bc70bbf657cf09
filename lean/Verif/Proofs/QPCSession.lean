import Verif.Proofs.QPCCold
import Verif.Proofs.QPBSession
import Verif.Spec.NearGeneral

/-!
Calls of the general solver: one cold start, then any number of hotstarts.
-/
namespace QpOASES
open Finset Props Spec SubjectToStatus SubjectToType ReturnValue HessianType QProblemStatus
open QPB (lowerOf upperOf GivenHessian EqualitiesOK relLen_spec Near.of_le)

set_option linter.unusedSectionVars false

variable {K : Type} [Field K] [LinearOrder K] [IsStrictOrderedRing K]

namespace QPC

/-- The object after the data of a cold start have been stored. -/
def coldData (s : QPC K) (H : Option (Nat → K)) (g A : Nat → K) (lb ub lbA ubA : Option (Nat → K)) : QPC K :=
  ((if s.status ≠ QPS_NOTINITIALISED then s.reset else s).setupQPdata H (some g) (some A) lb ub lbA ubA).2

/-- A new object, or one that has been used before. -/
inductive Usable : QPC K → Prop
  | fresh (n m : Int) (t : HessianType) (clk : Nat → K) (o : Options K) :
      Usable { QPC.new n m t clk with toQPB := (QPC.new n m t clk).toQPB.setOptions o }
  | used (s : QPC K) (h : s.status ≠ QPS_NOTINITIALISED) (hn : s.nV ≠ 0) (hT : s.sizeT = min s.nV s.nC) : Usable s

/-- What is stored for a cold start. -/
structure Stored (c s : QPC K) (g A : Nat → K) (lb ub lbA ubA : Option (Nat → K)) : Prop where
  freeB : c.bounds.free = []
  fixedB : c.bounds.fixed = []
  nB : c.bounds.n = c.nV
  cons : c.cons = WS.init c.nC
  nV : c.nV = s.nV
  nC : c.nC = s.nC
  pos : c.nV ≠ 0
  size : c.sizeT = min c.nV c.nC
  regVal : c.regVal = 0
  options : c.options = s.options
  g : c.g = g
  lb : c.lb = lowerOf lb
  ub : c.ub = upperOf ub
  data : c.nC ≠ 0 → c.A = (fun k j => A (k * c.nV + j)) ∧ c.lbA = lowerOf lbA ∧ c.ubA = upperOf ubA
  ramps : c.ramp0 = s.options.initialRamping ∧ c.ramp1 = s.options.finalRamping ∨
      c.ramp0 = (Options.setToDefault : Options K).initialRamping ∧ c.ramp1 = (Options.setToDefault : Options K).finalRamping

theorem setupQPdata_some (s : QPC K) (H : Option (Nat → K)) (g A : Nat → K) (lb ub lbA ubA : Option (Nat → K)) :
    ∃ h t a l u ax al au, s.setupQPdata H (some g) (some A) lb ub lbA ubA = (SUCCESSFUL_RETURN, { s with H := h, hessianType := t, g := g, lb := lowerOf lb, ub := upperOf ub, A := a, lbA := l, ubA := u, Ax := ax, Axl := al, Axu := au }) ∧
      (s.nC ≠ 0 → a = (fun k j => A (k * s.nV + j)) ∧ l = lowerOf lbA ∧ u = upperOf ubA) := by
  obtain ⟨h, t, e⟩ := QPB.setH_frame s.toQPB H
  unfold setupQPdata QPB.setupQPdata
  rw [e]
  dsimp only
  rw [if_neg (by simp)]
  split
  · next h0 => exact ⟨h, t, s.A, s.lbA, s.ubA, s.Ax, s.Axl, s.Axu, rfl, fun hn => absurd h0 hn⟩
  · exact ⟨h, t, _, _, _, _, _, _, rfl, fun _ => ⟨rfl, rfl, rfl⟩⟩

theorem Usable.cold {s : QPC K} (h : Usable s) (H : Option (Nat → K)) (g A : Nat → K) (lb ub lbA ubA : Option (Nat → K)) :
    Stored (s.coldData H g A lb ub lbA ubA) s g A lb ub lbA ubA := by
  unfold coldData
  cases h with
  | fresh n m t clk o =>
    rw [if_neg (fun h => h rfl)]
    obtain ⟨h', t', a, l, u, ax, al, au, e, hd⟩ := setupQPdata_some ({ QPC.new n m t clk with toQPB := (QPC.new n m t clk).toQPB.setOptions o } : QPC K) H g A lb ub lbA ubA
    rw [e]
    refine ⟨rfl, rfl, rfl, rfl, rfl, rfl, ?_, rfl, rfl, rfl, rfl, rfl, rfl, hd, Or.inr ⟨rfl, rfl⟩⟩
    show (if n ≤ 0 then 1 else n.toNat) ≠ 0
    split <;> omega
  | used _ h hn hT =>
    rw [if_pos h]
    obtain ⟨h', t', a, l, u, ax, al, au, e, hd⟩ := setupQPdata_some s.reset H g A lb ub lbA ubA
    rw [e]
    exact ⟨rfl, rfl, rfl, rfl, rfl, rfl, hn, hT, rfl, rfl, rfl, rfl, rfl, hd, Or.inl ⟨rfl, rfl⟩⟩

/-- Options and limits a cold start is specified for: tolerances with the right signs, a Hessian not declared as one that is regularised
at once, consistent limits, and limits that count as equal are equal. -/
structure Admissible (s : QPC K) (l u lA uA : Nat → K) : Prop where
  options : OptionsOK s.options
  ramp : s.options.enableRamping = true → 0 ≤ s.options.initialRamping ∧ 0 ≤ s.options.finalRamping
  relax : 0 ≤ s.options.boundRelaxation
  noReg : s.options.enableRegularisation = true → s.status = QPS_NOTINITIALISED → s.hessianType ≠ HST_SEMIDEF
  box : ∀ i < s.nV, l i ≤ u i
  eq : s.options.enableEqualities = true → ∀ i < s.nV, l i > u i - s.options.boundTolerance → l i = u i
  boxA : ∀ k < s.nC, lA k ≤ uA k
  eqA : s.options.enableEqualities = true → ∀ k < s.nC, lA k > uA k - s.options.boundTolerance → lA k = uA k

theorem _root_.QpOASES.QPB.determineHessianType_semidef {s : QPB K} (h : (s.determineHessianType).2.hessianType = HST_SEMIDEF) :
    s.hessianType = HST_SEMIDEF := by
  unfold QPB.determineHessianType QPB.ensureRegularisation at h
  dsimp only at h
  repeat' split at h
  all_goals first | exact h | simp_all

theorem Usable.not_semidef {s : QPC K} (h : Usable s) {H : Option (Nat → K)} {g A : Nat → K} {lb ub lbA ubA : Option (Nat → K)}
    (hn : s.status = QPS_NOTINITIALISED → s.hessianType ≠ HST_SEMIDEF) : (s.coldData H g A lb ub lbA ubA).hessianType ≠ HST_SEMIDEF := by
  have hset : ∀ b : QPB K, b.hessianType ≠ HST_SEMIDEF → (b.setH H).hessianType ≠ HST_SEMIDEF := by
    intro b hb
    unfold QPB.setH
    split
    · split
      · exact hb
      · show HST_ZERO ≠ HST_SEMIDEF; decide
    · exact hb
  have hdata : ∀ q : QPC K, q.hessianType ≠ HST_SEMIDEF → (q.setupQPdata H (some g) (some A) lb ub lbA ubA).2.hessianType ≠ HST_SEMIDEF := by
    intro q hq
    have := hset q.toQPB hq
    unfold setupQPdata QPB.setupQPdata
    dsimp only
    rw [if_neg (by simp)]
    split <;> exact this
  unfold coldData
  refine hdata _ ?_
  split
  · show HST_UNKNOWN ≠ HST_SEMIDEF; decide
  · next hst => exact hn (by simpa using hst)

theorem Usable.coldOK {s : QPC K} (h : Usable s) {H : Option (Nat → K)} {g A : Nat → K} {lb ub lbA ubA : Option (Nat → K)}
    (ha : Admissible s (lowerOf lb) (upperOf ub) (lowerOf lbA) (upperOf ubA)) {M : Nat → Nat → K}
    (hM : GivenHessian (s.coldData H g A lb ub lbA ubA).toQPB M) (hsym : QP.Symmetric s.nV M)
    (hst : (s.coldData H g A lb ub lbA ubA).SymH) : ColdOK (s.coldData H g A lb ub lbA ubA) := by
  have c := h.cold H g A lb ub lbA ubA
  obtain ⟨m1, m2, m3, m4⟩ := hM.spec (by rw [c.nV]; exact hsym)
  refine ⟨c.freeB, c.fixedB, c.nB, by rw [c.cons]; rfl, by rw [c.cons]; rfl, by rw [c.cons]; rfl, c.size, c.pos, ⟨by rw [c.options]; exact ha.options, ?_⟩,
    by rw [c.options]; exact ha.relax, ?_, by rw [c.nV, c.lb, c.ub]; exact ha.box,
    by rw [c.nV, c.options, c.lb, c.ub]; exact ha.eq, ?_, ?_, fun h => absurd h m1, hst⟩
  · rw [c.options]
    intro hr
    obtain ⟨r2, r3⟩ := ha.ramp hr
    rcases c.ramps with ⟨e1, e2⟩ | ⟨e1, e2⟩
    · rw [e1, e2]; exact ⟨r2, r3⟩
    · rw [e1, e2]
      refine ⟨?_, ?_⟩
      · show (0 : K) ≤ 1/2; positivity
      · show (0 : K) ≤ 1; exact zero_le_one
  · rintro (hh | hh)
    · exact absurd hh m1
    · obtain ⟨t, o, e1, e2⟩ := QPB.determineHessianType_frame (s.coldData H g A lb ub lbA ubA).toQPB
      have hd := QPB.determineHessianType_semidef hh
      rw [e1] at m1 ⊢
      have e2 := (e2 m1).1
      subst e2
      refine Or.inl ?_
      show (s.coldData H g A lb ub lbA ubA).options.enableRegularisation = false
      rw [c.options]
      by_contra he
      exact h.not_semidef (ha.noReg (by simpa using he)) hd
  · intro k hk
    obtain ⟨_, d2, d3⟩ := c.data (by omega)
    rw [d2, d3]
    exact ha.boxA k (by rw [← c.nC]; exact hk)
  · intro he k hk
    obtain ⟨_, d2, d3⟩ := c.data (by omega)
    rw [c.options] at he ⊢
    rw [d2, d3]
    exact ha.eqA he k (by rw [← c.nC]; exact hk)

/-- Either the arguments are rejected or the initial QP is solved. -/
theorem init_cases (sq : K → K) (fuel : Nat) {s : QPC K} (H : Option (Nat → K)) (g A : Nat → K) (lb ub lbA ubA : Option (Nat → K))
    (nWSR : Int) (cputime : Option K) (xOpt yOpt : Option (Nat → K)) (gB gC : Option WS) :
    (∃ o, init sq fuel s H (some g) (some A) lb ub lbA ubA nWSR cputime xOpt yOpt gB gC none = .ok o ∧ o.rv ≠ SUCCESSFUL_RETURN ∧ o.rv ≠ RET_MAX_NWSR_REACHED) ∨
    init sq fuel s H (some g) (some A) lb ub lbA ubA nWSR cputime xOpt yOpt gB gC none =
      solveInitialQP sq fuel (s.coldData H g A lb ub lbA ubA) xOpt yOpt gB gC none nWSR cputime := by
  unfold init coldData
  split
  · exact Or.inl ⟨_, rfl, by simp⟩
  dsimp only
  generalize (if s.status ≠ QPS_NOTINITIALISED then s.reset else s) = s0
  split
  · exact Or.inl ⟨_, rfl, by simp⟩
  split
  · exact Or.inl ⟨_, rfl, by simp⟩
  split
  · exact Or.inl ⟨_, rfl, by simp⟩
  rw [if_neg (by simp)]
  obtain ⟨h', t', a, l, u, ax, al, au, e, hd⟩ := setupQPdata_some s0 H g A lb ub lbA ubA
  rw [e]
  exact Or.inr rfl

theorem init_spec {sq : K → K} (fuel : Nat) {s : QPC K} (h : Usable s) (hfar : s.options.enableFarBounds = false) {H : Option (Nat → K)} {g A : Nat → K} {lb ub lbA ubA : Option (Nat → K)}
    (ha : Admissible s (lowerOf lb) (upperOf ub) (lowerOf lbA) (upperOf ubA)) {M : Nat → Nat → K}
    (hM : GivenHessian (s.coldData H g A lb ub lbA ubA).toQPB M) (hsym : QP.Symmetric s.nV M) (hst : (s.coldData H g A lb ub lbA ubA).SymH)
    {nWSR : Int} {cputime : Option K} {xOpt yOpt : Option (Nat → K)} {gB gC : Option WS}
    (hc : ColdClean sq (s.coldData H g A lb ub lbA ubA) xOpt yOpt gB gC nWSR cputime) {o : OutC K}
    (e : init sq fuel s H (some g) (some A) lb ub lbA ubA nWSR cputime xOpt yOpt gB gC none = .ok o) :
    (o.rv = SUCCESSFUL_RETURN → Solved o.s g (some (lowerOf lb)) (some (upperOf ub)) (some (s.coldData H g A lb ub lbA ubA).lbA) (some (s.coldData H g A lb ub lbA ubA).ubA) ∧
      ForProblem o.s (s.coldData H g A lb ub lbA ubA)) ∧
    (o.rv = RET_MAX_NWSR_REACHED → o.s.Good ∧ ForProblem o.s (s.coldData H g A lb ub lbA ubA)) := by
  rcases init_cases sq fuel (s := s) H g A lb ub lbA ubA nWSR cputime xOpt yOpt gB gC with ⟨o', e', h1, h2⟩ | e'
  · rw [e] at e'
    simp only [Res.ok.injEq] at e'
    subst e'
    exact ⟨fun hh => absurd hh h1, fun hh => absurd hh h2⟩
  · rw [e'] at e
    have c := h.cold H g A lb ub lbA ubA
    have := solveInitialQP_spec fuel (h.coldOK ha hM hsym hst)
      (by unfold QPB.usingRegularisation; rw [c.regVal]; exact decide_eq_false (not_lt.2 ZERO_pos.le)) (by rw [c.options]; exact hfar) hc e
    rw [c.g, c.lb, c.ub] at this
    exact this

/-- What holds between two calls: the current point is optimal for the current data of a QP with Hessian `M`, constraint matrix `A`, and
limits `l0`, `u0` of the constraints at the cold start. -/
structure Live (n m : Nat) (M A : Nat → Nat → K) (l0 u0 : Nat → K) (s : QPC K) : Prop where
  good : s.Good
  nV : s.nV = n
  nC : s.nC = m
  mat : ∀ k < m, s.A k = A k
  pos : n ≠ 0
  chol : s.haveCholesky = true
  params : s.Params
  relax : 0 ≤ s.options.boundRelaxation
  reg : s.usingRegularisation = false
  hess : ∀ i < n, ∀ j < n, |s.Heff i j - M i j| ≤ EPS
  types : ∀ i < n, s.bounds.type i = ST_EQUALITY → s.options.enableEqualities = true
  unbounded : ∀ k < m, s.cons.type k = ST_UNBOUNDED → (l0 k < -INFTY + s.options.boundTolerance ∧ INFTY - s.options.boundTolerance < u0 k) ∧
    s.options.enableFarBounds = false
  equal : ∀ k < m, s.cons.type k = ST_EQUALITY → s.options.enableEqualities = true ∧ u0 k - s.options.boundTolerance < l0 k
  noLower : s.cons.noLower = true → ∀ k < m, l0 k ≤ -INFTY
  noUpper : s.cons.noUpper = true → ∀ k < m, INFTY ≤ u0 k

theorem typeOfC_unbounded {s : QPC K} {l u : Nat → K} {i : Nat} (h : s.typeOfC (some l) (some u) i = ST_UNBOUNDED) :
    (l i < -INFTY + s.options.boundTolerance ∧ INFTY - s.options.boundTolerance < u i) ∧ s.options.enableFarBounds = false := by
  unfold typeOfC at h
  split at h
  · cases h
  · dsimp only at h
    split at h
    · rename_i hc; exact ⟨⟨hc.1, hc.2.1⟩, hc.2.2⟩
    · split at h <;> cases h

theorem Live.of_init {s : QPC K} (h : Usable s) {H : Option (Nat → K)} {g A : Nat → K} {lb ub lbA ubA : Option (Nat → K)}
    (ha : Admissible s (lowerOf lb) (upperOf ub) (lowerOf lbA) (upperOf ubA)) {M : Nat → Nat → K}
    (hM : GivenHessian (s.coldData H g A lb ub lbA ubA).toQPB M) (hsym : QP.Symmetric s.nV M) (hst : (s.coldData H g A lb ub lbA ubA).SymH) {s' : QPC K}
    (hG : s'.Good) (hF : ForProblem s' (s.coldData H g A lb ub lbA ubA)) :
    Live s.nV s.nC M (fun k j => A (k * s.nV + j)) (lowerOf lbA) (upperOf ubA) s' := by
  have c := h.cold H g A lb ub lbA ubA
  have hcold := h.coldOK ha hM hsym hst
  obtain ⟨m1, m2, m3, m4⟩ := hM.spec (by rw [c.nV]; exact hsym)
  generalize s.coldData H g A lb ub lbA ubA = q at *
  have hdat : ∀ k < s.nC, q.A = (fun k j => A (k * q.nV + j)) ∧ q.lbA = lowerOf lbA ∧ q.ubA = upperOf ubA := fun k hk => c.data (by rw [c.nC]; omega)
  have hopt : s'.options = q.options := hF.options
  refine ⟨hG, hF.nV.trans c.nV, hF.nC.trans c.nC, ?_, by rw [← c.nV]; exact c.pos, hF.chol, ⟨by rw [hopt]; exact hcold.params.options, ?_⟩, by rw [hopt]; exact hcold.relax,
    ?_, ?_, ?_, ?_, ?_, ?_, ?_⟩
  · intro k hk
    rw [hF.A, (hdat k hk).1, c.nV]
  · intro hr
    rw [hF.ramps.1, hF.ramps.2]
    rw [hopt] at hr
    exact hcold.params.ramp hr
  · unfold QPB.usingRegularisation; rw [hF.reg, c.regVal]; exact decide_eq_false (not_lt.2 ZERO_pos.le)
  · rw [hF.hess, ← c.nV]; exact m3
  · intro i hi e
    rw [hF.typeB i (by rw [c.nV]; exact hi)] at e
    rw [hopt]
    exact QPB.typeOf_eq e
  · intro k hk e
    have hd := hdat k hk
    rw [hopt]
    rcases hF.typeC k (by rw [c.nC]; exact hk) with h1 | ⟨_, h1⟩
    · rw [h1] at e
      have := typeOfC_unbounded e
      rw [hd.2.1, hd.2.2] at this
      exact this
    · rw [h1] at e; cases e
  · intro k hk e
    have hd := hdat k hk
    rw [hopt]
    rcases hF.typeC k (by rw [c.nC]; exact hk) with h1 | ⟨_, h1⟩
    · rw [h1] at e
      have := typeOfC_eq e
      rw [hd.2.1, hd.2.2] at this
      exact this
    · rw [h1] at e; cases e
  · intro e k hk
    rw [hF.noLowerC] at e
    have e : ((List.range q.nC).all fun i => !decide (q.lbA i > -INFTY)) = true := e
    rw [List.all_eq_true] at e
    have := e k (List.mem_range.2 (by rw [c.nC]; exact hk))
    rw [(hdat k hk).2.1] at this
    simpa using this
  · intro e k hk
    rw [hF.noUpperC] at e
    have e : ((List.range q.nC).all fun i => !decide (q.ubA i < INFTY)) = true := e
    rw [List.all_eq_true] at e
    have := e k (List.mem_range.2 (by rw [c.nC]; exact hk))
    rw [(hdat k hk).2.2] at this
    simpa using this

/-- The invariant is kept by whatever keeps the solution optimal and the problem the same. -/
theorem Live.next {n m : Nat} {M A : Nat → Nat → K} {l0 u0 : Nat → K} {s s' : QPC K} (h : Live n m M A l0 u0 s) {lbNew ubNew : Option (Nat → K)}
    (k1 : s'.Good) (k2 : Same s' (s.retyped lbNew ubNew)) : Live n m M A l0 u0 s' := by
  have hf := k2.frame
  simp only [Prod.mk.injEq] at hf
  have ho : s'.options = s.options := k2.options
  refine ⟨k1, k2.nV.trans h.nV, k2.nC.trans h.nC, ?_, h.pos, hf.2.2.trans h.chol, ?_, by rw [ho]; exact h.relax, ?_, ?_, ?_, ?_, ?_, ?_, ?_⟩
  · rw [k2.A]; exact h.mat
  · exact Params.same (s := s.retyped lbNew ubNew) ⟨h.params.options, h.params.ramp⟩ k2
  · unfold QPB.usingRegularisation; rw [k2.reg]; exact h.reg
  · rw [k2.hess]; exact h.hess
  · intro i hi e
    rw [k2.typeB, show (s.retyped lbNew ubNew).bounds.type i = s.toQPB.typeOf lbNew ubNew i from if_pos (show i < s.nV by rw [h.nV]; exact hi)] at e
    rw [ho]
    exact QPB.typeOf_eq e
  · rw [k2.typeC, ho]; exact h.unbounded
  · rw [k2.typeC, ho]; exact h.equal
  · rw [k2.noLowerC]; exact h.noLower
  · rw [k2.noUpperC]; exact h.noUpper

theorem Live.hotstart {sq : K → K} (fuel : Nat) {n m : Nat} {M A : Nat → Nat → K} {l0 u0 : Nat → K} {s : QPC K} (h : Live n m M A l0 u0 s)
    (hfar : s.options.enableFarBounds = false) {g : Nat → K}
    {lbNew ubNew lbANew ubANew : Option (Nat → K)} {nWSR : Int} {cputime : Option K} (hbox : ∀ i < n, lowerOf lbNew i ≤ upperOf ubNew i)
    (hboxA : ∀ k < m, lowerOf lbANew k ≤ upperOf ubANew k)
    (hkind : SameKind (s.options.enableEqualities = true) s.options.boundTolerance m l0 u0 (lowerOf lbANew) (upperOf ubANew))
    (hx : ∀ i < n, s.lb i ≤ s.x i ∧ s.x i ≤ s.ub i) (heq : EqualitiesOK s.toQPB lbNew ubNew)
    (hc : RunClean sq { s with count := s.count + 1 } g lbNew ubNew lbANew ubANew nWSR cputime 0) {o : OutC K}
    (e : QPC.hotstart sq fuel s g lbNew ubNew lbANew ubANew nWSR cputime .null .null = .ok o) :
    (o.rv = SUCCESSFUL_RETURN → Solved o.s g lbNew ubNew lbANew ubANew ∧ Same o.s (s.retyped lbNew ubNew) ∧ Live n m M A l0 u0 o.s) ∧
    (o.rv = RET_MAX_NWSR_REACHED → Live n m M A l0 u0 o.s) := by
  have hG : (s.retyped lbNew ubNew).Good := h.good.retype (fun i hi e => ⟨(heq.now i hi e).1, (heq.now i hi e).2.1⟩) heq.before
    (fun _ i hi _ => (hx i (by rw [← h.nV]; exact hi)).1) (fun _ i hi _ => (hx i (by rw [← h.nV]; exact hi)).2)
  have hty : ∀ i < s.nV, (s.retyped lbNew ubNew).bounds.type i = s.toQPB.typeOf lbNew ubNew i := fun i hi => if_pos hi
  have hT : Target (s.retyped lbNew ubNew) (lowerOf lbNew) (upperOf ubNew) (lowerOf lbANew) (upperOf ubANew) := by
    refine ⟨fun i hi => hbox i (by rw [← h.nV]; exact hi), fun i hi e => ?_, fun k hk => hboxA k (by rw [← h.nC]; exact hk), fun k hk e => ?_⟩
    · rw [hty i hi] at e
      exact (heq.now i hi e).2.2
    · have hk : k < m := by rw [← h.nC]; exact hk
      have := h.equal k hk e
      exact hkind.equal this.1 k hk this.2
  obtain ⟨o2, o3⟩ := hotstart_spec fuel nWSR cputime h.chol hfar h.reg hG h.params h.relax hT hc e
  have key : o.s.Good → Same o.s (s.retyped lbNew ubNew) → Live n m M A l0 u0 o.s := h.next
  exact ⟨fun hr => ⟨(o2 hr).1, (o2 hr).2, key (o2 hr).1.good (o2 hr).2⟩, fun hr => key (o3 hr).1 (o3 hr).2⟩

/-! ### optimality conditions -/

theorem SideOK_compl {w : WS} {obs : Nat → Prop} {v l u y : Nat → K} {n : Nat} (h : SideOK w obs v l u y n) (hw : w.OK) (hn : w.n = n) :
    (∀ i < n, 0 < y i → v i = l i) ∧ (∀ i < n, y i < 0 → v i = u i) ∧
    (w.noLower = false → ∀ i < n, obs i → l i ≤ v i) ∧ (w.noUpper = false → ∀ i < n, obs i → v i ≤ u i) := by
  refine ⟨fun i hi hp => ?_, fun i hi hp => ?_, fun hl i hi ho => ?_, fun hl i hi ho => ?_⟩
  · rcases hw.status_cases (show i < w.n by omega) with hs | hs | hs
    · rw [(h.inactive i hi hs).1] at hp; exact absurd hp (lt_irrefl _)
    · exact (h.lower i hi hs).1
    · by_cases hty : w.type i = ST_EQUALITY
      · rw [(h.upper i hi hs).1, (h.eq i hi hty).2]
      · exact absurd hp (not_lt.2 ((h.upper i hi hs).2 hty))
  · rcases hw.status_cases (show i < w.n by omega) with hs | hs | hs
    · rw [(h.inactive i hi hs).1] at hp; exact absurd hp (lt_irrefl _)
    · by_cases hty : w.type i = ST_EQUALITY
      · rw [(h.lower i hi hs).1, (h.eq i hi hty).2]
      · exact absurd hp (not_lt.2 ((h.lower i hi hs).2 hty))
    · exact (h.upper i hi hs).1
  · rcases hw.status_cases (show i < w.n by omega) with hs | hs | hs
    · exact ((h.inactive i hi hs).2 ho).1 hl
    · exact (h.lower i hi hs).1.ge
    · exact (h.box i hi).trans (h.upper i hi hs).1.ge
  · rcases hw.status_cases (show i < w.n by omega) with hs | hs | hs
    · exact ((h.inactive i hi hs).2 ho).2 hl
    · exact (h.lower i hi hs).1.le.trans (h.box i hi)
    · exact (h.upper i hi hs).1.le

/-- The QP with the given data -/
def qp (n m : Nat) (M : Nat → Nat → K) (g l u : Nat → K) (A : Nat → Nat → K) (lA uA : Nat → K) : QP K :=
  { nV := n, nC := m, H := M, g := g, lb := l, ub := u, A := A, lbA := lA, ubA := uA }

theorem row_eq {s : QPC K} {A : Nat → Nat → K} {k : Nat} (h : s.A k = A k) (x : Nat → K) : QP.row s.nV A x k = s.prodA x k := by
  unfold QP.row
  rw [prodA_eq, h]

/-- An optimal point of the current data satisfies the optimality conditions. -/
theorem Good.optimal_of {n m : Nat} {M A : Nat → Nat → K} {s : QPC K} (hG : s.Good) (hn : s.nV = n) (hm : s.nC = m) (hmat : ∀ k < m, s.A k = A k)
    {gR l u lA uA lA' uA' : Nat → K}
    (hl' : ∀ k < m, s.lbA k = lA' k) (hu' : ∀ k < m, s.ubA k = uA' k)
    (hnl : (∃ i < n, -INFTY < l i) → s.bounds.noLower = false) (hnu : (∃ i < n, u i < INFTY) → s.bounds.noUpper = false)
    (hty : ∀ k < m, -INFTY < lA k ∨ uA k < INFTY → s.cons.type k ≠ ST_UNBOUNDED) (hnlA : (∃ k < m, -INFTY < lA k) → s.cons.noLower = false)
    (hnuA : (∃ k < m, uA k < INFTY) → s.cons.noUpper = false) :
    Optimal (qp n m s.Heff s.g s.lb s.ub A lA' uA') (qp n m M gR l u A lA uA) s.x s.y := by
  obtain ⟨b1, b2, b3, b4⟩ := SideOK_compl hG.opt.bounds hG.facs.shape.okB hG.facs.shape.nB
  obtain ⟨c1, c2, c3, c4⟩ := SideOK_compl hG.opt.cons hG.facs.shape.okC hG.facs.shape.nC
  subst hn hm
  refine ⟨⟨fun i hi => ?_, b1, b2, fun k hk hy => ?_, fun k hk hy => ?_⟩, fun hh i hi => b3 (hnl hh) i hi trivial, fun hh i hi => b4 (hnu hh) i hi trivial,
    fun hh k hk ho => ?_, fun hh k hk ho => ?_⟩
  · have h1 := hG.opt.stat i hi
    show ∑ j ∈ range s.nV, s.Heff i j * s.x j + s.g i = s.y i + ∑ k ∈ range s.nC, A k i * s.y (s.nV + k)
    rw [h1]
    congr 1
    exact Finset.sum_congr rfl fun k hk => by rw [hmat k (mem_range.1 hk)]
  · have hk : k < s.nC := hk
    show QP.row s.nV A s.x k = lA' k
    rw [row_eq (hmat k hk), ← hl' k hk]
    exact c1 k hk hy
  · have hk : k < s.nC := hk
    show QP.row s.nV A s.x k = uA' k
    rw [row_eq (hmat k hk), ← hu' k hk]
    exact c2 k hk hy
  · have hk : k < s.nC := hk
    show lA' k ≤ QP.row s.nV A s.x k
    rw [row_eq (hmat k hk), ← hl' k hk]
    exact c3 (hnlA hh) k hk (hty k hk ho)
  · have hk : k < s.nC := hk
    show QP.row s.nV A s.x k ≤ uA' k
    rw [row_eq (hmat k hk), ← hu' k hk]
    exact c4 (hnuA hh) k hk (hty k hk ho)

/-- The invariant gives the optimality conditions for the current data. -/
theorem Live.optimal_of {n m : Nat} {M A : Nat → Nat → K} {l0 u0 : Nat → K} {s : QPC K} (h : Live n m M A l0 u0 s) {gR l u lA uA lA' uA' : Nat → K}
    (hl' : ∀ k < m, s.lbA k = lA' k) (hu' : ∀ k < m, s.ubA k = uA' k)
    (hnl : (∃ i < n, -INFTY < l i) → s.bounds.noLower = false) (hnu : (∃ i < n, u i < INFTY) → s.bounds.noUpper = false)
    (hty : ∀ k < m, -INFTY < lA k ∨ uA k < INFTY → s.cons.type k ≠ ST_UNBOUNDED) (hnlA : (∃ k < m, -INFTY < lA k) → s.cons.noLower = false)
    (hnuA : (∃ k < m, uA k < INFTY) → s.cons.noUpper = false) :
    Optimal (qp n m s.Heff s.g s.lb s.ub A lA' uA') (qp n m M gR l u A lA uA) s.x s.y :=
  h.good.optimal_of h.nV h.nC h.mat hl' hu' hnl hnu hty hnlA hnuA

theorem Live.optimal {n m : Nat} {M A : Nat → Nat → K} {l0 u0 : Nat → K} {s : QPC K} (h : Live n m M A l0 u0 s) {gR l u lA uA lA' uA' : Nat → K}
    (hl' : ∀ k < m, s.lbA k = lA' k) (hu' : ∀ k < m, s.ubA k = uA' k)
    (hnl : (∃ i < n, -INFTY < l i) → s.bounds.noLower = false) (hnu : (∃ i < n, u i < INFTY) → s.bounds.noUpper = false)
    (hkind : SameKind (s.options.enableEqualities = true) s.options.boundTolerance m l0 u0 lA uA) :
    Optimal (qp n m s.Heff s.g s.lb s.ub A lA' uA') (qp n m M gR l u A lA uA) s.x s.y := by
  have hty : ∀ k < m, -INFTY < lA k ∨ uA k < INFTY → s.cons.type k ≠ ST_UNBOUNDED := by
    intro k hk hh e
    have h1 := h.unbounded k hk e
    have h2 := hkind.absent k hk h1.1.1 h1.1.2
    rcases hh with hh | hh
    · exact absurd hh (not_lt.2 h2.1)
    · exact absurd hh (not_lt.2 h2.2)
  have hnlA : (∃ k < m, -INFTY < lA k) → s.cons.noLower = false := by
    rintro ⟨k, hk, hh⟩
    by_contra hc
    exact absurd hh (not_lt.2 (hkind.noLower (h.noLower (by simpa using hc)) k hk))
  have hnuA : (∃ k < m, uA k < INFTY) → s.cons.noUpper = false := by
    rintro ⟨k, hk, hh⟩
    by_contra hc
    exact absurd hh (not_lt.2 (hkind.noUpper (h.noUpper (by simpa using hc)) k hk))
  exact h.optimal_of hl' hu' hnl hnu hty hnlA hnuA

theorem homotopyLength_near {s : QPC K} {gNew l u lA uA : Nat → K} {tol : K} (h : s.homotopyLength gNew (some l) (some u) (some lA) (some uA) ≤ tol) :
    Near s.nV tol gNew s.g ∧ Near s.nV tol l s.lb ∧ Near s.nV tol u s.ub ∧ Near s.nC tol lA s.lbA ∧ Near s.nC tol uA s.ubA := by
  unfold homotopyLength at h
  dsimp only at h
  obtain ⟨a1, a2, _⟩ := relLen_spec lA s.lbA s.nC (s.toQPB.homotopyLength gNew (some l) (some u))
  obtain ⟨b1, b2, _⟩ := relLen_spec uA s.ubA s.nC (QPB.relLen lA s.lbA s.nC (s.toQPB.homotopyLength gNew (some l) (some u)))
  obtain ⟨n1, n2, n3⟩ := QPB.homotopyLength_near (a1.trans (b1.trans h))
  exact ⟨n1, n2, n3, QPB.Near.of_le a2 (b1.trans h), QPB.Near.of_le b2 h⟩

end QPC
end QpOASES
