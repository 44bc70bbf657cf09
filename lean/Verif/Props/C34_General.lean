import Verif.Proofs.QPCFar
import Verif.Proofs.QPCOneSided
import Verif.Props.C34_Solved
import Verif.Props.C51_C57_General

/-!
C34: what SUCCESSFUL_RETURN of init and hotstart means, for QPs with general constraints.
-/
namespace QpOASES.Props
open Finset Spec QPC ReturnValue SubjectToStatus SubjectToType HessianType QProblemStatus
open QPB (lowerOf upperOf GivenHessian EqualitiesOK noLower_false noUpper_false)

set_option linter.unusedSectionVars false

variable {K : Type} [Field K] [LinearOrder K] [IsStrictOrderedRing K]

/-- States of an object between calls: after a cold start and any number of hotstarts that returned success or ran out of iterations,
with or without a guessed working set.  `M`, `A`: Hessian and constraint matrix passed to the cold start, `l0`, `u0`: the limits of the constraints at the
cold start or, if a guess has been installed from scratch since then, before that. -/
inductive SessionC (sq : K → K) (fuel n m : Nat) (M A : Nat → Nat → K) : (l0 u0 : Nat → K) → QPC K → Prop
  | init {l0 u0 : Nat → K} {s : QPC K} (hs : QPC.Usable s) (hn : s.nV = n) (hm : s.nC = m) {H : Option (Nat → K)} {g a : Nat → K} {lb ub lbA ubA : Option (Nat → K)}
      (hfar : s.options.enableFarBounds = false) (hA : A = fun k j => a (k * n + j)) (hl0 : l0 = lowerOf lbA) (hu0 : u0 = upperOf ubA)
      (ha : QPC.Admissible s (lowerOf lb) (upperOf ub) (lowerOf lbA) (upperOf ubA))
      (hM : GivenHessian (s.coldData H g a lb ub lbA ubA).toQPB M) (hsym : QP.Symmetric n M) (hst : (s.coldData H g a lb ub lbA ubA).SymH)
      {nWSR : Int} {cputime : Option K} {xOpt yOpt : Option (Nat → K)} {gB gC : Option WS}
      (hc : QPC.ColdClean sq (s.coldData H g a lb ub lbA ubA) xOpt yOpt gB gC nWSR cputime)
      {o : OutC K} (ho : QPC.init sq fuel s H (some g) (some a) lb ub lbA ubA nWSR cputime xOpt yOpt gB gC none = .ok o)
      (hr : o.rv = SUCCESSFUL_RETURN ∨ o.rv = RET_MAX_NWSR_REACHED) : SessionC sq fuel n m M A l0 u0 o.s
  | hotstart {l0 u0 : Nat → K} {s : QPC K} (hs : SessionC sq fuel n m M A l0 u0 s) {g : Nat → K} {lb ub lbA ubA : Option (Nat → K)} {nWSR : Int} {cputime : Option K}
      (hfar : s.options.enableFarBounds = false) (hbox : ∀ i < n, lowerOf lb i ≤ upperOf ub i) (hboxA : ∀ k < m, lowerOf lbA k ≤ upperOf ubA k)
      (hkind : SameKind (s.options.enableEqualities = true) s.options.boundTolerance m l0 u0 (lowerOf lbA) (upperOf ubA))
      (hx : ∀ i < n, s.lb i ≤ s.x i ∧ s.x i ≤ s.ub i) (heq : EqualitiesOK s.toQPB lb ub)
      (hc : QPC.RunClean sq { s with count := s.count + 1 } g lb ub lbA ubA nWSR cputime 0)
      {o : OutC K} (ho : QPC.hotstart sq fuel s g lb ub lbA ubA nWSR cputime .null .null = .ok o)
      (hr : o.rv = SUCCESSFUL_RETURN ∨ o.rv = RET_MAX_NWSR_REACHED) : SessionC sq fuel n m M A l0 u0 o.s
  | initFar {l0 u0 : Nat → K} {s : QPC K} (hs : QPC.Usable s) (hn : s.nV = n) (hm : s.nC = m) {H : Option (Nat → K)} {g a : Nat → K} {lb ub lbA ubA : Option (Nat → K)}
      (hfar : QPC.FarOptions s.options) (hA : A = fun k j => a (k * n + j)) (hl0 : l0 = lowerOf lbA) (hu0 : u0 = upperOf ubA)
      (ha : QPC.Admissible s (lowerOf lb) (upperOf ub) (lowerOf lbA) (upperOf ubA))
      (hM : GivenHessian (s.coldData H g a lb ub lbA ubA).toQPB M) (hsym : QP.Symmetric n M) (hst : (s.coldData H g a lb ub lbA ubA).SymH)
      {nWSR : Int} {cputime : Option K} {xOpt yOpt : Option (Nat → K)} {gB gC : Option WS}
      (hc : QPC.StartClean sq (s.coldData H g a lb ub lbA ubA) xOpt yOpt gB gC nWSR cputime)
      (hrun : ∀ s2 c, QPC.StartsAt sq (s.coldData H g a lb ub lbA ubA) xOpt yOpt gB gC nWSR cputime s2 c →
        QPC.FarRunClean sq fuel s2 g (some (lowerOf lb)) (some (upperOf ub)) (some (s.coldData H g a lb ub lbA ubA).lbA)
          (some (s.coldData H g a lb ub lbA ubA).ubA) nWSR c)
      {o : OutC K} (ho : QPC.init sq fuel s H (some g) (some a) lb ub lbA ubA nWSR cputime xOpt yOpt gB gC none = .ok o)
      (hr : o.rv = SUCCESSFUL_RETURN ∨ o.rv = RET_MAX_NWSR_REACHED) : SessionC sq fuel n m M A l0 u0 o.s
  | hotstartFar {l0 u0 : Nat → K} {s : QPC K} (hs : SessionC sq fuel n m M A l0 u0 s) {g : Nat → K} {lb ub lbA ubA : Option (Nat → K)} {nWSR : Int} {cputime : Option K}
      (hfar : QPC.FarOptions s.options) (hbox : ∀ i < n, lowerOf lb i ≤ upperOf ub i) (hboxA : ∀ k < m, lowerOf lbA k ≤ upperOf ubA k)
      (hc : QPC.FarRunClean sq fuel { s with count := s.count + 1 } g lb ub lbA ubA nWSR cputime)
      {o : OutC K} (ho : QPC.hotstart sq fuel s g lb ub lbA ubA nWSR cputime .null .null = .ok o)
      (hr : o.rv = SUCCESSFUL_RETURN ∨ o.rv = RET_MAX_NWSR_REACHED) : SessionC sq fuel n m M A l0 u0 o.s
  | guessed {l0 u0 : Nat → K} {s : QPC K} (hs : SessionC sq fuel n m M A l0 u0 s) {gB gC : QPB.Guess} {wB wC : WS} (hG : QPC.Guessed s gB gC wB wC) (hg : QPC.GuessOK s wB wC) (hre : s.shallRefactorise wB wC = true)
      {g : Nat → K} {lb ub lbA ubA : Option (Nat → K)} {nWSR : Int} {cputime : Option K}
      (hfar : s.options.enableFarBounds = false) (hbox : ∀ i < n, lowerOf lb i ≤ upperOf ub i) (hboxA : ∀ k < m, lowerOf lbA k ≤ upperOf ubA k)
      (hkind : SameKind (s.options.enableEqualities = true) s.options.boundTolerance m s.lbA s.ubA (lowerOf lbA) (upperOf ubA))
      (hx : ∀ i < n, s.lb i ≤ s.x i ∧ s.x i ≤ s.ub i) (hxA : ∀ k < m, s.lbA k ≤ s.prodA s.x k ∧ s.prodA s.x k ≤ s.ubA k)
      (hc : QPC.GuessRunClean sq s wB wC g lb ub lbA ubA nWSR cputime)
      {o : OutC K} (ho : QPC.hotstart sq fuel s g lb ub lbA ubA nWSR cputime gB gC = .ok o)
      (hr : o.rv = SUCCESSFUL_RETURN ∨ o.rv = RET_MAX_NWSR_REACHED) : SessionC sq fuel n m M A s.lbA s.ubA o.s
  | guessedUpdate {l0 u0 : Nat → K} {s : QPC K} (hs : SessionC sq fuel n m M A l0 u0 s) {gB gC : QPB.Guess} {wB wC : WS} (hG : QPC.Guessed s gB gC wB wC) (hg : QPC.UpdateOK s wB wC) (hre : s.shallRefactorise wB wC = false)
      {g : Nat → K} {lb ub lbA ubA : Option (Nat → K)} {nWSR : Int} {cputime : Option K}
      (hfar : s.options.enableFarBounds = false) (hbox : ∀ i < n, lowerOf lb i ≤ upperOf ub i) (hboxA : ∀ k < m, lowerOf lbA k ≤ upperOf ubA k)
      (hkind : SameKind (s.options.enableEqualities = true) s.options.boundTolerance m l0 u0 (lowerOf lbA) (upperOf ubA))
      (hx : ∀ i < n, s.lb i ≤ s.x i ∧ s.x i ≤ s.ub i) (hxA : ∀ k < m, s.lbA k ≤ s.prodA s.x k ∧ s.prodA s.x k ≤ s.ubA k)
      (hc : QPC.UpdateRunClean sq s wB wC g lb ub lbA ubA nWSR cputime)
      {o : OutC K} (ho : QPC.hotstart sq fuel s g lb ub lbA ubA nWSR cputime gB gC = .ok o)
      (hr : o.rv = SUCCESSFUL_RETURN ∨ o.rv = RET_MAX_NWSR_REACHED) : SessionC sq fuel n m M A l0 u0 o.s

  | guessedFar {l0 u0 : Nat → K} {s : QPC K} (hs : SessionC sq fuel n m M A l0 u0 s) {gB gC : QPB.Guess} {wB wC : WS} (hG : QPC.Guessed s gB gC wB wC) (hg : QPC.GuessOK s wB wC) (hre : s.shallRefactorise wB wC = true)
      {g : Nat → K} {lb ub lbA ubA : Option (Nat → K)} {nWSR : Int} {cputime : Option K}
      (hfar : QPC.FarOptions s.options) (hbox : ∀ i < n, lowerOf lb i ≤ upperOf ub i) (hboxA : ∀ k < m, lowerOf lbA k ≤ upperOf ubA k)
      (hx : ∀ i < n, s.lb i ≤ s.x i ∧ s.x i ≤ s.ub i) (hxA : ∀ k < m, s.lbA k ≤ s.prodA s.x k ∧ s.prodA s.x k ≤ s.ubA k)
      (hc : QPC.AfreshClean sq (s.guessStart cputime) wB wC) (hc2 : QPC.FarAfter sq fuel s wB wC g lb ub lbA ubA nWSR cputime)
      {o : OutC K} (ho : QPC.hotstart sq fuel s g lb ub lbA ubA nWSR cputime gB gC = .ok o)
      (hr : o.rv = SUCCESSFUL_RETURN ∨ o.rv = RET_MAX_NWSR_REACHED) : SessionC sq fuel n m M A s.lbA s.ubA o.s
  | guessedUpdateFar {l0 u0 : Nat → K} {s : QPC K} (hs : SessionC sq fuel n m M A l0 u0 s) {gB gC : QPB.Guess} {wB wC : WS} (hG : QPC.Guessed s gB gC wB wC) (hg : QPC.UpdateOK s wB wC) (hre : s.shallRefactorise wB wC = false)
      {g : Nat → K} {lb ub lbA ubA : Option (Nat → K)} {nWSR : Int} {cputime : Option K}
      (hfar : QPC.FarOptions s.options) (hbox : ∀ i < n, lowerOf lb i ≤ upperOf ub i) (hboxA : ∀ k < m, lowerOf lbA k ≤ upperOf ubA k)
      (hx : ∀ i < n, s.lb i ≤ s.x i ∧ s.x i ≤ s.ub i) (hxA : ∀ k < m, s.lbA k ≤ s.prodA s.x k ∧ s.prodA s.x k ≤ s.ubA k)
      (hc : QPC.UpdatedClean sq (s.guessStart cputime) wB wC) (hc2 : QPC.FarAfter sq fuel s wB wC g lb ub lbA ubA nWSR cputime)
      {o : OutC K} (ho : QPC.hotstart sq fuel s g lb ub lbA ubA nWSR cputime gB gC = .ok o)
      (hr : o.rv = SUCCESSFUL_RETURN ∨ o.rv = RET_MAX_NWSR_REACHED) : SessionC sq fuel n m M A l0 u0 o.s

theorem ran {r : ReturnValue} (h : r = SUCCESSFUL_RETURN ∨ r = RET_MAX_NWSR_REACHED) : r ≠ RET_QPOBJECT_NOT_SETUP ∧ r ≠ RET_SETUP_AUXILIARYQP_FAILED := by
  rcases h with rfl | rfl <;> exact ⟨by decide, by decide⟩

theorem SessionC.live {sq : K → K} {fuel n m : Nat} {M A : Nat → Nat → K} {l0 u0 : Nat → K} {s : QPC K} (h : SessionC sq fuel n m M A l0 u0 s) :
    QPC.Live n m M A l0 u0 s := by
  induction h with
  | init hs hn hm hfar hA hl0 hu0 ha hM hsym hst hc ho hr =>
    subst hn hm hA hl0 hu0
    obtain ⟨e2, e3⟩ := QPC.init_spec fuel hs hfar ha hM hsym hst hc ho
    rcases hr with hr | hr
    · exact QPC.Live.of_init hs ha hM hsym hst (e2 hr).1.good (e2 hr).2
    · exact QPC.Live.of_init hs ha hM hsym hst (e3 hr).1 (e3 hr).2
  | hotstart hs hfar hbox hboxA hkind hx heq hc ho hr ih =>
    obtain ⟨e2, e3⟩ := ih.hotstart fuel hfar hbox hboxA hkind hx heq hc ho
    rcases hr with hr | hr
    · exact (e2 hr).2.2
    · exact e3 hr
  | initFar hs hn hm hfar hA hl0 hu0 ha hM hsym hst hc hrun ho hr =>
    subst hn hm hA hl0 hu0
    exact (QPC.init_far fuel hs hfar ha hM hsym hst hc hrun ho hr).2.1
  | hotstartFar hs hfar hbox hboxA hc ho hr ih =>
    obtain ⟨e2, e3, -⟩ := ih.hotstart_far fuel hfar hbox hboxA hc ho
    rcases hr with hr | hr
    · exact (e2 hr).2.1
    · exact (e3 hr).1
  | guessed hs hG hg hre hfar hbox hboxA hkind hx hxA hc ho hr ih =>
    obtain ⟨s2, l1, l2, l3, l4, c, l5, l6⟩ := ih.guessed fuel hg hre hx hxA hfar hbox hboxA hc (hG.afresh hre ho) (ran hr)
    obtain ⟨e2, e3⟩ := l1.hotstart fuel (by rw [l2]; exact hfar) hbox hboxA (by rw [l2]; exact hkind) l3 l4 l5 l6
    rcases hr with hr | hr
    · exact (e2 hr).2.2
    · exact e3 hr
  | guessedUpdate hs hG hg hre hfar hbox hboxA hkind hx hxA hc ho hr ih =>
    obtain ⟨s2, l1, l2, l3, l4, c, l5, l6⟩ := ih.guessedUpdate fuel hg hre hx hxA hfar hbox hboxA hc (hG.updated ih.good.facs hre hg.properB hc.1 ho) (ran hr)
    obtain ⟨e2, e3⟩ := l1.hotstart fuel (by rw [l2]; exact hfar) hbox hboxA (by rw [l2]; exact hkind) l3 l4 l5 l6
    rcases hr with hr | hr
    · exact (e2 hr).2.2
    · exact e3 hr

  | guessedFar hs hG hg hre hfar hbox hboxA hx hxA hc hc2 ho hr ih =>
    obtain ⟨e2, e3, -⟩ := ih.guessedFar fuel hg hre hx hxA hfar hbox hboxA hc hc2 (hG.afresh hre ho) (ran hr)
    rcases hr with hr | hr
    · exact (e2 hr).2.1
    · exact (e3 hr).1
  | guessedUpdateFar hs hG hg hre hfar hbox hboxA hx hxA hc hc2 ho hr ih =>
    obtain ⟨e2, e3, -⟩ := ih.guessedUpdateFar fuel hg hre hx hxA hfar hbox hboxA hc hc2 (hG.updated ih.good.facs hre hg.properB hc ho) (ran hr)
    rcases hr with hr | hr
    · exact (e2 hr).2.1
    · exact (e3 hr).1

/-- The limits of the cold start are of their own kind. -/
theorem sameKind_self {s : QPC K} {l u lA uA : Nat → K} (ha : QPC.Admissible s l u lA uA) (habs : ∀ k < s.nC, lA k < -INFTY + s.options.boundTolerance →
      INFTY - s.options.boundTolerance < uA k → lA k ≤ -INFTY ∧ INFTY ≤ uA k) :
    SameKind (s.options.enableEqualities = true) s.options.boundTolerance s.nC lA uA lA uA :=
  ⟨habs, fun he k hk h => ha.eqA he k hk h, fun h => h, fun h => h⟩

/-- **C34** (part): a cold start that returns `SUCCESSFUL_RETURN` has solved the QP, with general constraints.  Constraints whose limits
are infinite up to the tolerance for equality have infinite limits. -/
theorem C34_init_general_partial {sq : K → K} (fuel : Nat) {s : QPC K} (hs : QPC.Usable s) (hfar : s.options.enableFarBounds = false) {H : Option (Nat → K)} {g a : Nat → K}
    {lb ub lbA ubA : Option (Nat → K)} (ha : QPC.Admissible s (lowerOf lb) (upperOf ub) (lowerOf lbA) (upperOf ubA))
    (habs : ∀ k < s.nC, lowerOf lbA k < -INFTY + s.options.boundTolerance → INFTY - s.options.boundTolerance < upperOf ubA k →
      lowerOf lbA k ≤ -INFTY ∧ INFTY ≤ upperOf ubA k)
    {M : Nat → Nat → K} (hM : GivenHessian (s.coldData H g a lb ub lbA ubA).toQPB M) (hsym : QP.Symmetric s.nV M)
    (hst : (s.coldData H g a lb ub lbA ubA).SymH) {nWSR : Int} {cputime : Option K} {xOpt yOpt : Option (Nat → K)} {gB gC : Option WS}
    (hc : QPC.ColdClean sq (s.coldData H g a lb ub lbA ubA) xOpt yOpt gB gC nWSR cputime) {o : OutC K}
    (ho : QPC.init sq fuel s H (some g) (some a) lb ub lbA ubA nWSR cputime xOpt yOpt gB gC none = .ok o) (hr : o.rv = SUCCESSFUL_RETURN) :
    o.s.status = QPS_SOLVED ∧
    SolvesGeneral (QPC.qp s.nV s.nC M g (lowerOf lb) (upperOf ub) (fun k j => a (k * s.nV + j)) (lowerOf lbA) (upperOf ubA))
      s.options.terminationTolerance (o.s.tau = 1) o.s.x o.s.y := by
  obtain ⟨a1, a2⟩ := (QPC.init_spec fuel hs hfar ha hM hsym hst hc ho).1 hr
  have hl := QPC.Live.of_init hs ha hM hsym hst a1.good a2
  have c := hs.cold H g a lb ub lbA ubA
  generalize s.coldData H g a lb ub lbA ubA = q at *
  have eopt : o.s.options = s.options := a2.options.trans c.options
  have hkind : SameKind (o.s.options.enableEqualities = true) o.s.options.boundTolerance s.nC (lowerOf lbA) (upperOf ubA) (lowerOf lbA) (upperOf ubA) := by
    rw [eopt]; exact sameKind_self ha habs
  have hnl : (∃ i < s.nV, -INFTY < lowerOf lb i) → o.s.bounds.noLower = false := by
    intro hh
    rw [a2.noLowerB]
    show (q.toQPB.setupSubjectToType (some q.lb) (some q.ub)).bounds.noLower = false
    rw [c.lb, c.ub]
    exact noLower_false (by rw [show q.toQPB.nV = s.nV from c.nV]; exact hh)
  have hnu : (∃ i < s.nV, upperOf ub i < INFTY) → o.s.bounds.noUpper = false := by
    intro hh
    rw [a2.noUpperB]
    show (q.toQPB.setupSubjectToType (some q.lb) (some q.ub)).bounds.noUpper = false
    rw [c.lb, c.ub]
    exact noUpper_false (by rw [show q.toQPB.nV = s.nV from c.nV]; exact hh)
  have hdat : ∀ k < s.nC, q.lbA = lowerOf lbA ∧ q.ubA = upperOf ubA := fun k hk => (c.data (by rw [c.nC]; omega)).2
  refine ⟨a1.status, o.s.Heff, hl.hess, ?_, fun ht => ?_⟩
  · obtain ⟨n1, n2, n3, n4, n5⟩ := QPC.homotopyLength_near a1.length
    rw [hl.nV, eopt] at n1 n2 n3
    rw [hl.nC, eopt] at n4 n5
    refine ⟨o.s.g, o.s.lb, o.s.ub, o.s.lbA, o.s.ubA, n1, n2, n3, fun k hk => ?_, fun k hk => ?_,
      hl.optimal (fun _ _ => rfl) (fun _ _ => rfl) hnl hnu hkind⟩
    · have := n4 k hk; rw [(hdat k hk).1] at this; exact this
    · have := n5 k hk; rw [(hdat k hk).2] at this; exact this
  · obtain ⟨f1, f2, f3, f4, f5⟩ := a1.full ht
    have := hl.optimal (gR := g) (l := lowerOf lb) (u := upperOf ub) (lA := lowerOf lbA) (uA := upperOf ubA) (lA' := lowerOf lbA) (uA' := upperOf ubA)
      (fun k hk => by rw [f4]; exact congrFun (hdat k hk).1 k) (fun k hk => by rw [f5]; exact congrFun (hdat k hk).2 k) hnl hnu hkind
    rw [f1, f2, f3] at this
    exact this

/-- What a hotstart does with an object that satisfies the invariant. -/
theorem live_hotstart_solves {sq : K → K} (fuel : Nat) {n m : Nat} {M A : Nat → Nat → K} {l0 u0 : Nat → K} {s : QPC K}
    (hlv : QPC.Live n m M A l0 u0 s) (hfar : s.options.enableFarBounds = false) {g : Nat → K} {lb ub lbA ubA : Option (Nat → K)} {nWSR : Int} {cputime : Option K}
    (hbox : ∀ i < n, lowerOf lb i ≤ upperOf ub i) (hboxA : ∀ k < m, lowerOf lbA k ≤ upperOf ubA k)
    (hkind : SameKind (s.options.enableEqualities = true) s.options.boundTolerance m l0 u0 (lowerOf lbA) (upperOf ubA))
    (hx : ∀ i < n, s.lb i ≤ s.x i ∧ s.x i ≤ s.ub i) (heq : EqualitiesOK s.toQPB lb ub)
    (hc : QPC.RunClean sq { s with count := s.count + 1 } g lb ub lbA ubA nWSR cputime 0)
    {o : OutC K} (ho : QPC.hotstart sq fuel s g lb ub lbA ubA nWSR cputime .null .null = .ok o) (hr : o.rv = SUCCESSFUL_RETURN) :
    o.s.status = QPS_SOLVED ∧
    ((lb ≠ none ∧ ub ≠ none ∧ lbA ≠ none ∧ ubA ≠ none) ∨ o.s.tau = 1 ∧ 0 ≤ s.options.terminationTolerance →
      SolvesGeneral (QPC.qp n m M g (lowerOf lb) (upperOf ub) A (lowerOf lbA) (upperOf ubA)) s.options.terminationTolerance (o.s.tau = 1)
        o.s.x o.s.y) := by
  obtain ⟨a1, a2, hl⟩ := (hlv.hotstart fuel hfar hbox hboxA hkind hx heq hc ho).1 hr
  refine ⟨a1.status, fun hcase => ⟨o.s.Heff, hl.hess, ?_⟩⟩
  have eopt : o.s.options = s.options := a2.options
  have hkind' : SameKind (o.s.options.enableEqualities = true) o.s.options.boundTolerance m l0 u0 (lowerOf lbA) (upperOf ubA) := by
    rw [eopt]; exact hkind
  have hnl : (∃ i < n, -INFTY < lowerOf lb i) → o.s.bounds.noLower = false := by
    intro hh
    rw [a2.noLowerB]
    cases lb with
    | none =>
      obtain ⟨i, _, hi⟩ := hh
      exact absurd hi (lt_irrefl _)
    | some l => exact noLower_false (s := s.toQPB) (by rw [hlv.nV]; exact hh)
  have hnu : (∃ i < n, upperOf ub i < INFTY) → o.s.bounds.noUpper = false := by
    intro hh
    rw [a2.noUpperB]
    cases ub with
    | none =>
      obtain ⟨i, _, hi⟩ := hh
      exact absurd hi (lt_irrefl _)
    | some l => exact noUpper_false (s := s.toQPB) (by rw [hlv.nV]; exact hh)
  have hfull : o.s.tau = 1 → Optimal (QPC.qp n m o.s.Heff g (lowerOf lb) (upperOf ub) A (lowerOf lbA) (upperOf ubA))
      (QPC.qp n m M g (lowerOf lb) (upperOf ub) A (lowerOf lbA) (upperOf ubA)) o.s.x o.s.y := by
    intro ht
    obtain ⟨f1, f2, f3, f4, f5⟩ := a1.full ht
    have := hl.optimal (gR := g) (l := lowerOf lb) (u := upperOf ub) (lA := lowerOf lbA) (uA := upperOf ubA) (lA' := lowerOf lbA) (uA' := upperOf ubA)
      (fun k _ => by rw [f4]) (fun k _ => by rw [f5]) hnl hnu hkind'
    rw [f1, f2, f3] at this
    exact this
  refine ⟨?_, hfull⟩
  rcases hcase with ⟨c1, c2, c3, c4⟩ | ⟨ht, htol⟩
  · obtain ⟨l, rfl⟩ := Option.ne_none_iff_exists'.1 c1
    obtain ⟨u, rfl⟩ := Option.ne_none_iff_exists'.1 c2
    obtain ⟨lA, rfl⟩ := Option.ne_none_iff_exists'.1 c3
    obtain ⟨uA, rfl⟩ := Option.ne_none_iff_exists'.1 c4
    obtain ⟨n1, n2, n3, n4, n5⟩ := QPC.homotopyLength_near a1.length
    rw [hl.nV, eopt] at n1 n2 n3
    rw [hl.nC, eopt] at n4 n5
    exact ⟨o.s.g, o.s.lb, o.s.ub, o.s.lbA, o.s.ubA, n1, n2, n3, n4, n5, hl.optimal (fun _ _ => rfl) (fun _ _ => rfl) hnl hnu hkind'⟩
  · have near : ∀ (n : Nat) (v : Nat → K), Near n s.options.terminationTolerance v v := fun n v i _ => by
      rw [sub_self, abs_zero]
      exact mul_nonneg htol (zero_le_one.trans (le_max_left _ _))
    exact ⟨g, lowerOf lb, upperOf ub, lowerOf lbA, upperOf ubA, near _ _, near _ _, near _ _, near _ _, near _ _, hfull ht⟩

/-- **C34** (part): the same for a hotstart after any history.  A hotstart with absent limits of the constraints is covered if the homotopy
has ended with a full step. -/
theorem C34_hotstart_general_partial {sq : K → K} {fuel n m : Nat} {M A : Nat → Nat → K} {l0 u0 : Nat → K} {s : QPC K}
    (h : SessionC sq fuel n m M A l0 u0 s) (hfar : s.options.enableFarBounds = false) {g : Nat → K} {lb ub lbA ubA : Option (Nat → K)} {nWSR : Int} {cputime : Option K}
    (hbox : ∀ i < n, lowerOf lb i ≤ upperOf ub i) (hboxA : ∀ k < m, lowerOf lbA k ≤ upperOf ubA k)
    (hkind : SameKind (s.options.enableEqualities = true) s.options.boundTolerance m l0 u0 (lowerOf lbA) (upperOf ubA))
    (hx : ∀ i < n, s.lb i ≤ s.x i ∧ s.x i ≤ s.ub i) (heq : EqualitiesOK s.toQPB lb ub)
    (hc : QPC.RunClean sq { s with count := s.count + 1 } g lb ub lbA ubA nWSR cputime 0)
    {o : OutC K} (ho : QPC.hotstart sq fuel s g lb ub lbA ubA nWSR cputime .null .null = .ok o) (hr : o.rv = SUCCESSFUL_RETURN) :
    o.s.status = QPS_SOLVED ∧
    ((lb ≠ none ∧ ub ≠ none ∧ lbA ≠ none ∧ ubA ≠ none) ∨ o.s.tau = 1 ∧ 0 ≤ s.options.terminationTolerance →
      SolvesGeneral (QPC.qp n m M g (lowerOf lb) (upperOf ub) A (lowerOf lbA) (upperOf ubA)) s.options.terminationTolerance (o.s.tau = 1)
        o.s.x o.s.y) :=
  live_hotstart_solves fuel h.live hfar hbox hboxA hkind hx heq hc ho hr

/-- **C34** (part): a hotstart whose guessed working set is installed from scratch, after any history.  The guess agrees with the signs of the
multipliers of the last solution (`GuessOK`), and that solution observes the limits the object holds. -/
theorem C34_guessed_general_partial {sq : K → K} {fuel n m : Nat} {M A : Nat → Nat → K} {l0 u0 : Nat → K} {s : QPC K}
    (h : SessionC sq fuel n m M A l0 u0 s) {gB gC : QPB.Guess} {wB wC : WS} (hG : QPC.Guessed s gB gC wB wC) (hg : QPC.GuessOK s wB wC) (hre : s.shallRefactorise wB wC = true)
    (hfar : s.options.enableFarBounds = false) {g : Nat → K} {lb ub lbA ubA : Option (Nat → K)} {nWSR : Int} {cputime : Option K}
    (hbox : ∀ i < n, lowerOf lb i ≤ upperOf ub i) (hboxA : ∀ k < m, lowerOf lbA k ≤ upperOf ubA k)
    (hkind : SameKind (s.options.enableEqualities = true) s.options.boundTolerance m s.lbA s.ubA (lowerOf lbA) (upperOf ubA))
    (hx : ∀ i < n, s.lb i ≤ s.x i ∧ s.x i ≤ s.ub i) (hxA : ∀ k < m, s.lbA k ≤ s.prodA s.x k ∧ s.prodA s.x k ≤ s.ubA k)
    (hc : QPC.GuessRunClean sq s wB wC g lb ub lbA ubA nWSR cputime)
    {o : OutC K} (ho : QPC.hotstart sq fuel s g lb ub lbA ubA nWSR cputime gB gC = .ok o) (hr : o.rv = SUCCESSFUL_RETURN) :
    o.s.status = QPS_SOLVED ∧
    ((lb ≠ none ∧ ub ≠ none ∧ lbA ≠ none ∧ ubA ≠ none) ∨ o.s.tau = 1 ∧ 0 ≤ s.options.terminationTolerance →
      SolvesGeneral (QPC.qp n m M g (lowerOf lb) (upperOf ub) A (lowerOf lbA) (upperOf ubA)) s.options.terminationTolerance (o.s.tau = 1)
        o.s.x o.s.y) := by
  obtain ⟨s2, l1, l2, l3, l4, c, l5, l6⟩ := h.live.guessed fuel hg hre hx hxA hfar hbox hboxA hc (hG.afresh hre ho) (ran (Or.inl hr))
  rw [← l2]
  exact live_hotstart_solves fuel l1 (by rw [l2]; exact hfar) hbox hboxA (by rw [l2]; exact hkind) l3 l4 l5 l6 hr

/-- **C34** (part): a hotstart whose guessed working set is installed by updates of the factors, after any history.  The guess agrees with the signs of the
multipliers of the last solution (`UpdateOK`), and that solution observes the limits the object holds.  `UpdateRunClean` includes that no constraint is active
if the guess fixes all variables (see `C34_vertex_guess_violated`). -/
theorem C34_guessed_update_partial {sq : K → K} {fuel n m : Nat} {M A : Nat → Nat → K} {l0 u0 : Nat → K} {s : QPC K}
    (h : SessionC sq fuel n m M A l0 u0 s) {gB gC : QPB.Guess} {wB wC : WS} (hG : QPC.Guessed s gB gC wB wC) (hg : QPC.UpdateOK s wB wC) (hre : s.shallRefactorise wB wC = false)
    (hfar : s.options.enableFarBounds = false) {g : Nat → K} {lb ub lbA ubA : Option (Nat → K)} {nWSR : Int} {cputime : Option K}
    (hbox : ∀ i < n, lowerOf lb i ≤ upperOf ub i) (hboxA : ∀ k < m, lowerOf lbA k ≤ upperOf ubA k)
    (hkind : SameKind (s.options.enableEqualities = true) s.options.boundTolerance m l0 u0 (lowerOf lbA) (upperOf ubA))
    (hx : ∀ i < n, s.lb i ≤ s.x i ∧ s.x i ≤ s.ub i) (hxA : ∀ k < m, s.lbA k ≤ s.prodA s.x k ∧ s.prodA s.x k ≤ s.ubA k)
    (hc : QPC.UpdateRunClean sq s wB wC g lb ub lbA ubA nWSR cputime)
    {o : OutC K} (ho : QPC.hotstart sq fuel s g lb ub lbA ubA nWSR cputime gB gC = .ok o) (hr : o.rv = SUCCESSFUL_RETURN) :
    o.s.status = QPS_SOLVED ∧
    ((lb ≠ none ∧ ub ≠ none ∧ lbA ≠ none ∧ ubA ≠ none) ∨ o.s.tau = 1 ∧ 0 ≤ s.options.terminationTolerance →
      SolvesGeneral (QPC.qp n m M g (lowerOf lb) (upperOf ub) A (lowerOf lbA) (upperOf ubA)) s.options.terminationTolerance (o.s.tau = 1)
        o.s.x o.s.y) := by
  obtain ⟨s2, l1, l2, l3, l4, c, l5, l6⟩ := h.live.guessedUpdate fuel hg hre hx hxA hfar hbox hboxA hc (hG.updated h.live.good.facs hre hg.properB hc.1 ho) (ran (Or.inl hr))
  rw [← l2]
  exact live_hotstart_solves fuel l1 (by rw [l2]; exact hfar) hbox hboxA (by rw [l2]; exact hkind) l3 l4 l5 l6 hr

/-- **C34** (part): a cold start with far bounds.  The rounds with far limits may begin and are exact.  The optimality conditions are shown after a full step, for the limits of the user: no far limit is left in the solution. -/
theorem C34_init_far_partial {sq : K → K} (fuel : Nat) {s : QPC K} (hs : QPC.Usable s) (hfar : QPC.FarOptions s.options) {H : Option (Nat → K)}
    {g a : Nat → K} {lb ub lbA ubA : Option (Nat → K)} (ha : QPC.Admissible s (lowerOf lb) (upperOf ub) (lowerOf lbA) (upperOf ubA))
    {M : Nat → Nat → K} (hM : GivenHessian (s.coldData H g a lb ub lbA ubA).toQPB M) (hsym : QP.Symmetric s.nV M)
    (hst : (s.coldData H g a lb ub lbA ubA).SymH) {nWSR : Int} {cputime : Option K} {xOpt yOpt : Option (Nat → K)} {gB gC : Option WS}
    (hc : QPC.StartClean sq (s.coldData H g a lb ub lbA ubA) xOpt yOpt gB gC nWSR cputime)
    (hrun : ∀ s2 c, QPC.StartsAt sq (s.coldData H g a lb ub lbA ubA) xOpt yOpt gB gC nWSR cputime s2 c →
      QPC.FarRunClean sq fuel s2 g (some (lowerOf lb)) (some (upperOf ub)) (some (s.coldData H g a lb ub lbA ubA).lbA)
        (some (s.coldData H g a lb ub lbA ubA).ubA) nWSR c) {o : OutC K}
    (ho : QPC.init sq fuel s H (some g) (some a) lb ub lbA ubA nWSR cputime xOpt yOpt gB gC none = .ok o) (hr : o.rv = SUCCESSFUL_RETURN) :
    o.s.status = QPS_SOLVED ∧ (o.s.tau = 1 → ∃ H' : Nat → Nat → K, (∀ i < s.nV, ∀ j < s.nV, |H' i j - M i j| ≤ EPS) ∧
      Optimal (QPC.qp s.nV s.nC H' g (lowerOf lb) (upperOf ub) (fun k j => a (k * s.nV + j)) (lowerOf lbA) (upperOf ubA))
        (QPC.qp s.nV s.nC M g (lowerOf lb) (upperOf ub) (fun k j => a (k * s.nV + j)) (lowerOf lbA) (upperOf ubA)) o.s.x o.s.y) := by
  obtain ⟨b0, b1, b2⟩ := QPC.init_far fuel hs hfar ha hM hsym hst hc hrun ho (Or.inl hr)
  have c := hs.cold H g a lb ub lbA ubA
  have b0 := b0 hr
  generalize s.coldData H g a lb ub lbA ubA = q at *
  have hdat : ∀ k < s.nC, q.lbA = lowerOf lbA ∧ q.ubA = upperOf ubA := fun k hk => (c.data (by rw [c.nC]; omega)).2
  obtain ⟨f, a1, a2, a3, a4⟩ := b0
  refine ⟨a3.status, fun ht => ⟨o.s.Heff, b1.hess, ?_⟩⟩
  have key := QPC.FarSolved.optimal ⟨f, a1, a2, a3, a4⟩ b1 (by rw [b2]; exact hfar.on)
    (fun h k hk => by show q.lbA k ≤ _; rw [(hdat k hk).1]; exact h k hk)
    (fun h k hk => by show _ ≤ q.ubA k; rw [(hdat k hk).2]; exact h k hk) ht
  rcases Nat.eq_zero_or_pos s.nC with h0 | h0
  · rw [h0] at key ⊢
    exact ⟨⟨key.stationary.stat, key.stationary.pos, key.stationary.neg, fun k hk => absurd hk (Nat.not_lt_zero k), fun k hk => absurd hk (Nat.not_lt_zero k)⟩,
      key.lower, key.upper, fun _ k hk => absurd hk (Nat.not_lt_zero k), fun _ k hk => absurd hk (Nat.not_lt_zero k)⟩
  · obtain ⟨e1, e2⟩ := hdat 0 h0
    rw [e1, e2] at key
    exact key

/-- **C34** (part): the same for a hotstart with far bounds after any history; absent limits count as infinite. -/
theorem C34_hotstart_far_partial {sq : K → K} {fuel n m : Nat} {M A : Nat → Nat → K} {l0 u0 : Nat → K} {s : QPC K}
    (h : SessionC sq fuel n m M A l0 u0 s) (hfar : QPC.FarOptions s.options) {g : Nat → K} {lb ub lbA ubA : Option (Nat → K)} {nWSR : Int}
    {cputime : Option K} (hbox : ∀ i < n, lowerOf lb i ≤ upperOf ub i) (hboxA : ∀ k < m, lowerOf lbA k ≤ upperOf ubA k)
    (hnl : (∀ k < m, l0 k ≤ -INFTY) → ∀ k < m, lowerOf lbA k ≤ -INFTY) (hnu : (∀ k < m, INFTY ≤ u0 k) → ∀ k < m, INFTY ≤ upperOf ubA k)
    (hc : QPC.FarRunClean sq fuel { s with count := s.count + 1 } g lb ub lbA ubA nWSR cputime)
    {o : OutC K} (ho : QPC.hotstart sq fuel s g lb ub lbA ubA nWSR cputime .null .null = .ok o) (hr : o.rv = SUCCESSFUL_RETURN) :
    o.s.status = QPS_SOLVED ∧ (o.s.tau = 1 → ∃ H' : Nat → Nat → K, (∀ i < n, ∀ j < n, |H' i j - M i j| ≤ EPS) ∧
      Optimal (QPC.qp n m H' g (lowerOf lb) (upperOf ub) A (lowerOf lbA) (upperOf ubA))
        (QPC.qp n m M g (lowerOf lb) (upperOf ub) A (lowerOf lbA) (upperOf ubA)) o.s.x o.s.y) := by
  obtain ⟨⟨f, a1, a2, a3, a4⟩, b, c⟩ := (h.live.hotstart_far fuel hfar hbox hboxA hc ho).solved hr
  exact ⟨a3.status, fun ht => ⟨o.s.Heff, b.hess, QPC.FarSolved.optimal ⟨f, a1, a2, a3, a4⟩ b (by rw [c]; exact hfar.on) hnl hnu ht⟩⟩

/-- **C34** (part): the same with far bounds, for a guessed working set installed from scratch.  The conditions are shown after a full step. -/
theorem C34_guessed_far_partial {sq : K → K} {fuel n m : Nat} {M A : Nat → Nat → K} {l0 u0 : Nat → K} {s : QPC K}
    (h : SessionC sq fuel n m M A l0 u0 s) {gB gC : QPB.Guess} {wB wC : WS} (hG : QPC.Guessed s gB gC wB wC) (hg : QPC.GuessOK s wB wC) (hre : s.shallRefactorise wB wC = true)
    (hfar : QPC.FarOptions s.options) {g : Nat → K} {lb ub lbA ubA : Option (Nat → K)} {nWSR : Int}
    {cputime : Option K} (hbox : ∀ i < n, lowerOf lb i ≤ upperOf ub i) (hboxA : ∀ k < m, lowerOf lbA k ≤ upperOf ubA k)
    (hx : ∀ i < n, s.lb i ≤ s.x i ∧ s.x i ≤ s.ub i) (hxA : ∀ k < m, s.lbA k ≤ s.prodA s.x k ∧ s.prodA s.x k ≤ s.ubA k)
    (hnl : (∀ k < m, s.lbA k ≤ -INFTY) → ∀ k < m, lowerOf lbA k ≤ -INFTY) (hnu : (∀ k < m, INFTY ≤ s.ubA k) → ∀ k < m, INFTY ≤ upperOf ubA k)
    (hc : QPC.AfreshClean sq (s.guessStart cputime) wB wC) (hc2 : QPC.FarAfter sq fuel s wB wC g lb ub lbA ubA nWSR cputime)
    {o : OutC K} (ho : QPC.hotstart sq fuel s g lb ub lbA ubA nWSR cputime gB gC = .ok o) (hr : o.rv = SUCCESSFUL_RETURN) :
    o.s.status = QPS_SOLVED ∧ (o.s.tau = 1 → ∃ H' : Nat → Nat → K, (∀ i < n, ∀ j < n, |H' i j - M i j| ≤ EPS) ∧
      Optimal (QPC.qp n m H' g (lowerOf lb) (upperOf ub) A (lowerOf lbA) (upperOf ubA))
        (QPC.qp n m M g (lowerOf lb) (upperOf ub) A (lowerOf lbA) (upperOf ubA)) o.s.x o.s.y) := by
  obtain ⟨⟨f, a1, a2, a3, a4⟩, b, c⟩ := (h.live.guessedFar fuel hg hre hx hxA hfar hbox hboxA hc hc2 (hG.afresh hre ho) (ran (Or.inl hr))).solved hr
  exact ⟨a3.status, fun ht => ⟨o.s.Heff, b.hess, QPC.FarSolved.optimal ⟨f, a1, a2, a3, a4⟩ b (by rw [c]; exact hfar.on) hnl hnu ht⟩⟩

/-- **C34** (part): the same with far bounds, for a guessed working set installed by updates.  The conditions are shown after a full step. -/
theorem C34_guessed_update_far_partial {sq : K → K} {fuel n m : Nat} {M A : Nat → Nat → K} {l0 u0 : Nat → K} {s : QPC K}
    (h : SessionC sq fuel n m M A l0 u0 s) {gB gC : QPB.Guess} {wB wC : WS} (hG : QPC.Guessed s gB gC wB wC) (hg : QPC.UpdateOK s wB wC) (hre : s.shallRefactorise wB wC = false)
    (hfar : QPC.FarOptions s.options) {g : Nat → K} {lb ub lbA ubA : Option (Nat → K)} {nWSR : Int}
    {cputime : Option K} (hbox : ∀ i < n, lowerOf lb i ≤ upperOf ub i) (hboxA : ∀ k < m, lowerOf lbA k ≤ upperOf ubA k)
    (hx : ∀ i < n, s.lb i ≤ s.x i ∧ s.x i ≤ s.ub i) (hxA : ∀ k < m, s.lbA k ≤ s.prodA s.x k ∧ s.prodA s.x k ≤ s.ubA k)
    (hnl : (∀ k < m, l0 k ≤ -INFTY) → ∀ k < m, lowerOf lbA k ≤ -INFTY) (hnu : (∀ k < m, INFTY ≤ u0 k) → ∀ k < m, INFTY ≤ upperOf ubA k)
    (hc : QPC.UpdatedClean sq (s.guessStart cputime) wB wC) (hc2 : QPC.FarAfter sq fuel s wB wC g lb ub lbA ubA nWSR cputime)
    {o : OutC K} (ho : QPC.hotstart sq fuel s g lb ub lbA ubA nWSR cputime gB gC = .ok o) (hr : o.rv = SUCCESSFUL_RETURN) :
    o.s.status = QPS_SOLVED ∧ (o.s.tau = 1 → ∃ H' : Nat → Nat → K, (∀ i < n, ∀ j < n, |H' i j - M i j| ≤ EPS) ∧
      Optimal (QPC.qp n m H' g (lowerOf lb) (upperOf ub) A (lowerOf lbA) (upperOf ubA))
        (QPC.qp n m M g (lowerOf lb) (upperOf ub) A (lowerOf lbA) (upperOf ubA)) o.s.x o.s.y) := by
  obtain ⟨⟨f, a1, a2, a3, a4⟩, b, c⟩ := (h.live.guessedUpdateFar fuel hg hre hx hxA hfar hbox hboxA hc hc2 (hG.updated h.live.good.facs hre hg.properB hc ho) (ran (Or.inl hr))).solved hr
  exact ⟨a3.status, fun ht => ⟨o.s.Heff, b.hess, QPC.FarSolved.optimal ⟨f, a1, a2, a3, a4⟩ b (by rw [c]; exact hfar.on) hnl hnu ht⟩⟩

/-- A pair with `Optimal` is a global minimiser if the Hessian is positive semidefinite, there are finite limits, and every constraint has a
finite limit. -/
theorem C34_minimiser_general {P : QP K} {x y : Nat → K} (h : Optimal P P x y) (hs : QP.Symmetric P.nV P.H)
    (hp : QP.PosSemidef P.nV P.H) (hl : ∃ i < P.nV, -INFTY < P.lb i) (hu : ∃ i < P.nV, P.ub i < INFTY) (hlA : ∃ k < P.nC, -INFTY < P.lbA k)
    (huA : ∃ k < P.nC, P.ubA k < INFTY) (hA : ∀ k < P.nC, -INFTY < P.lbA k ∨ P.ubA k < INFTY) : P.IsMinimiser x :=
  C35_global_minimum hs hp ⟨h.stationary, ⟨h.lower hl, h.upper hu, fun k hk => h.lowerA hlA k hk (hA k hk), fun k hk => h.upperA huA k hk (hA k hk)⟩⟩

/-! ### the hypotheses are met: a cold start and a hotstart with changes of the working set that update all three factors -/
section
open Runs

/-- Cold start: minimise 2x₀² + 25/2 x₁² - 20x₀ - 50x₁ subject to 3x₀ + 4x₁ ≤ 5. -/
def gen0 : QPC ℚ := startC 2 1 HST_POSDEF plain
def gen1 : Res (OutC ℚ) := coldC gen0 (some [4,0,0,25]) [-20,-50] [3,4] [-100,-100] [100,100] [-50] [5]
def gen0c : QPC ℚ := gen0.coldData (some (vec [4,0,0,25])) (vec [-20,-50]) (vec [3,4]) (some (vec [-100,-100])) (some (vec [100,100]))
  (some (vec [-50])) (some (vec [5]))
/-- Hotstart: the gradient and a limit move. -/
def gen2 : Res (OutC ℚ) := hotC gen1 [40,-100] (some [-2,-100]) (some [100,100]) (some [-50]) (some [5]) .null .null
def gen0H : Nat → Nat → ℚ := fun i j => vec [4,0,0,25] (i * 2 + j)
def gen0A : Nat → Nat → ℚ := fun k j => vec [3,4] (k * 2 + j)

theorem gen0_usable : QPC.Usable gen0 := .fresh 2 1 HST_POSDEF _ plain

theorem gen0_admissible : QPC.Admissible gen0 (lowerOf (some (vec [-100,-100]))) (upperOf (some (vec [100,100]))) (lowerOf (some (vec [-50])))
    (upperOf (some (vec [5]))) := by
  refine ⟨⟨?_, ?_, ?_, Or.inl ?_, ?_, ?_⟩, ?_, ?_, ?_, ?_, ?_, ?_, ?_⟩
  all_goals decide +kernel

theorem gen0_symmetric : QP.Symmetric 2 gen0H := by
  intro i hi j hj
  have hi' : i = 0 ∨ i = 1 := by omega
  have hj' : j = 0 ∨ j = 1 := by omega
  rcases hi' with rfl | rfl <;> rcases hj' with rfl | rfl <;> rfl

theorem gen0_hessian : GivenHessian gen0c.toQPB gen0H :=
  ⟨fun h => (by cases h), fun _ => ⟨by decide, rfl⟩, fun h => (by cases h)⟩

theorem gen0_symH : gen0c.SymH := by
  intro H h
  obtain rfl : gen0H = H := Option.some.inj h
  exact gen0_symmetric

theorem gen0_clean : QPC.ColdClean rootC gen0c none none none none 10 none := by decide +kernel

theorem gen1_session : ∃ o, gen1 = .ok o ∧ o.rv = SUCCESSFUL_RETURN ∧ o.nWSR = 3 ∧ o.s.cons.getStatus 0 = ST_UPPER ∧
    SessionC rootC 5 2 1 gen0H gen0A (lowerOf (some (vec [-50]))) (upperOf (some (vec [5]))) o.s := by
  obtain ⟨o, e, h⟩ := of_holds (r := gen1) (p := fun o => decide (o.rv = SUCCESSFUL_RETURN ∧ o.nWSR = 3 ∧ o.s.cons.getStatus 0 = ST_UPPER))
    (by decide +kernel)
  obtain ⟨h1, h2, h3⟩ := of_decide_eq_true h
  exact ⟨o, e, h1, h2, h3, SessionC.init gen0_usable rfl rfl (by decide +kernel) rfl rfl rfl gen0_admissible gen0_hessian gen0_symmetric gen0_symH gen0_clean e (Or.inl h1)⟩

/-- The second call meets the hypotheses, and it takes three working set changes to succeed. -/
theorem gen2_solved : ∃ o, gen1 = .ok o ∧ o.s.options.enableFarBounds = false ∧ SameKind (o.s.options.enableEqualities = true) o.s.options.boundTolerance 1
      (lowerOf (some (vec [-50]))) (upperOf (some (vec [5]))) (lowerOf (some (vec [-50]))) (upperOf (some (vec [5]))) ∧
    (∀ i < 2, o.s.lb i ≤ o.s.x i ∧ o.s.x i ≤ o.s.ub i) ∧ EqualitiesOK o.s.toQPB (some (vec [-2,-100])) (some (vec [100,100])) ∧
    QPC.RunClean rootC { o.s with count := o.s.count + 1 } (vec [40,-100]) (some (vec [-2,-100])) (some (vec [100,100])) (some (vec [-50]))
      (some (vec [5])) 10 none 0 ∧
    ∃ o', gen2 = .ok o' ∧ o'.rv = SUCCESSFUL_RETURN ∧ o'.nWSR = 3 ∧ o'.s.x 0 = -2 ∧ o'.s.x 1 = 11/4 ∧ o'.s.y 0 = 887/16 ∧ o'.s.y 2 = -125/16 ∧
      SessionC rootC 5 2 1 gen0H gen0A (lowerOf (some (vec [-50]))) (upperOf (some (vec [5]))) o'.s := by
  obtain ⟨o, e, _, _, _, hs⟩ := gen1_session
  obtain ⟨o1, e1, h⟩ := of_holds (r := gen1) (p := fun o : OutC ℚ => decide (∀ i : Nat, i < 2 → o.s.lb i ≤ o.s.x i ∧ o.s.x i ≤ o.s.ub i) &&
    decide (QPC.RunClean rootC { o.s with count := o.s.count + 1 } (vec [40,-100]) (some (vec [-2,-100])) (some (vec [100,100])) (some (vec [-50]))
      (some (vec [5])) 10 none 0) &&
    decide (o.s.options.enableFarBounds = false ∧ o.s.options.enableEqualities = false ∧ o.s.options.boundTolerance ≤ 1 ∧ ∀ i : Nat, i < 2 → o.s.bounds.type i ≠ ST_EQUALITY))
    (by decide +kernel)
  rw [e] at e1
  cases e1
  rw [Bool.and_eq_true, Bool.and_eq_true] at h
  obtain ⟨⟨h1, h2⟩, h3⟩ := h
  obtain ⟨h6, h3, h4, h5⟩ := of_decide_eq_true h3
  have hn := hs.live.nV
  have hkind : SameKind (o.s.options.enableEqualities = true) o.s.options.boundTolerance 1
      (lowerOf (some (vec [-50]))) (upperOf (some (vec [5]))) (lowerOf (some (vec [-50]))) (upperOf (some (vec [5]))) := by
    refine ⟨fun k hk hl => ?_, fun he => ?_, fun h => h, fun h => h⟩
    · obtain rfl : k = 0 := by omega
      exact absurd (hl.trans_le (add_le_add_right h4 _)) (by decide +kernel)
    · rw [h3] at he; cases he
  have heq : EqualitiesOK o.s.toQPB (some (vec [-2,-100])) (some (vec [100,100])) := by
    refine ⟨fun i hi e => ?_, fun i hi _ e => absurd e (h5 i (by rw [← hn]; exact hi))⟩
    have := QPB.typeOf_eq e
    rw [h3] at this
    cases this
  obtain ⟨o', e', h'⟩ := of_holds (r := gen2) (p := fun o' => decide (o'.rv = SUCCESSFUL_RETURN ∧ o'.nWSR = 3 ∧ o'.s.x 0 = -2 ∧ o'.s.x 1 = 11/4 ∧
    o'.s.y 0 = 887/16 ∧ o'.s.y 2 = -125/16)) (by decide +kernel)
  obtain ⟨r1, r2, r3, r4, r5, r6⟩ := of_decide_eq_true h'
  refine ⟨o, e, h6, hkind, of_decide_eq_true h1, heq, of_decide_eq_true h2, o', e', r1, r2, r3, r4, r5, r6, ?_⟩
  unfold gen2 hotC at e'
  rw [e] at e'
  refine SessionC.hotstart hs h6 (g := vec [40,-100]) (lb := some (vec [-2,-100])) (ub := some (vec [100,100])) (lbA := some (vec [-50]))
    (ubA := some (vec [5])) ?_ ?_ hkind (of_decide_eq_true h1) heq (of_decide_eq_true h2) e' (Or.inl r1)
  · decide +kernel
  · decide +kernel

/-! #### a hotstart with a guess -/

/-- A working set with the given statuses -/
def guessWS (l : List SubjectToStatus) : WS :=
  { WS.init l.length with
    status := fun i => l.getD i ST_INACTIVE
    free := (List.range l.length).filter fun i => decide (l.getD i ST_INACTIVE = ST_INACTIVE)
    fixed := (List.range l.length).filter fun i => decide (l.getD i ST_INACTIVE ≠ ST_INACTIVE) }

/-- The same hotstart with the guess that only the lower bound of x₀ is active -/
def gen3 : Res (OutC ℚ) := hotC gen1 [40,-100] (some [-2,-100]) (some [100,100]) (some [-50]) (some [5])
  (.other (guessWS [ST_LOWER, ST_INACTIVE])) (.other (guessWS [ST_INACTIVE]))

/-- The call with the guess meets the hypotheses: the working set is installed from scratch, and one change remains to be made. -/
theorem gen3_solved : ∃ o, gen1 = .ok o ∧ QPC.GuessOK o.s (guessWS [ST_LOWER, ST_INACTIVE]) (guessWS [ST_INACTIVE]) ∧
    o.s.shallRefactorise (guessWS [ST_LOWER, ST_INACTIVE]) (guessWS [ST_INACTIVE]) = true ∧
    QPC.GuessRunClean rootC o.s (guessWS [ST_LOWER, ST_INACTIVE]) (guessWS [ST_INACTIVE]) (vec [40,-100]) (some (vec [-2,-100])) (some (vec [100,100]))
      (some (vec [-50])) (some (vec [5])) 10 none ∧
    ∃ o', gen3 = .ok o' ∧ o'.rv = SUCCESSFUL_RETURN ∧ o'.nWSR = 1 ∧ o'.s.x 0 = -2 ∧ o'.s.x 1 = 11/4 ∧ o'.s.y 0 = 887/16 ∧ o'.s.y 2 = -125/16 ∧
      SessionC rootC 5 2 1 gen0H gen0A o.s.lbA o.s.ubA o'.s := by
  obtain ⟨o, e, _, _, _, hs⟩ := gen1_session
  obtain ⟨o1, e1, h⟩ := of_holds (r := gen1) (p := fun o : OutC ℚ => decide (QPC.GuessOK o.s (guessWS [ST_LOWER, ST_INACTIVE]) (guessWS [ST_INACTIVE])) &&
    decide (QPC.GuessRunClean rootC o.s (guessWS [ST_LOWER, ST_INACTIVE]) (guessWS [ST_INACTIVE]) (vec [40,-100]) (some (vec [-2,-100])) (some (vec [100,100]))
      (some (vec [-50])) (some (vec [5])) 10 none) &&
    decide (o.s.shallRefactorise (guessWS [ST_LOWER, ST_INACTIVE]) (guessWS [ST_INACTIVE]) = true ∧ o.s.options.enableFarBounds = false ∧
      o.s.options.enableEqualities = false ∧ o.s.options.boundTolerance ≤ 1 ∧ (∀ i : Nat, i < 2 → o.s.lb i ≤ o.s.x i ∧ o.s.x i ≤ o.s.ub i) ∧
      (∀ k : Nat, k < 1 → o.s.lbA k ≤ o.s.prodA o.s.x k ∧ o.s.prodA o.s.x k ≤ o.s.ubA k) ∧ o.s.lbA 0 = -50 ∧ o.s.ubA 0 = 5))
    (by decide +kernel)
  rw [e] at e1
  cases e1
  rw [Bool.and_eq_true, Bool.and_eq_true] at h
  obtain ⟨⟨h1, h2⟩, h3⟩ := h
  obtain ⟨a1, a2, a3, a4, a5, a6, a7, a8⟩ := of_decide_eq_true h3
  have hkind : SameKind (o.s.options.enableEqualities = true) o.s.options.boundTolerance 1
      o.s.lbA o.s.ubA (lowerOf (some (vec [-50]))) (upperOf (some (vec [5]))) := by
    refine ⟨fun k hk hl => ?_, fun he => ?_, fun h => ?_, fun h => ?_⟩
    · obtain rfl : k = 0 := by omega
      rw [a7] at hl
      exact absurd (hl.trans_le (add_le_add_right a4 _)) (by decide +kernel)
    · rw [a3] at he; cases he
    · exact absurd (h 0 (by omega)) (by rw [a7]; decide +kernel)
    · exact absurd (h 0 (by omega)) (by rw [a8]; decide +kernel)
  obtain ⟨o', e', h'⟩ := of_holds (r := gen3) (p := fun o' => decide (o'.rv = SUCCESSFUL_RETURN ∧ o'.nWSR = 1 ∧ o'.s.x 0 = -2 ∧ o'.s.x 1 = 11/4 ∧
    o'.s.y 0 = 887/16 ∧ o'.s.y 2 = -125/16)) (by decide +kernel)
  obtain ⟨r1, r2, r3, r4, r5, r6⟩ := of_decide_eq_true h'
  refine ⟨o, e, of_decide_eq_true h1, a1, of_decide_eq_true h2, o', e', r1, r2, r3, r4, r5, r6, ?_⟩
  unfold gen3 hotC at e'
  rw [e] at e'
  refine SessionC.guessed hs (Or.inl ⟨rfl, rfl⟩) (of_decide_eq_true h1) a1 (g := vec [40,-100]) (lb := some (vec [-2,-100])) (ub := some (vec [100,100])) (lbA := some (vec [-50]))
    (ubA := some (vec [5])) a2 ?_ ?_ hkind a5 a6 (of_decide_eq_true h2) e' (Or.inl r1)
  · decide +kernel
  · decide +kernel

/-- The same hotstart with the guess that the lower bound of x₀ and the constraint are active -/
def gen4 : Res (OutC ℚ) := hotC gen1 [40,-100] (some [-2,-100]) (some [100,100]) (some [-50]) (some [5])
  (.other (guessWS [ST_LOWER, ST_INACTIVE])) (.other (guessWS [ST_UPPER]))

/-- The call with the guess meets the hypotheses: the factors are updated, and no change remains to be made. -/
theorem gen4_solved : ∃ o, gen1 = .ok o ∧ QPC.UpdateOK o.s (guessWS [ST_LOWER, ST_INACTIVE]) (guessWS [ST_UPPER]) ∧
    o.s.shallRefactorise (guessWS [ST_LOWER, ST_INACTIVE]) (guessWS [ST_UPPER]) = false ∧
    QPC.UpdateRunClean rootC o.s (guessWS [ST_LOWER, ST_INACTIVE]) (guessWS [ST_UPPER]) (vec [40,-100]) (some (vec [-2,-100])) (some (vec [100,100]))
      (some (vec [-50])) (some (vec [5])) 10 none ∧
    ∃ o', gen4 = .ok o' ∧ o'.rv = SUCCESSFUL_RETURN ∧ o'.nWSR = 0 ∧ o'.s.x 0 = -2 ∧ o'.s.x 1 = 11/4 ∧ o'.s.y 0 = 887/16 ∧ o'.s.y 2 = -125/16 ∧
      SessionC rootC 5 2 1 gen0H gen0A (lowerOf (some (vec [-50]))) (upperOf (some (vec [5]))) o'.s := by
  obtain ⟨o, e, _, _, _, hs⟩ := gen1_session
  obtain ⟨o1, e1, h⟩ := of_holds (r := gen1) (p := fun o : OutC ℚ => decide (QPC.UpdateOK o.s (guessWS [ST_LOWER, ST_INACTIVE]) (guessWS [ST_UPPER])) &&
    decide (QPC.UpdateRunClean rootC o.s (guessWS [ST_LOWER, ST_INACTIVE]) (guessWS [ST_UPPER]) (vec [40,-100]) (some (vec [-2,-100])) (some (vec [100,100]))
      (some (vec [-50])) (some (vec [5])) 10 none) &&
    decide (o.s.shallRefactorise (guessWS [ST_LOWER, ST_INACTIVE]) (guessWS [ST_UPPER]) = false ∧ o.s.options.enableFarBounds = false ∧
      o.s.options.enableEqualities = false ∧ o.s.options.boundTolerance ≤ 1 ∧ (∀ i : Nat, i < 2 → o.s.lb i ≤ o.s.x i ∧ o.s.x i ≤ o.s.ub i) ∧
      (∀ k : Nat, k < 1 → o.s.lbA k ≤ o.s.prodA o.s.x k ∧ o.s.prodA o.s.x k ≤ o.s.ubA k) ∧ o.s.lbA 0 = -50 ∧ o.s.ubA 0 = 5))
    (by decide +kernel)
  rw [e] at e1
  cases e1
  rw [Bool.and_eq_true, Bool.and_eq_true] at h
  obtain ⟨⟨h1, h2⟩, h3⟩ := h
  obtain ⟨a1, a2, a3, a4, a5, a6, a7, a8⟩ := of_decide_eq_true h3
  have hkind : SameKind (o.s.options.enableEqualities = true) o.s.options.boundTolerance 1
      (lowerOf (some (vec [-50]))) (upperOf (some (vec [5]))) (lowerOf (some (vec [-50]))) (upperOf (some (vec [5]))) := by
    refine ⟨fun k hk hl => ?_, fun he => ?_, fun h => h, fun h => h⟩
    · obtain rfl : k = 0 := by omega
      exact absurd (hl.trans_le (add_le_add_right a4 _)) (by decide +kernel)
    · rw [a3] at he; cases he
  obtain ⟨o', e', h'⟩ := of_holds (r := gen4) (p := fun o' => decide (o'.rv = SUCCESSFUL_RETURN ∧ o'.nWSR = 0 ∧ o'.s.x 0 = -2 ∧ o'.s.x 1 = 11/4 ∧
    o'.s.y 0 = 887/16 ∧ o'.s.y 2 = -125/16)) (by decide +kernel)
  obtain ⟨r1, r2, r3, r4, r5, r6⟩ := of_decide_eq_true h'
  refine ⟨o, e, of_decide_eq_true h1, a1, of_decide_eq_true h2, o', e', r1, r2, r3, r4, r5, r6, ?_⟩
  unfold gen4 hotC at e'
  rw [e] at e'
  refine SessionC.guessedUpdate hs (Or.inl ⟨rfl, rfl⟩) (of_decide_eq_true h1) a1 (g := vec [40,-100]) (lb := some (vec [-2,-100])) (ub := some (vec [100,100])) (lbA := some (vec [-50]))
    (ubA := some (vec [5])) a2 ?_ ?_ hkind a5 a6 (of_decide_eq_true h2) e' (Or.inl r1)
  · decide +kernel
  · decide +kernel

/-- A guess for the bounds only: the call meets the hypotheses with the statuses the constraints have, and the factors are updated. -/
example : ∃ o, gen1 = .ok o ∧ QPC.Guessed o.s (.other (guessWS [ST_LOWER, ST_INACTIVE])) .null (guessWS [ST_LOWER, ST_INACTIVE]) o.s.cons ∧
    o.s.cons.getStatus 0 = ST_UPPER ∧ o.s.shallRefactorise (guessWS [ST_LOWER, ST_INACTIVE]) o.s.cons = false ∧
    QPC.UpdateOK o.s (guessWS [ST_LOWER, ST_INACTIVE]) o.s.cons ∧
    QPC.UpdateRunClean rootC o.s (guessWS [ST_LOWER, ST_INACTIVE]) o.s.cons (vec [40,-100]) (some (vec [-2,-100])) (some (vec [100,100]))
      (some (vec [-50])) (some (vec [5])) 10 none ∧
    ∃ o', hotC gen1 [40,-100] (some [-2,-100]) (some [100,100]) (some [-50]) (some [5]) (.other (guessWS [ST_LOWER, ST_INACTIVE])) .null = .ok o' ∧
      o'.rv = SUCCESSFUL_RETURN ∧ o'.nWSR = 0 ∧ o'.s.x 0 = -2 ∧ o'.s.x 1 = 11/4 := by
  obtain ⟨o, e, h⟩ := of_holds (r := gen1) (p := fun o : OutC ℚ => decide (QPC.UpdateOK o.s (guessWS [ST_LOWER, ST_INACTIVE]) o.s.cons) &&
    decide (QPC.UpdateRunClean rootC o.s (guessWS [ST_LOWER, ST_INACTIVE]) o.s.cons (vec [40,-100]) (some (vec [-2,-100])) (some (vec [100,100]))
      (some (vec [-50])) (some (vec [5])) 10 none) &&
    decide (o.s.cons.getStatus 0 = ST_UPPER ∧ o.s.shallRefactorise (guessWS [ST_LOWER, ST_INACTIVE]) o.s.cons = false)) (by decide +kernel)
  rw [Bool.and_eq_true, Bool.and_eq_true] at h
  obtain ⟨⟨h1, h2⟩, h3⟩ := h
  obtain ⟨a1, a2⟩ := of_decide_eq_true h3
  obtain ⟨o', e', h'⟩ := of_holds (r := hotC gen1 [40,-100] (some [-2,-100]) (some [100,100]) (some [-50]) (some [5]) (.other (guessWS [ST_LOWER, ST_INACTIVE])) .null)
    (p := fun o' => decide (o'.rv = SUCCESSFUL_RETURN ∧ o'.nWSR = 0 ∧ o'.s.x 0 = -2 ∧ o'.s.x 1 = 11/4)) (by decide +kernel)
  refine ⟨o, e, Or.inr (Or.inl ⟨rfl, Or.inl rfl, ?_⟩), a1, a2, of_decide_eq_true h1, of_decide_eq_true h2, o', e', of_decide_eq_true h'⟩
  rw [QPC.impliedC, a2]; rfl

/-- A guess for the constraints only: the call meets the hypotheses with no bound guessed active, although x₀ is at its lower bound; the working set is
installed from scratch, and the bound has to be added again. -/
example : ∃ o, gen2 = .ok o ∧ QPC.Guessed o.s .null (.other (guessWS [ST_INACTIVE])) (QPC.noneActive o.s.nV) (guessWS [ST_INACTIVE]) ∧
    o.s.bounds.getStatus 0 = ST_LOWER ∧ o.s.shallRefactorise (QPC.noneActive o.s.nV) (guessWS [ST_INACTIVE]) = true ∧
    QPC.GuessOK o.s (QPC.noneActive o.s.nV) (guessWS [ST_INACTIVE]) ∧
    QPC.GuessRunClean rootC o.s (QPC.noneActive o.s.nV) (guessWS [ST_INACTIVE]) (vec [40,-100]) (some (vec [-2,-100])) (some (vec [100,100]))
      (some (vec [-50])) (some (vec [5])) 10 none ∧
    ∃ o', hotC gen2 [40,-100] (some [-2,-100]) (some [100,100]) (some [-50]) (some [5]) .null (.other (guessWS [ST_INACTIVE])) = .ok o' ∧
      o'.rv = SUCCESSFUL_RETURN ∧ o'.nWSR = 2 ∧ o'.s.x 0 = -2 ∧ o'.s.x 1 = 11/4 := by
  obtain ⟨o, e, h⟩ := of_holds (r := gen2) (p := fun o : OutC ℚ => decide (QPC.GuessOK o.s (QPC.noneActive o.s.nV) (guessWS [ST_INACTIVE])) &&
    decide (QPC.GuessRunClean rootC o.s (QPC.noneActive o.s.nV) (guessWS [ST_INACTIVE]) (vec [40,-100]) (some (vec [-2,-100])) (some (vec [100,100]))
      (some (vec [-50])) (some (vec [5])) 10 none) &&
    decide (o.s.bounds.getStatus 0 = ST_LOWER ∧ o.s.shallRefactorise o.s.bounds (guessWS [ST_INACTIVE]) = true)) (by decide +kernel)
  rw [Bool.and_eq_true, Bool.and_eq_true] at h
  obtain ⟨⟨h1, h2⟩, h3⟩ := h
  obtain ⟨a1, a2⟩ := of_decide_eq_true h3
  obtain ⟨o', e', h'⟩ := of_holds (r := hotC gen2 [40,-100] (some [-2,-100]) (some [100,100]) (some [-50]) (some [5]) .null (.other (guessWS [ST_INACTIVE])))
    (p := fun o' => decide (o'.rv = SUCCESSFUL_RETURN ∧ o'.nWSR = 2 ∧ o'.s.x 0 = -2 ∧ o'.s.x 1 = 11/4)) (by decide +kernel)
  refine ⟨o, e, Or.inr (Or.inr ⟨Or.inl rfl, rfl, ?_⟩), a1, QPC.refactorise_ownB a2, of_decide_eq_true h1, of_decide_eq_true h2, o', e', of_decide_eq_true h'⟩
  rw [QPC.impliedB, a2]; rfl

/-- A guess that drops an active bound: the call meets the hypotheses, too. -/
def gen5 : Res (OutC ℚ) := coldC (startC 3 1 HST_POSDEF plain) (some [4,0,0,0,4,0,0,0,4]) [20,20,0] [3,4,0] [1,1,1] [9,9,9] [-50] [50]

example : ∃ o, gen5 = .ok o ∧ o.rv = SUCCESSFUL_RETURN ∧ o.s.bounds.getStatus 2 = ST_LOWER ∧
    QPC.UpdateOK o.s (guessWS [ST_LOWER, ST_LOWER, ST_INACTIVE]) (guessWS [ST_INACTIVE]) ∧
    o.s.shallRefactorise (guessWS [ST_LOWER, ST_LOWER, ST_INACTIVE]) (guessWS [ST_INACTIVE]) = false ∧
    QPC.UpdateRunClean rootC o.s (guessWS [ST_LOWER, ST_LOWER, ST_INACTIVE]) (guessWS [ST_INACTIVE]) (vec [20,20,-20]) (some (vec [1,1,1]))
      (some (vec [9,9,9])) (some (vec [-50])) (some (vec [50])) 10 none ∧
    ∃ o', hotC gen5 [20,20,-20] (some [1,1,1]) (some [9,9,9]) (some [-50]) (some [50]) (.other (guessWS [ST_LOWER, ST_LOWER, ST_INACTIVE]))
      (.other (guessWS [ST_INACTIVE])) = .ok o' ∧ o'.rv = SUCCESSFUL_RETURN ∧ o'.nWSR = 0 ∧ o'.s.x 2 = 5 := by
  obtain ⟨o, e, h⟩ := of_holds (r := gen5) (p := fun o : OutC ℚ => decide (o.rv = SUCCESSFUL_RETURN ∧ o.s.bounds.getStatus 2 = ST_LOWER ∧
      QPC.UpdateOK o.s (guessWS [ST_LOWER, ST_LOWER, ST_INACTIVE]) (guessWS [ST_INACTIVE]) ∧
      o.s.shallRefactorise (guessWS [ST_LOWER, ST_LOWER, ST_INACTIVE]) (guessWS [ST_INACTIVE]) = false ∧
      QPC.UpdateRunClean rootC o.s (guessWS [ST_LOWER, ST_LOWER, ST_INACTIVE]) (guessWS [ST_INACTIVE]) (vec [20,20,-20]) (some (vec [1,1,1]))
        (some (vec [9,9,9])) (some (vec [-50])) (some (vec [50])) 10 none)) (by decide +kernel)
  obtain ⟨h1, h2, h3, h4, h5⟩ := of_decide_eq_true h
  obtain ⟨o', e', h'⟩ := of_holds (r := hotC gen5 [20,20,-20] (some [1,1,1]) (some [9,9,9]) (some [-50]) (some [50])
      (.other (guessWS [ST_LOWER, ST_LOWER, ST_INACTIVE])) (.other (guessWS [ST_INACTIVE])))
    (p := fun o' => decide (o'.rv = SUCCESSFUL_RETURN ∧ o'.nWSR = 0 ∧ o'.s.x 2 = 5)) (by decide +kernel)
  exact ⟨o, e, h1, h2, h3, h4, h5, o', e', of_decide_eq_true h'⟩

/-- A guess that fixes all variables while no constraint is active: the call meets the hypotheses, too. -/
def gen6 : Res (OutC ℚ) := coldC (startC 3 1 HST_POSDEF plain) (some [4,0,0,0,4,0,0,0,4]) [20,20,-20] [3,4,0] [1,1,1] [9,9,9] [-50] [50]

example : ∃ o, gen6 = .ok o ∧ o.rv = SUCCESSFUL_RETURN ∧ o.s.bounds.getStatus 2 = ST_INACTIVE ∧
    QPC.UpdateOK o.s (guessWS [ST_LOWER, ST_LOWER, ST_LOWER]) (guessWS [ST_INACTIVE]) ∧
    o.s.isTrivial (some (guessWS [ST_LOWER, ST_LOWER, ST_LOWER])) (some (guessWS [ST_INACTIVE])) = true ∧
    o.s.shallRefactorise (guessWS [ST_LOWER, ST_LOWER, ST_LOWER]) (guessWS [ST_INACTIVE]) = false ∧
    QPC.UpdateRunClean rootC o.s (guessWS [ST_LOWER, ST_LOWER, ST_LOWER]) (guessWS [ST_INACTIVE]) (vec [20,20,20]) (some (vec [1,1,1]))
      (some (vec [9,9,9])) (some (vec [-50])) (some (vec [50])) 10 none ∧
    ∃ o', hotC gen6 [20,20,20] (some [1,1,1]) (some [9,9,9]) (some [-50]) (some [50]) (.other (guessWS [ST_LOWER, ST_LOWER, ST_LOWER]))
      (.other (guessWS [ST_INACTIVE])) = .ok o' ∧ o'.rv = SUCCESSFUL_RETURN ∧ o'.nWSR = 0 ∧ o'.s.x 2 = 1 := by
  obtain ⟨o, e, h⟩ := of_holds (r := gen6) (p := fun o : OutC ℚ => decide (o.rv = SUCCESSFUL_RETURN ∧ o.s.bounds.getStatus 2 = ST_INACTIVE ∧
      QPC.UpdateOK o.s (guessWS [ST_LOWER, ST_LOWER, ST_LOWER]) (guessWS [ST_INACTIVE]) ∧
      o.s.isTrivial (some (guessWS [ST_LOWER, ST_LOWER, ST_LOWER])) (some (guessWS [ST_INACTIVE])) = true ∧
      o.s.shallRefactorise (guessWS [ST_LOWER, ST_LOWER, ST_LOWER]) (guessWS [ST_INACTIVE]) = false ∧
      QPC.UpdateRunClean rootC o.s (guessWS [ST_LOWER, ST_LOWER, ST_LOWER]) (guessWS [ST_INACTIVE]) (vec [20,20,20]) (some (vec [1,1,1]))
        (some (vec [9,9,9])) (some (vec [-50])) (some (vec [50])) 10 none)) (by decide +kernel)
  obtain ⟨h1, h2, h3, h4, h5, h6⟩ := of_decide_eq_true h
  obtain ⟨o', e', h'⟩ := of_holds (r := hotC gen6 [20,20,20] (some [1,1,1]) (some [9,9,9]) (some [-50]) (some [50])
      (.other (guessWS [ST_LOWER, ST_LOWER, ST_LOWER])) (.other (guessWS [ST_INACTIVE])))
    (p := fun o' => decide (o'.rv = SUCCESSFUL_RETURN ∧ o'.nWSR = 0 ∧ o'.s.x 2 = 1)) (by decide +kernel)
  exact ⟨o, e, h1, h2, h3, h4, h5, h6, o', e', of_decide_eq_true h'⟩

/-! #### the same with the default options: ramping and far bounds -/

def far0 : QPC ℚ := startC 2 1 HST_POSDEF Options.setToDefault
def far1 : Res (OutC ℚ) := coldC far0 (some [4,0,0,25]) [-20,-50] [3,4] [-100,-100] [100,100] [-50] [5]
def far0c : QPC ℚ := far0.coldData (some (vec [4,0,0,25])) (vec [-20,-50]) (vec [3,4]) (some (vec [-100,-100])) (some (vec [100,100]))
  (some (vec [-50])) (some (vec [5]))
/-- Hotstart without upper limits: the solution is beyond the first far bound, which is 10⁶. -/
def far2 : Res (OutC ℚ) := hotC far1 [-20000000,-50] (some [-2,-100]) none (some [-50]) none .null .null

theorem far0_admissible : QPC.Admissible far0 (lowerOf (some (vec [-100,-100]))) (upperOf (some (vec [100,100]))) (lowerOf (some (vec [-50])))
    (upperOf (some (vec [5]))) := by
  refine ⟨⟨?_, ?_, ?_, Or.inl ?_, ?_, ?_⟩, ?_, ?_, ?_, ?_, ?_, ?_, ?_⟩
  all_goals decide +kernel

theorem far0_far : QPC.FarOptions far0.options := ⟨by decide +kernel, by decide +kernel, by decide +kernel, by decide +kernel, by decide +kernel⟩

theorem far0_usable : QPC.Usable far0 := .fresh 2 1 HST_POSDEF _ Options.setToDefault

theorem far0_hessian : GivenHessian far0c.toQPB gen0H :=
  ⟨fun h => (by cases h), fun _ => ⟨by decide, rfl⟩, fun h => (by cases h)⟩

theorem far1_session : ∃ o, far1 = .ok o ∧ o.rv = SUCCESSFUL_RETURN ∧ o.nWSR = 3 ∧ o.s.tau = 1 ∧ o.s.x 0 = 95/289 ∧ o.s.x 1 = 290/289 ∧
    SessionC rootC 5 2 1 gen0H gen0A (lowerOf (some (vec [-50]))) (upperOf (some (vec [5]))) o.s := by
  obtain ⟨o, e, h⟩ := of_holds (r := far1) (p := fun o => decide (o.rv = SUCCESSFUL_RETURN ∧ o.nWSR = 3 ∧ o.s.tau = 1 ∧ o.s.x 0 = 95/289 ∧ o.s.x 1 = 290/289))
    (by decide +kernel)
  obtain ⟨h1, h2, h3, h4, h5⟩ := of_decide_eq_true h
  refine ⟨o, e, h1, h2, h3, h4, h5, SessionC.initFar far0_usable rfl rfl far0_far rfl rfl rfl far0_admissible far0_hessian gen0_symmetric ?_ ?_ (startsAt_all rootC far0c none none none none 10 none ?_) e
    (Or.inl h1)⟩
  · intro H h
    obtain rfl : gen0H = H := Option.some.inj h
    exact gen0_symmetric
  · show QPC.StartClean rootC far0c none none none none 10 none
    decide +kernel
  · show ∀ s', prepareInitialQP rootC { far0c with toQPB := (far0c.toQPB.startClock none).2 } none none none none none 10 none = .ok (.ok s') →
      ∀ s2, setupInitialCholesky rootC { s' with toQPB := { (s'.toQPB.stopClock none (far0c.toQPB.startClock none).1).2 with
        count := (s'.toQPB.stopClock none (far0c.toQPB.startClock none).1).2.count + 1 } } = .ok (SUCCESSFUL_RETURN, s2) →
      FarRunClean rootC 5 s2 (vec [-20,-50]) (some (vec [-100,-100])) (some (vec [100,100])) (some far0c.lbA) (some far0c.ubA) 10 none
    decide +kernel

/-- The hotstart takes two rounds, with far bounds 10⁶ and 10⁹. -/
theorem far2_solved : ∃ o, far1 = .ok o ∧ QPC.FarOptions o.s.options ∧
    QPC.FarRunClean rootC 5 { o.s with count := o.s.count + 1 } (vec [-20000000,-50]) (some (vec [-2,-100])) none (some (vec [-50])) none 10 none ∧
    ∃ o', far2 = .ok o' ∧ o'.rv = SUCCESSFUL_RETURN ∧ o'.s.tau = 1 ∧ o'.s.x 0 = 5000000 ∧ o'.s.x 1 = 2 ∧
      SessionC rootC 5 2 1 gen0H gen0A (lowerOf (some (vec [-50]))) (upperOf (some (vec [5]))) o'.s := by
  obtain ⟨o, e, _, _, _, _, _, hs⟩ := far1_session
  obtain ⟨o1, e1, h⟩ := of_holds (r := far1) (p := fun o : OutC ℚ => decide (o.s.options.enableFarBounds = true ∧ 0 < o.s.options.initialFarBounds ∧
      0 < o.s.options.growFarBounds ∧ 0 < o.s.options.boundTolerance ∧ 0 < o.s.options.epsDen) &&
    decide (QPC.FarRunClean rootC 5 { o.s with count := o.s.count + 1 } (vec [-20000000,-50]) (some (vec [-2,-100])) none (some (vec [-50])) none 10 none))
    (by decide +kernel)
  rw [e] at e1
  cases e1
  rw [Bool.and_eq_true] at h
  obtain ⟨h1, h2, h3, h4, h5⟩ := of_decide_eq_true h.1
  obtain ⟨o', e', h'⟩ := of_holds (r := far2) (p := fun o' => decide (o'.rv = SUCCESSFUL_RETURN ∧ o'.s.tau = 1 ∧ o'.s.x 0 = 5000000 ∧ o'.s.x 1 = 2))
    (by decide +kernel)
  obtain ⟨r1, r2, r3, r4⟩ := of_decide_eq_true h'
  refine ⟨o, e, ⟨h1, h2, h3, h4, h5⟩, of_decide_eq_true h.2, o', e', r1, r2, r3, r4, ?_⟩
  unfold far2 hotC at e'
  rw [e] at e'
  refine SessionC.hotstartFar hs (g := vec [-20000000,-50]) (lb := some (vec [-2,-100])) (ub := none) (lbA := some (vec [-50]))
    (ubA := none) ⟨h1, h2, h3, h4, h5⟩ ?_ ?_ (of_decide_eq_true h.2) e' (Or.inl r1)
  · decide +kernel
  · decide +kernel

/-- Hotstarts with far bounds and the guess that only the lower bound of x₀ is active, resp. the guess that the constraint is active, too -/
def far3 (c : SubjectToStatus) : Res (OutC ℚ) := hotC far1 [40,-100] (some [-2,-100]) (some [100,100]) (some [-50]) (some [5])
  (.other (guessWS [ST_LOWER, ST_INACTIVE])) (.other (guessWS [c]))

/-- Both calls meet the hypotheses; the first guess is installed from scratch, the second one by updates. -/
theorem far3_solved : ∃ o, far1 = .ok o ∧ QPC.FarOptions o.s.options ∧ (∀ i : Nat, i < 2 → o.s.lb i ≤ o.s.x i ∧ o.s.x i ≤ o.s.ub i) ∧
    (∀ k : Nat, k < 1 → o.s.lbA k ≤ o.s.prodA o.s.x k ∧ o.s.prodA o.s.x k ≤ o.s.ubA k) ∧
    (QPC.GuessOK o.s (guessWS [ST_LOWER, ST_INACTIVE]) (guessWS [ST_INACTIVE]) ∧
      o.s.shallRefactorise (guessWS [ST_LOWER, ST_INACTIVE]) (guessWS [ST_INACTIVE]) = true ∧
      QPC.AfreshClean rootC (o.s.guessStart none) (guessWS [ST_LOWER, ST_INACTIVE]) (guessWS [ST_INACTIVE]) ∧
      QPC.FarAfter rootC 5 o.s (guessWS [ST_LOWER, ST_INACTIVE]) (guessWS [ST_INACTIVE]) (vec [40,-100]) (some (vec [-2,-100])) (some (vec [100,100]))
        (some (vec [-50])) (some (vec [5])) 10 none ∧
      ∃ o', far3 ST_INACTIVE = .ok o' ∧ o'.rv = SUCCESSFUL_RETURN ∧ o'.s.tau = 1 ∧ o'.s.x 0 = -2 ∧ o'.s.x 1 = 11/4) ∧
    (QPC.UpdateOK o.s (guessWS [ST_LOWER, ST_INACTIVE]) (guessWS [ST_UPPER]) ∧
      o.s.shallRefactorise (guessWS [ST_LOWER, ST_INACTIVE]) (guessWS [ST_UPPER]) = false ∧
      QPC.UpdatedClean rootC (o.s.guessStart none) (guessWS [ST_LOWER, ST_INACTIVE]) (guessWS [ST_UPPER]) ∧
      QPC.FarAfter rootC 5 o.s (guessWS [ST_LOWER, ST_INACTIVE]) (guessWS [ST_UPPER]) (vec [40,-100]) (some (vec [-2,-100])) (some (vec [100,100]))
        (some (vec [-50])) (some (vec [5])) 10 none ∧
      ∃ o', far3 ST_UPPER = .ok o' ∧ o'.rv = SUCCESSFUL_RETURN ∧ o'.s.tau = 1 ∧ o'.s.x 0 = -2 ∧ o'.s.x 1 = 11/4) := by
  obtain ⟨o, e, h⟩ := of_holds (r := far1) (p := fun o : OutC ℚ => decide (o.s.options.enableFarBounds = true ∧ 0 < o.s.options.initialFarBounds ∧
      0 < o.s.options.growFarBounds ∧ 0 < o.s.options.boundTolerance ∧ 0 < o.s.options.epsDen) && (decide ((∀ i : Nat, i < 2 → o.s.lb i ≤ o.s.x i ∧ o.s.x i ≤ o.s.ub i) ∧
    (∀ k : Nat, k < 1 → o.s.lbA k ≤ o.s.prodA o.s.x k ∧ o.s.prodA o.s.x k ≤ o.s.ubA k)) &&
    (decide (QPC.GuessOK o.s (guessWS [ST_LOWER, ST_INACTIVE]) (guessWS [ST_INACTIVE]) ∧
      o.s.shallRefactorise (guessWS [ST_LOWER, ST_INACTIVE]) (guessWS [ST_INACTIVE]) = true ∧
      QPC.AfreshClean rootC (o.s.guessStart none) (guessWS [ST_LOWER, ST_INACTIVE]) (guessWS [ST_INACTIVE]) ∧
      QPC.FarAfter rootC 5 o.s (guessWS [ST_LOWER, ST_INACTIVE]) (guessWS [ST_INACTIVE]) (vec [40,-100]) (some (vec [-2,-100])) (some (vec [100,100]))
        (some (vec [-50])) (some (vec [5])) 10 none) &&
    decide (QPC.UpdateOK o.s (guessWS [ST_LOWER, ST_INACTIVE]) (guessWS [ST_UPPER]) ∧
      o.s.shallRefactorise (guessWS [ST_LOWER, ST_INACTIVE]) (guessWS [ST_UPPER]) = false ∧
      QPC.UpdatedClean rootC (o.s.guessStart none) (guessWS [ST_LOWER, ST_INACTIVE]) (guessWS [ST_UPPER]) ∧
      QPC.FarAfter rootC 5 o.s (guessWS [ST_LOWER, ST_INACTIVE]) (guessWS [ST_UPPER]) (vec [40,-100]) (some (vec [-2,-100])) (some (vec [100,100]))
        (some (vec [-50])) (some (vec [5])) 10 none)))) (by decide +kernel)
  rw [Bool.and_eq_true, Bool.and_eq_true, Bool.and_eq_true] at h
  obtain ⟨h1, h2, h3, h4⟩ := h
  obtain ⟨a1, a2, a3, a4, a5⟩ := of_decide_eq_true h1
  obtain ⟨b1, b2⟩ := of_decide_eq_true h2
  obtain ⟨c1, c2, c3, c4⟩ := of_decide_eq_true h3
  obtain ⟨d1, d2, d3, d4⟩ := of_decide_eq_true h4
  obtain ⟨o', e', h'⟩ := of_holds (r := far3 ST_INACTIVE) (p := fun o' => decide (o'.rv = SUCCESSFUL_RETURN ∧ o'.s.tau = 1 ∧ o'.s.x 0 = -2 ∧ o'.s.x 1 = 11/4))
    (by decide +kernel)
  obtain ⟨o'', e'', h''⟩ := of_holds (r := far3 ST_UPPER) (p := fun o' => decide (o'.rv = SUCCESSFUL_RETURN ∧ o'.s.tau = 1 ∧ o'.s.x 0 = -2 ∧ o'.s.x 1 = 11/4))
    (by decide +kernel)
  exact ⟨o, e, ⟨a1, a2, a3, a4, a5⟩, b1, b2, ⟨c1, c2, c3, c4, o', e', of_decide_eq_true h'⟩, d1, d2, d3, d4, o'', e'', of_decide_eq_true h''⟩

/-! #### the same with the options for MPC, which switch on regularisation; a positive definite Hessian needs none -/

def mpc0 : QPC ℚ := startC 2 1 HST_POSDEF Options.setToMPC
def mpc1 : Res (OutC ℚ) := coldC mpc0 (some [4,0,0,25]) [-20,-50] [3,4] [-100,-100] [100,100] [-50] [5]
def mpc0c : QPC ℚ := mpc0.coldData (some (vec [4,0,0,25])) (vec [-20,-50]) (vec [3,4]) (some (vec [-100,-100])) (some (vec [100,100]))
  (some (vec [-50])) (some (vec [5]))

theorem mpc0_admissible : QPC.Admissible mpc0 (lowerOf (some (vec [-100,-100]))) (upperOf (some (vec [100,100]))) (lowerOf (some (vec [-50])))
    (upperOf (some (vec [5]))) := by
  refine ⟨⟨?_, ?_, ?_, Or.inr ?_, ?_, ?_⟩, ?_, ?_, ?_, ?_, ?_, ?_, ?_⟩
  all_goals decide +kernel

theorem mpc1_session : mpc0.options.enableRegularisation = true ∧ ∃ o, mpc1 = .ok o ∧ o.rv = SUCCESSFUL_RETURN ∧ o.s.tau = 1 ∧ o.s.x 0 = 95/289 ∧
    o.s.x 1 = 290/289 ∧ SessionC rootC 5 2 1 gen0H gen0A (lowerOf (some (vec [-50]))) (upperOf (some (vec [5]))) o.s := by
  obtain ⟨o, e, h⟩ := of_holds (r := mpc1) (p := fun o => decide (o.rv = SUCCESSFUL_RETURN ∧ o.s.tau = 1 ∧ o.s.x 0 = 95/289 ∧ o.s.x 1 = 290/289))
    (by decide +kernel)
  obtain ⟨h1, h3, h4, h5⟩ := of_decide_eq_true h
  refine ⟨by decide +kernel, o, e, h1, h3, h4, h5, SessionC.initFar (.fresh 2 1 HST_POSDEF _ Options.setToMPC) rfl rfl ⟨by decide +kernel, by decide +kernel, by decide +kernel, by decide +kernel, by decide +kernel⟩
    rfl rfl rfl mpc0_admissible ⟨fun h => (by cases h), fun _ => ⟨by decide, rfl⟩, fun h => (by cases h)⟩ gen0_symmetric ?_ ?_
    (startsAt_all rootC mpc0c none none none none 10 none ?_) e (Or.inl h1)⟩
  · intro H h
    obtain rfl : gen0H = H := Option.some.inj h
    exact gen0_symmetric
  · show QPC.StartClean rootC mpc0c none none none none 10 none
    decide +kernel
  · show ∀ s', prepareInitialQP rootC { mpc0c with toQPB := (mpc0c.toQPB.startClock none).2 } none none none none none 10 none = .ok (.ok s') →
      ∀ s2, setupInitialCholesky rootC { s' with toQPB := { (s'.toQPB.stopClock none (mpc0c.toQPB.startClock none).1).2 with
        count := (s'.toQPB.stopClock none (mpc0c.toQPB.startClock none).1).2.count + 1 } } = .ok (SUCCESSFUL_RETURN, s2) →
      FarRunClean rootC 5 s2 (vec [-20,-50]) (some (vec [-100,-100])) (some (vec [100,100])) (some mpc0c.lbA) (some mpc0c.ubA) 10 none
    decide +kernel

/-! ### the claim fails for a guess of the multipliers -/

/-- Cold start from guesses of the primal and dual solution -/
def guessC (s : QPC ℚ) (g A l u lA uA x y : List ℚ) : Res (OutC ℚ) :=
  QPC.init rootC 5 s none (some (vec g)) (some (vec A)) (some (vec l)) (some (vec u)) (some (vec lA)) (some (vec uA)) 10 none
    (some (vec x)) (some (vec y)) none none none

/-- **C34, C53 violated**: minimise ½x² - 3x subject to x ≥ 1 and x ≥ -1, with the guess 0 for the solution and 1/2 for both multipliers,
with the options for MPC.  Only one of the two constraints can be active, but both multipliers are kept: the cold start returns
`SUCCESSFUL_RETURN` and 7/2 instead of 3, with a multiplier of the second constraint that is far from its limit. -/
theorem C34_dual_guess_violated : ∃ o, guessC (startC 1 2 HST_IDENTITY Options.setToMPC) [-3] [1,1] [-100] [100] [1,-1] [100,100] [0] [0,1/2,1/2] = .ok o ∧
    o.rv = SUCCESSFUL_RETURN ∧ o.s.status = QPS_SOLVED ∧ o.s.x 0 = 7/2 ∧ o.s.y 2 = 1/2 ∧ o.s.cons.getStatus 1 = ST_INACTIVE ∧
    ¬ (qpOf 1 2 [1] [-3] [1,1] [-100] [100] [1,-1] [100,100]).IsMinimiser o.s.x := by
  obtain ⟨o, e, h⟩ := of_holds (r := guessC (startC 1 2 HST_IDENTITY Options.setToMPC) [-3] [1,1] [-100] [100] [1,-1] [100,100] [0] [0,1/2,1/2])
    (p := fun o => decide (o.rv = SUCCESSFUL_RETURN ∧ o.s.status = QPS_SOLVED ∧ o.s.x 0 = 7/2 ∧ o.s.y 2 = 1/2 ∧ o.s.cons.getStatus 1 = ST_INACTIVE))
    (by decide +kernel)
  obtain ⟨h1, h2, h3, h4, h5⟩ := of_decide_eq_true h
  refine ⟨o, e, h1, h2, h3, h4, h5, fun hm => ?_⟩
  have hz : (qpOf 1 2 [1] [-3] [1,1] [-100] [100] [1,-1] [100,100]).Feasible (vec [3]) := by
    constructor
    · intro i hi; obtain rfl : i = 0 := Nat.lt_one_iff.1 hi; simp [qpOf, vec]; norm_num
    · intro i hi; obtain rfl : i = 0 := Nat.lt_one_iff.1 hi; simp [qpOf, vec]; norm_num
    · intro k hk
      have hk' : k = 0 ∨ k = 1 := by have : k < 2 := hk; omega
      rcases hk' with rfl | rfl <;> simp [qpOf, QP.row, sum_range_succ, vec] <;> norm_num
    · intro k hk
      have hk' : k = 0 ∨ k = 1 := by have : k < 2 := hk; omega
      rcases hk' with rfl | rfl <;> simp [qpOf, QP.row, sum_range_succ, vec] <;> norm_num
  have := hm.2 _ hz
  simp [qpOf, QP.obj, QP.row, sum_range_succ, h3, vec] at this
  norm_num at this

/-! ### the claim fails for a guess that contradicts the multipliers -/

/-- Minimise ½x² - 3x for 0 ≤ x ≤ 1, -5 ≤ x ≤ 5: solved with 1 and the multiplier -2 -/
def sgn0 : Res (OutC ℚ) := coldC (startC 1 1 HST_IDENTITY plain) none [-3] [1] [0] [1] [-5] [5]
/-- The same problem again, with the guess that the lower bound is active -/
def sgn1 : Res (OutC ℚ) := hotC sgn0 [-3] (some [0]) (some [1]) (some [-5]) (some [5]) (.other (guessWS [ST_LOWER])) .null

/-- **C34, C53 violated**: the hotstart keeps the multiplier of the former solution, which has the wrong sign for the guessed bound.  The ratio test
skips multipliers of the wrong sign, so nothing blocks: the hotstart returns `SUCCESSFUL_RETURN` and 0, where the objective is greatest. -/
theorem C34_guess_sign_violated : ∃ o o', sgn0 = .ok o ∧ o.rv = SUCCESSFUL_RETURN ∧ o.s.x 0 = 1 ∧ o.s.y 0 = -2 ∧ sgn1 = .ok o' ∧
    o'.rv = SUCCESSFUL_RETURN ∧ o'.s.status = QPS_SOLVED ∧ o'.s.x 0 = 0 ∧ o'.s.y 0 = -3 ∧ o'.s.bounds.getStatus 0 = ST_LOWER ∧
    ¬ (qpOf 1 1 [1] [-3] [1] [0] [1] [-5] [5]).IsMinimiser o'.s.x := by
  obtain ⟨o, e, h⟩ := of_holds (r := sgn0) (p := fun o => decide (o.rv = SUCCESSFUL_RETURN ∧ o.s.x 0 = 1 ∧ o.s.y 0 = -2)) (by decide +kernel)
  obtain ⟨o', e', h'⟩ := of_holds (r := sgn1) (p := fun o => decide (o.rv = SUCCESSFUL_RETURN ∧ o.s.status = QPS_SOLVED ∧ o.s.x 0 = 0 ∧ o.s.y 0 = -3 ∧
    o.s.bounds.getStatus 0 = ST_LOWER)) (by decide +kernel)
  obtain ⟨a1, a2, a3⟩ := of_decide_eq_true h
  obtain ⟨h1, h2, h3, h4, h5⟩ := of_decide_eq_true h'
  refine ⟨o, o', e, a1, a2, a3, e', h1, h2, h3, h4, h5, fun hm => ?_⟩
  have hz : (qpOf 1 1 [1] [-3] [1] [0] [1] [-5] [5]).Feasible (vec [1]) := by
    constructor
    · intro i hi; obtain rfl : i = 0 := Nat.lt_one_iff.1 hi; simp [qpOf, vec]
    · intro i hi; obtain rfl : i = 0 := Nat.lt_one_iff.1 hi; simp [qpOf, vec]
    · intro k hk
      obtain rfl : k = 0 := Nat.lt_one_iff.1 hk
      simp [qpOf, QP.row, sum_range_succ, vec]; norm_num
    · intro k hk
      obtain rfl : k = 0 := Nat.lt_one_iff.1 hk
      simp [qpOf, QP.row, sum_range_succ, vec]
  have := hm.2 _ hz
  simp [qpOf, QP.obj, QP.row, sum_range_succ, h3, vec] at this
  norm_num at this

/-! ### the claim fails for a guess that fixes all variables -/

/-- Minimise 2|x|² + 10x₀ + 10x₁ + 10x₂ - 100x₃ for 0 ≤ x ≤ 100, 3x₂ + 4x₃ ≤ 4: solved with (0,0,0,1), where the constraint is active -/
def vtx0 : Res (OutC ℚ) := coldC (startC 4 1 HST_POSDEF plain) (some [4,0,0,0,0,4,0,0,0,0,4,0,0,0,0,4]) [10,10,10,-100] [0,0,3,4] [0,0,0,0]
  [100,100,100,100] [-50] [4]
def vtxB : WS := guessWS [ST_LOWER, ST_LOWER, ST_LOWER, ST_UPPER]
def vtxC : WS := guessWS [ST_INACTIVE]
/-- Greater limit of the constraint, smaller limit of x₃, with a guess of the working set -/
def vtx1 (gB gC : QPB.Guess) : Res (OutC ℚ) := hotC vtx0 [10,10,10,-1000] (some [0,0,0,0]) (some [100,100,100,3]) (some [-50]) (some [8]) gB gC

/-- **C34, C52, C53 violated**: the guess that all variables are at a bound and no constraint is active differs from the working set of the former
solution in two members only, so that it is to be installed by updates.  But `setupAuxiliaryWorkingSet` (src/QProblem.cpp:2384-2408) takes such a guess for a cold
start: it fixes the free variables and leaves the active constraint in the working set, which now has five members for four variables.  The constraint is
no longer watched: the hotstart returns `SUCCESSFUL_RETURN` with (0,0,0,3), where the constraint has the value 12 and the limit is 8.  The guess meets
all the conditions of `C34_guessed_update_partial` on guesses except that no constraint may be active if the guess is of this kind.  Without the guess the hotstart returns (0,0,0,2). -/
theorem C34_vertex_guess_violated : ∃ o o' o'', vtx0 = .ok o ∧ o.rv = SUCCESSFUL_RETURN ∧ QPC.UpdateOK o.s vtxB vtxC ∧
    o.s.shallRefactorise vtxB vtxC = false ∧ o.s.cons.getStatus 0 = ST_UPPER ∧
    vtx1 (.other vtxB) (.other vtxC) = .ok o' ∧ o'.rv = SUCCESSFUL_RETURN ∧ o'.s.status = QPS_SOLVED ∧ o'.s.tau = 1 ∧
    o'.s.bounds.nFX + o'.s.cons.nFX = 5 ∧ (∀ i < 3, o'.s.x i = 0) ∧ o'.s.x 3 = 3 ∧
    ¬ (qpOf 4 1 [4,0,0,0,0,4,0,0,0,0,4,0,0,0,0,4] [10,10,10,-1000] [0,0,3,4] [0,0,0,0] [100,100,100,3] [-50] [8]).Feasible o'.s.x ∧
    vtx1 .null .null = .ok o'' ∧ o''.rv = SUCCESSFUL_RETURN ∧ (∀ i < 3, o''.s.x i = 0) ∧ o''.s.x 3 = 2 := by
  obtain ⟨o, e, h⟩ := of_holds (r := vtx0) (p := fun o => decide (o.rv = SUCCESSFUL_RETURN ∧ QPC.UpdateOK o.s vtxB vtxC ∧
    o.s.shallRefactorise vtxB vtxC = false ∧ o.s.cons.getStatus 0 = ST_UPPER)) (by decide +kernel)
  obtain ⟨o', e', h'⟩ := of_holds (r := vtx1 (.other vtxB) (.other vtxC)) (p := fun o' => decide (o'.rv = SUCCESSFUL_RETURN ∧ o'.s.status = QPS_SOLVED ∧ o'.s.tau = 1 ∧
    o'.s.bounds.nFX + o'.s.cons.nFX = 5 ∧ (∀ i : Nat, i < 3 → o'.s.x i = 0) ∧ o'.s.x 3 = 3)) (by decide +kernel)
  obtain ⟨o'', e'', h''⟩ := of_holds (r := vtx1 .null .null) (p := fun o' => decide (o'.rv = SUCCESSFUL_RETURN ∧ (∀ i : Nat, i < 3 → o'.s.x i = 0) ∧
    o'.s.x 3 = 2)) (by decide +kernel)
  obtain ⟨a1, a2, a3, a4⟩ := of_decide_eq_true h
  obtain ⟨b1, b2, b3, b4, b5, b6⟩ := of_decide_eq_true h'
  obtain ⟨c1, c2, c3⟩ := of_decide_eq_true h''
  refine ⟨o, o', o'', e, a1, a2, a3, a4, e', b1, b2, b3, b4, b5, b6, fun hf => ?_, e'', c1, c2, c3⟩
  have := hf.upperA 0 (by decide)
  simp [qpOf, QP.row, sum_range_succ, b6, b5 2, vec] at this
  norm_num at this

end

end QpOASES.Props
