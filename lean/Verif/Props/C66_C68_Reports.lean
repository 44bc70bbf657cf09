import Verif.Proofs.QPCVerdict
import Verif.Props.C34_General
import Verif.Props.C35_Certificate
import Mathlib.Tactic.IntervalCases

/-!
C66 - C68: what it means when init and hotstart report an infeasible or an unbounded QP, and when they do not.
-/
namespace QpOASES.Props
open Finset Spec QPC ReturnValue SubjectToStatus SubjectToType HessianType QProblemStatus
open QPB (lowerOf upperOf GivenHessian EqualitiesOK)

set_option linter.unusedSectionVars false

variable {K : Type} [Field K] [LinearOrder K] [IsStrictOrderedRing K]

/-! ### C66: reports of infeasibility -/

/-- What such a report says about the QP with the constraint matrix of the user. -/
theorem report_infeasible {n m : Nat} {M A : Nat → Nat → K} {l0 u0 : Nat → K} {s : QPC K} (h : QPC.Live n m M A l0 u0 s) {g l u lA uA lA' uA' : Nat → K}
    (hl : ∀ k < m, lA' k = lA k) (hu : ∀ k < m, uA' k = uA k)
    (hv : QPC.Verdict s g l u lA' uA') (hi : s.infeasible = true) :
    (QPC.qp n m M g l u A lA uA).Infeasible ∨ (QPC.qp n m M g l u A lA uA).HugeMultiplier s.y s.options.maxDualJump := by
  obtain rfl := h.nV
  obtain rfl := h.nC
  have hrow : ∀ x, ∀ k < s.nC, QP.row s.nV A x k = QP.row s.nV s.A x k := fun x k hk => by
    unfold QP.row; rw [h.mat k hk]
  rcases hv.infeasible hi with hf | ⟨v, w, h1, h2, h3⟩
  · refine Or.inl fun x hx => hf x ⟨hx.lower, hx.upper, fun k hk => ?_, fun k hk => ?_⟩
    · show lA' k ≤ QP.row s.nV s.A x k
      rw [← hrow x k hk, hl k hk]; exact hx.lowerA k hk
    · show QP.row s.nV s.A x k ≤ uA' k
      rw [← hrow x k hk, hu k hk]; exact hx.upperA k hk
  · refine Or.inr ⟨v, w, fun i hi => ?_, h2, h3⟩
    rw [← h1 i hi]
    show v i + ∑ k ∈ range s.nC, A k i * w k = v i + ∑ k ∈ range s.nC, s.A k i * w k
    congr 1
    exact sum_congr rfl fun k hk => by rw [h.mat k (mem_range.1 hk)]

/-- **C66** (part): when a cold start reports infeasibility, no point satisfies all limits, unless a multiplier is at least `maxDualJump` times as
large as the coefficient of its limit in a linear dependency between limits.  Limits that count as infinite are taken as numbers. -/
theorem C66_init_partial {sq : K → K} (fuel : Nat) {s : QPC K} (hs : QPC.Usable s) (hfar : s.options.enableFarBounds = false) (hden : 0 < s.options.epsDen)
    {H : Option (Nat → K)} {g a : Nat → K}
    {lb ub lbA ubA : Option (Nat → K)} (ha : QPC.Admissible s (lowerOf lb) (upperOf ub) (lowerOf lbA) (upperOf ubA))
    (habs : ∀ k < s.nC, lowerOf lbA k < -INFTY + s.options.boundTolerance → INFTY - s.options.boundTolerance < upperOf ubA k →
      lowerOf lbA k ≤ -INFTY ∧ INFTY ≤ upperOf ubA k)
    {M : Nat → Nat → K} (hM : GivenHessian (s.coldData H g a lb ub lbA ubA).toQPB M) (hsym : QP.Symmetric s.nV M)
    (hst : (s.coldData H g a lb ub lbA ubA).SymH) {nWSR : Int} {cputime : Option K} {xOpt yOpt : Option (Nat → K)} {gB gC : Option WS}
    (hc : QPC.ColdClean sq (s.coldData H g a lb ub lbA ubA) xOpt yOpt gB gC nWSR cputime) {o : OutC K}
    (ho : QPC.init sq fuel s H (some g) (some a) lb ub lbA ubA nWSR cputime xOpt yOpt gB gC none = .ok o)
    (hr : o.rv = RET_INIT_FAILED_INFEASIBILITY) :
    (QPC.qp s.nV s.nC M g (lowerOf lb) (upperOf ub) (fun k j => a (k * s.nV + j)) (lowerOf lbA) (upperOf ubA)).Infeasible ∨
    (QPC.qp s.nV s.nC M g (lowerOf lb) (upperOf ub) (fun k j => a (k * s.nV + j)) (lowerOf lbA) (upperOf ubA)).HugeMultiplier o.s.y
      s.options.maxDualJump := by
  obtain ⟨h1, h2, h3, h4, -⟩ := QPC.init_report fuel hs hfar hden ha habs hM hsym hst hc ho (Or.inl hr)
  have c := hs.cold H g a lb ub lbA ubA
  rw [← h3]
  exact report_infeasible h2 (fun k hk => by rw [(c.data (by rw [c.nC]; omega)).2.1]) (fun k hk => by rw [(c.data (by rw [c.nC]; omega)).2.2]) h1 (h4 hr)

/-- **C66** (part): the same for a hotstart after any history. -/
theorem C66_hotstart_partial {sq : K → K} {fuel n m : Nat} {M A : Nat → Nat → K} {l0 u0 : Nat → K} {s : QPC K}
    (h : SessionC sq fuel n m M A l0 u0 s) (hfar : s.options.enableFarBounds = false) (hden : 0 < s.options.epsDen) {g : Nat → K}
    {lb ub lbA ubA : Option (Nat → K)} {nWSR : Int} {cputime : Option K}
    (hbox : ∀ i < n, lowerOf lb i ≤ upperOf ub i) (hboxA : ∀ k < m, lowerOf lbA k ≤ upperOf ubA k)
    (hkind : SameKind (s.options.enableEqualities = true) s.options.boundTolerance m l0 u0 (lowerOf lbA) (upperOf ubA))
    (hx : ∀ i < n, s.lb i ≤ s.x i ∧ s.x i ≤ s.ub i) (heq : EqualitiesOK s.toQPB lb ub)
    (hc : QPC.RunClean sq { s with count := s.count + 1 } g lb ub lbA ubA nWSR cputime 0)
    {o : OutC K} (ho : QPC.hotstart sq fuel s g lb ub lbA ubA nWSR cputime .null .null = .ok o) (hr : o.rv = RET_HOTSTART_STOPPED_INFEASIBILITY) :
    (QPC.qp n m M g (lowerOf lb) (upperOf ub) A (lowerOf lbA) (upperOf ubA)).Infeasible ∨
    (QPC.qp n m M g (lowerOf lb) (upperOf ub) A (lowerOf lbA) (upperOf ubA)).HugeMultiplier o.s.y s.options.maxDualJump := by
  obtain ⟨h1, h2, h3, h4, -⟩ := h.live.hotstart_report fuel hfar hden hbox hboxA hkind hx heq hc ho (Or.inl hr)
  rw [← h3]
  exact report_infeasible h2 (fun _ _ => rfl) (fun _ _ => rfl) h1 (h4 hr)

/-- A guess the hotstart can make use of: it agrees with the signs of the multipliers, it is installed in exact arithmetic, either from scratch or by
updates, and the new limits are of the kind the constraints are classified by. -/
def UsableGuess (sq : K → K) (m : Nat) (l0 u0 : Nat → K) (s : QPC K) (wB wC : WS) (g : Nat → K) (lb ub lbA ubA : Option (Nat → K)) (nWSR : Int)
    (cputime : Option K) : Prop :=
  (s.shallRefactorise wB wC = true ∧ QPC.GuessOK s wB wC ∧ QPC.GuessRunClean sq s wB wC g lb ub lbA ubA nWSR cputime ∧
    SameKind (s.options.enableEqualities = true) s.options.boundTolerance m s.lbA s.ubA (lowerOf lbA) (upperOf ubA)) ∨
  (s.shallRefactorise wB wC = false ∧ QPC.UpdateOK s wB wC ∧ QPC.UpdateRunClean sq s wB wC g lb ub lbA ubA nWSR cputime ∧
    SameKind (s.options.enableEqualities = true) s.options.boundTolerance m l0 u0 (lowerOf lbA) (upperOf ubA))

/-- Such a hotstart runs like one without a guess from the auxiliary QP. -/
theorem SessionC.resume {sq : K → K} {fuel n m : Nat} {M A : Nat → Nat → K} {l0 u0 : Nat → K} {s : QPC K}
    (h : SessionC sq fuel n m M A l0 u0 s) (hfar : s.options.enableFarBounds = false) {g : Nat → K}
    {lb ub lbA ubA : Option (Nat → K)} {nWSR : Int} {cputime : Option K} {gB gC : QPB.Guess} {wB wC : WS} (hG : QPC.Guessed s gB gC wB wC)
    (hbox : ∀ i < n, lowerOf lb i ≤ upperOf ub i) (hboxA : ∀ k < m, lowerOf lbA k ≤ upperOf ubA k)
    (hx : ∀ i < n, s.lb i ≤ s.x i ∧ s.x i ≤ s.ub i) (hxA : ∀ k < m, s.lbA k ≤ s.prodA s.x k ∧ s.prodA s.x k ≤ s.ubA k)
    (hg : UsableGuess sq m l0 u0 s wB wC g lb ub lbA ubA nWSR cputime)
    {o : OutC K} (ho : QPC.hotstart sq fuel s g lb ub lbA ubA nWSR cputime gB gC = .ok o)
    (hr : o.rv ≠ RET_QPOBJECT_NOT_SETUP ∧ o.rv ≠ RET_SETUP_AUXILIARYQP_FAILED) :
    ∃ l1 u1 s2 c, QPC.Live n m M A l1 u1 s2 ∧ s2.options = s.options ∧ (∀ i < n, s2.lb i ≤ s2.x i ∧ s2.x i ≤ s2.ub i) ∧ EqualitiesOK s2.toQPB lb ub ∧
      SameKind (s2.options.enableEqualities = true) s2.options.boundTolerance m l1 u1 (lowerOf lbA) (upperOf ubA) ∧
      QPC.RunClean sq { s2 with count := s2.count + 1 } g lb ub lbA ubA nWSR c 0 ∧ QPC.hotstart sq fuel s2 g lb ub lbA ubA nWSR c .null .null = .ok o := by
  rcases hg with ⟨h1, h2, h3, h4⟩ | ⟨h1, h2, h3, h4⟩
  · obtain ⟨s2, k1, k2, k3, k4, c, k5, k6⟩ := h.live.guessed fuel h2 h1 hx hxA hfar hbox hboxA h3 (hG.afresh h1 ho) hr
    exact ⟨_, _, s2, c, k1, k2, k3, k4, by rw [k2]; exact h4, k5, k6⟩
  · obtain ⟨s2, k1, k2, k3, k4, c, k5, k6⟩ := h.live.guessedUpdate fuel h2 h1 hx hxA hfar hbox hboxA h3 (hG.updated h.live.good.facs h1 h2.properB h3.1 ho) hr
    exact ⟨_, _, s2, c, k1, k2, k3, k4, by rw [k2]; exact h4, k5, k6⟩

/-- **C66** (part): the same for a hotstart with a guessed working set; the point the object holds observes its limits. -/
theorem C66_guessed_partial {sq : K → K} {fuel n m : Nat} {M A : Nat → Nat → K} {l0 u0 : Nat → K} {s : QPC K}
    (h : SessionC sq fuel n m M A l0 u0 s) (hfar : s.options.enableFarBounds = false) (hden : 0 < s.options.epsDen) {g : Nat → K}
    {lb ub lbA ubA : Option (Nat → K)} {nWSR : Int} {cputime : Option K} {gB gC : QPB.Guess} {wB wC : WS} (hG : QPC.Guessed s gB gC wB wC)
    (hbox : ∀ i < n, lowerOf lb i ≤ upperOf ub i) (hboxA : ∀ k < m, lowerOf lbA k ≤ upperOf ubA k)
    (hx : ∀ i < n, s.lb i ≤ s.x i ∧ s.x i ≤ s.ub i) (hxA : ∀ k < m, s.lbA k ≤ s.prodA s.x k ∧ s.prodA s.x k ≤ s.ubA k)
    (hg : UsableGuess sq m l0 u0 s wB wC g lb ub lbA ubA nWSR cputime)
    {o : OutC K} (ho : QPC.hotstart sq fuel s g lb ub lbA ubA nWSR cputime gB gC = .ok o) (hr : o.rv = RET_HOTSTART_STOPPED_INFEASIBILITY) :
    (QPC.qp n m M g (lowerOf lb) (upperOf ub) A (lowerOf lbA) (upperOf ubA)).Infeasible ∨
    (QPC.qp n m M g (lowerOf lb) (upperOf ub) A (lowerOf lbA) (upperOf ubA)).HugeMultiplier o.s.y s.options.maxDualJump := by
  obtain ⟨l1, u1, s2, c, k1, k2, k3, k4, k5, k6, k7⟩ := h.resume hfar hG hbox hboxA hx hxA hg ho (by rw [hr]; exact ⟨by decide, by decide⟩)
  obtain ⟨h1, h2, h3, h4, -⟩ := k1.hotstart_report fuel (by rw [k2]; exact hfar) (by rw [k2]; exact hden) hbox hboxA k5 k3 k4 k6 k7 (Or.inl hr)
  rw [← k2, ← h3]
  exact report_infeasible h2 (fun _ _ => rfl) (fun _ _ => rfl) h1 (h4 hr)

/-! ### C67: reports of unboundedness -/

/-- What such a report says about the QP with the constraint matrix of the user. -/
theorem report_direction {n m : Nat} {M A : Nat → Nat → K} {l0 u0 : Nat → K} {s : QPC K} (h : QPC.Live n m M A l0 u0 s) {g l u lA uA lA' uA' : Nat → K}
    (hl : ∀ k < m, lA' k = lA k) (hu : ∀ k < m, uA' k = uA k)
    (hv : QPC.Verdict s g l u lA' uA') (hb : s.unbounded = true) :
    ∃ d, (QPC.qp n m s.Heff g l u A lA uA).Descent d ∧
      ((QPC.qp n m s.Heff g l u A lA uA).Recession d ∨
        QP.FarLimit (QPC.qp n m s.Heff g l u A lA uA) (QPC.qp n m s.Heff s.g s.lb s.ub A s.lbA s.ubA) s.x d s.options.maxPrimalJump) := by
  obtain rfl := h.nV
  obtain rfl := h.nC
  have hrow : ∀ x, ∀ k < s.nC, QP.row s.nV A x k = QP.row s.nV s.A x k := fun x k hk => by
    unfold QP.row; rw [h.mat k hk]
  obtain ⟨d, hd, hroom⟩ := hv.unbounded hb
  have hd' : (QPC.qp s.nV s.nC s.Heff g l u A lA uA).Descent d := ⟨hd.flat, hd.falls⟩
  refine ⟨d, hd', ?_⟩
  rcases hroom.cases with hrec | hfar
  · have hrec' : (QPC.qp s.nV s.nC s.Heff g l u A lA uA).Recession d := by
      refine ⟨hrec.lower, hrec.upper, fun k hk hn => ?_, fun k hk hn => ?_⟩
      · have hk : k < s.nC := hk
        show lA k ≤ -INFTY
        rw [← hl k hk]
        exact hrec.lowerA k hk ((hrow d k hk).symm.trans_lt hn)
      · have hk : k < s.nC := hk
        show INFTY ≤ uA k
        rw [← hu k hk]
        exact hrec.upperA k hk (hn.trans_eq (hrow d k hk))
    exact Or.inl hrec'
  · refine Or.inr ?_
    rcases hfar with hh | hh | ⟨k, hk, h1, h2, h3⟩ | ⟨k, hk, h1, h2, h3⟩
    · exact Or.inl hh
    · exact Or.inr (Or.inl hh)
    · have hk : k < s.nC := hk
      refine Or.inr (Or.inr (Or.inl ⟨k, hk, (hrow d k hk).trans_lt h1, h2.trans_eq (hl k hk), ?_⟩))
      show s.options.maxPrimalJump * -QP.row s.nV A d k ≤ QP.row s.nV A s.x k - s.lbA k
      rw [hrow d k hk, hrow s.x k hk]; exact h3
    · have hk : k < s.nC := hk
      refine Or.inr (Or.inr (Or.inr ⟨k, hk, h1.trans_eq (hrow d k hk).symm, (hu k hk).symm.trans_lt h2, ?_⟩))
      show s.options.maxPrimalJump * QP.row s.nV A d k ≤ s.ubA k - QP.row s.nV A s.x k
      rw [hrow d k hk, hrow s.x k hk]; exact h3

theorem report_unbounded {n m : Nat} {M A : Nat → Nat → K} {l0 u0 : Nat → K} {s : QPC K} (h : QPC.Live n m M A l0 u0 s) {g l u lA uA lA' uA' : Nat → K}
    (hl : ∀ k < m, lA' k = lA k) (hu : ∀ k < m, uA' k = uA k)
    (hv : QPC.Verdict s g l u lA' uA') (hb : s.unbounded = true) :
    ∃ H' d, (∀ i < n, ∀ j < n, |H' i j - M i j| ≤ EPS) ∧ (QPC.qp n m H' g l u A lA uA).Descent d ∧
      ((QPC.qp n m H' g l u A lA uA).Recession d ∧ ((∃ z, (QPC.qp n m H' g l u A lA uA).FeasibleInf z) → (QPC.qp n m H' g l u A lA uA).UnboundedBelow) ∨
        QP.FarLimit (QPC.qp n m H' g l u A lA uA) (QPC.qp n m H' s.g s.lb s.ub A s.lbA s.ubA) s.x d s.options.maxPrimalJump) := by
  obtain ⟨d, hd, hh⟩ := report_direction h hl hu hv hb
  exact ⟨s.Heff, d, h.hess, hd, hh.imp_left fun hr => ⟨hr, fun ⟨z, hz⟩ => hd.unbounded (h.nV ▸ QPC.Heff_symm h.good.facs.sym) hr hz⟩⟩

/-- **C67** (part): when a hotstart reports unboundedness, there is a direction of constant descent along which no finite limit is ever met, so that the
QP is unbounded below if it is feasible, unless a finite limit is met after at least `maxPrimalJump` times the length of the direction.
As in the other theorems, a Hessian of undeclared type may have been rounded to the identity. -/
theorem C67_hotstart_partial {sq : K → K} {fuel n m : Nat} {M A : Nat → Nat → K} {l0 u0 : Nat → K} {s : QPC K}
    (h : SessionC sq fuel n m M A l0 u0 s) (hfar : s.options.enableFarBounds = false) (hden : 0 < s.options.epsDen) {g : Nat → K}
    {lb ub lbA ubA : Option (Nat → K)} {nWSR : Int} {cputime : Option K}
    (hbox : ∀ i < n, lowerOf lb i ≤ upperOf ub i) (hboxA : ∀ k < m, lowerOf lbA k ≤ upperOf ubA k)
    (hkind : SameKind (s.options.enableEqualities = true) s.options.boundTolerance m l0 u0 (lowerOf lbA) (upperOf ubA))
    (hx : ∀ i < n, s.lb i ≤ s.x i ∧ s.x i ≤ s.ub i) (heq : EqualitiesOK s.toQPB lb ub)
    (hc : QPC.RunClean sq { s with count := s.count + 1 } g lb ub lbA ubA nWSR cputime 0)
    {o : OutC K} (ho : QPC.hotstart sq fuel s g lb ub lbA ubA nWSR cputime .null .null = .ok o) (hr : o.rv = RET_HOTSTART_STOPPED_UNBOUNDEDNESS) :
    ∃ H' d, (∀ i < n, ∀ j < n, |H' i j - M i j| ≤ EPS) ∧
      let P := QPC.qp n m H' g (lowerOf lb) (upperOf ub) A (lowerOf lbA) (upperOf ubA)
      P.Descent d ∧ (P.Recession d ∧ ((∃ z, P.FeasibleInf z) → P.UnboundedBelow) ∨
        QP.FarLimit P (QPC.qp n m H' o.s.g o.s.lb o.s.ub A o.s.lbA o.s.ubA) o.s.x d s.options.maxPrimalJump) := by
  obtain ⟨h1, h2, h3, -, h5⟩ := h.live.hotstart_report fuel hfar hden hbox hboxA hkind hx heq hc ho (Or.inr hr)
  rw [← h3]
  exact report_unbounded h2 (fun _ _ => rfl) (fun _ _ => rfl) h1 (h5 hr)

/-- **C67** (part): the same for a cold start. -/
theorem C67_init_partial {sq : K → K} (fuel : Nat) {s : QPC K} (hs : QPC.Usable s) (hfar : s.options.enableFarBounds = false) (hden : 0 < s.options.epsDen)
    {H : Option (Nat → K)} {g a : Nat → K}
    {lb ub lbA ubA : Option (Nat → K)} (ha : QPC.Admissible s (lowerOf lb) (upperOf ub) (lowerOf lbA) (upperOf ubA))
    (habs : ∀ k < s.nC, lowerOf lbA k < -INFTY + s.options.boundTolerance → INFTY - s.options.boundTolerance < upperOf ubA k →
      lowerOf lbA k ≤ -INFTY ∧ INFTY ≤ upperOf ubA k)
    {M : Nat → Nat → K} (hM : GivenHessian (s.coldData H g a lb ub lbA ubA).toQPB M) (hsym : QP.Symmetric s.nV M)
    (hst : (s.coldData H g a lb ub lbA ubA).SymH) {nWSR : Int} {cputime : Option K} {xOpt yOpt : Option (Nat → K)} {gB gC : Option WS}
    (hc : QPC.ColdClean sq (s.coldData H g a lb ub lbA ubA) xOpt yOpt gB gC nWSR cputime) {o : OutC K}
    (ho : QPC.init sq fuel s H (some g) (some a) lb ub lbA ubA nWSR cputime xOpt yOpt gB gC none = .ok o)
    (hr : o.rv = RET_INIT_FAILED_UNBOUNDEDNESS) :
    ∃ H' d, (∀ i < s.nV, ∀ j < s.nV, |H' i j - M i j| ≤ EPS) ∧
      let A : Nat → Nat → K := fun k j => a (k * s.nV + j)
      let P := QPC.qp s.nV s.nC H' g (lowerOf lb) (upperOf ub) A (lowerOf lbA) (upperOf ubA)
      P.Descent d ∧ (P.Recession d ∧ ((∃ z, P.FeasibleInf z) → P.UnboundedBelow) ∨
        QP.FarLimit P (QPC.qp s.nV s.nC H' o.s.g o.s.lb o.s.ub A o.s.lbA o.s.ubA) o.s.x d s.options.maxPrimalJump) := by
  obtain ⟨h1, h2, h3, -, h5⟩ := QPC.init_report fuel hs hfar hden ha habs hM hsym hst hc ho (Or.inr hr)
  have c := hs.cold H g a lb ub lbA ubA
  rw [← h3]
  exact report_unbounded h2 (fun k hk => by rw [(c.data (by rw [c.nC]; omega)).2.1]) (fun k hk => by rw [(c.data (by rw [c.nC]; omega)).2.2]) h1 (h5 hr)

/-- **C67** (part): the same for a hotstart with a guessed working set. -/
theorem C67_guessed_partial {sq : K → K} {fuel n m : Nat} {M A : Nat → Nat → K} {l0 u0 : Nat → K} {s : QPC K}
    (h : SessionC sq fuel n m M A l0 u0 s) (hfar : s.options.enableFarBounds = false) (hden : 0 < s.options.epsDen) {g : Nat → K}
    {lb ub lbA ubA : Option (Nat → K)} {nWSR : Int} {cputime : Option K} {gB gC : QPB.Guess} {wB wC : WS} (hG : QPC.Guessed s gB gC wB wC)
    (hbox : ∀ i < n, lowerOf lb i ≤ upperOf ub i) (hboxA : ∀ k < m, lowerOf lbA k ≤ upperOf ubA k)
    (hx : ∀ i < n, s.lb i ≤ s.x i ∧ s.x i ≤ s.ub i) (hxA : ∀ k < m, s.lbA k ≤ s.prodA s.x k ∧ s.prodA s.x k ≤ s.ubA k)
    (hg : UsableGuess sq m l0 u0 s wB wC g lb ub lbA ubA nWSR cputime)
    {o : OutC K} (ho : QPC.hotstart sq fuel s g lb ub lbA ubA nWSR cputime gB gC = .ok o) (hr : o.rv = RET_HOTSTART_STOPPED_UNBOUNDEDNESS) :
    ∃ H' d, (∀ i < n, ∀ j < n, |H' i j - M i j| ≤ EPS) ∧
      let P := QPC.qp n m H' g (lowerOf lb) (upperOf ub) A (lowerOf lbA) (upperOf ubA)
      P.Descent d ∧ (P.Recession d ∧ ((∃ z, P.FeasibleInf z) → P.UnboundedBelow) ∨
        QP.FarLimit P (QPC.qp n m H' o.s.g o.s.lb o.s.ub A o.s.lbA o.s.ubA) o.s.x d s.options.maxPrimalJump) := by
  obtain ⟨l1, u1, s2, c, k1, k2, k3, k4, k5, k6, k7⟩ := h.resume hfar hG hbox hboxA hx hxA hg ho (by rw [hr]; exact ⟨by decide, by decide⟩)
  obtain ⟨h1, h2, h3, -, h5⟩ := k1.hotstart_report fuel (by rw [k2]; exact hfar) (by rw [k2]; exact hden) hbox hboxA k5 k3 k4 k6 k7 (Or.inr hr)
  rw [← k2, ← h3]
  exact report_unbounded h2 (fun _ _ => rfl) (fun _ _ => rfl) h1 (h5 hr)

/-! ### C68: unbounded QPs -/

/-- A stationary pair of an unbounded convex QP holds on to a limit that counts as infinite. -/
theorem atInfinity_of_unbounded {P : QP K} (hS : QP.Symmetric P.nV P.H) (hH : QP.PosSemidef P.nV P.H) {x y : Nat → K} (h : P.Stationary x y)
    (hu : P.UnboundedBelow) : P.AtInfinity x y := by
  by_contra hc
  unfold QP.AtInfinity at hc
  rw [not_or] at hc
  obtain ⟨c1, c2⟩ := hc
  simp only [not_exists, not_and, not_or, not_le] at c1 c2
  obtain ⟨z, hz, hlt⟩ := hu (P.obj x)
  let P' : QP K := { P with
    lb := fun i => if 0 < y i then P.lb i else z i
    ub := fun i => if y i < 0 then P.ub i else z i
    lbA := fun k => if 0 < y (P.nV + k) then P.lbA k else QP.row P.nV P.A z k
    ubA := fun k => if y (P.nV + k) < 0 then P.ubA k else QP.row P.nV P.A z k }
  have hst : P'.Stationary x y := by
    refine ⟨h.stat, fun i hi hp => ?_, fun i hi hp => ?_, fun k hk hp => ?_, fun k hk hp => ?_⟩
    · show x i = if 0 < y i then P.lb i else z i
      rw [if_pos hp]; exact h.pos i hi hp
    · show x i = if y i < 0 then P.ub i else z i
      rw [if_pos hp]; exact h.neg i hi hp
    · show QP.row P.nV P.A x k = if 0 < y (P.nV + k) then P.lbA k else QP.row P.nV P.A z k
      rw [if_pos hp]; exact h.posA k hk hp
    · show QP.row P.nV P.A x k = if y (P.nV + k) < 0 then P.ubA k else QP.row P.nV P.A z k
      rw [if_pos hp]; exact h.negA k hk hp
  have hfe : P'.Feasible z := by
    refine ⟨fun i hi => ?_, fun i hi => ?_, fun k hk => ?_, fun k hk => ?_⟩
    · show (if 0 < y i then P.lb i else z i) ≤ z i
      split
      · next hp =>
        have := c1 i hi hp.ne'
        rw [h.pos i hi hp] at this
        exact hz.lower i hi this.1
      · exact le_rfl
    · show z i ≤ if y i < 0 then P.ub i else z i
      split
      · next hp =>
        have := c1 i hi hp.ne
        rw [h.neg i hi hp] at this
        exact hz.upper i hi this.2
      · exact le_rfl
    · show (if 0 < y (P.nV + k) then P.lbA k else QP.row P.nV P.A z k) ≤ QP.row P.nV P.A z k
      split
      · next hp =>
        have := c2 k hk hp.ne'
        rw [h.posA k hk hp] at this
        exact hz.lowerA k hk this.1
      · exact le_rfl
    · show QP.row P.nV P.A z k ≤ if y (P.nV + k) < 0 then P.ubA k else QP.row P.nV P.A z k
      split
      · next hp =>
        have := c2 k hk hp.ne
        rw [h.negA k hk hp] at this
        exact hz.upperA k hk this.2
      · exact le_rfl
  have := C35_no_better_point (P := P') hS hH hst z hfe
  exact absurd (show P.obj x ≤ P.obj z from this) (not_le.2 hlt)

/-- **C68** (part): when a cold start succeeds after a full step although the QP is convex and unbounded below, the point returned lies at a limit that
counts as infinite.  The type of the Hessian has been declared. -/
theorem C68_init_partial {sq : K → K} (fuel : Nat) {s : QPC K} (hs : QPC.Usable s) (hfar : s.options.enableFarBounds = false)
    {H : Option (Nat → K)} {g a : Nat → K}
    {lb ub lbA ubA : Option (Nat → K)} (ha : QPC.Admissible s (lowerOf lb) (upperOf ub) (lowerOf lbA) (upperOf ubA))
    {M : Nat → Nat → K} (hM : GivenHessian (s.coldData H g a lb ub lbA ubA).toQPB M) (hsym : QP.Symmetric s.nV M)
    (hkn : (s.coldData H g a lb ub lbA ubA).hessianType ≠ HST_UNKNOWN)
    (hst : (s.coldData H g a lb ub lbA ubA).SymH) {nWSR : Int} {cputime : Option K} {xOpt yOpt : Option (Nat → K)} {gB gC : Option WS}
    (hc : QPC.ColdClean sq (s.coldData H g a lb ub lbA ubA) xOpt yOpt gB gC nWSR cputime) {o : OutC K}
    (ho : QPC.init sq fuel s H (some g) (some a) lb ub lbA ubA nWSR cputime xOpt yOpt gB gC none = .ok o) (hr : o.rv = SUCCESSFUL_RETURN)
    (ht : o.s.tau = 1) (hp : QP.PosSemidef s.nV M)
    (hu : (QPC.qp s.nV s.nC M g (lowerOf lb) (upperOf ub) (fun k j => a (k * s.nV + j)) (lowerOf lbA) (upperOf ubA)).UnboundedBelow) :
    (QPC.qp s.nV s.nC M g (lowerOf lb) (upperOf ub) (fun k j => a (k * s.nV + j)) (lowerOf lbA) (upperOf ubA)).AtInfinity o.s.x o.s.y := by
  obtain ⟨a1, a2⟩ := (QPC.init_spec fuel hs hfar ha hM hsym hst hc ho).1 hr
  have c := hs.cold H g a lb ub lbA ubA
  have hl := QPC.Live.of_init hs ha hM hsym hst a1.good a2
  have hH : o.s.Heff = M := a2.hess.trans ((hM.spec (by rw [c.nV]; exact hsym)).2.2.2 hkn)
  have hdat : ∀ k < s.nC, (s.coldData H g a lb ub lbA ubA).lbA = lowerOf lbA ∧ (s.coldData H g a lb ub lbA ubA).ubA = upperOf ubA :=
    fun k hk => (c.data (by rw [c.nC]; omega)).2
  refine atInfinity_of_unbounded hsym hp ?_ hu
  obtain ⟨f1, f2, f3, f4, f5⟩ := a1.full ht
  obtain ⟨b1, b2, b3, b4⟩ := QPC.SideOK_compl a1.good.opt.bounds a1.good.facs.shape.okB a1.good.facs.shape.nB
  obtain ⟨c1, c2, c3, c4⟩ := QPC.SideOK_compl a1.good.opt.cons a1.good.facs.shape.okC a1.good.facs.shape.nC
  rw [hl.nV, f2] at b1
  rw [hl.nV, f3] at b2
  rw [hl.nC] at c1 c2
  refine ⟨fun i hi => ?_, b1, b2, fun k hk hy => ?_, fun k hk hy => ?_⟩
  · have hi : i < s.nV := hi
    have h1 := a1.good.opt.stat i (by rw [hl.nV]; exact hi)
    rw [hl.nV, hl.nC, f1, hH] at h1
    show ∑ j ∈ range s.nV, M i j * o.s.x j + g i = o.s.y i + ∑ k ∈ range s.nC, a (k * s.nV + i) * o.s.y (s.nV + k)
    rw [h1]
    congr 1
    exact Finset.sum_congr rfl fun k hk => by rw [hl.mat k (mem_range.1 hk)]
  · have hk : k < s.nC := hk
    have := c1 k hk (by rw [hl.nV]; exact hy)
    rw [f4, show (some (s.coldData H g a lb ub lbA ubA).lbA : Option (Nat → K)) = some (lowerOf lbA) by rw [(hdat k hk).1]] at this
    have e := QPC.row_eq (A := fun k j => a (k * s.nV + j)) (hl.mat k hk) o.s.x
    rw [hl.nV] at e
    exact e.trans this
  · have hk : k < s.nC := hk
    have := c2 k hk (by rw [hl.nV]; exact hy)
    rw [f5, show (some (s.coldData H g a lb ub lbA ubA).ubA : Option (Nat → K)) = some (upperOf ubA) by rw [(hdat k hk).2]] at this
    have e := QPC.row_eq (A := fun k j => a (k * s.nV + j)) (hl.mat k hk) o.s.x
    rw [hl.nV] at e
    exact e.trans this

/-- **C68** (part): the same for a hotstart after any history; a Hessian of undeclared type may have been rounded to the identity. -/
theorem C68_hotstart_partial {sq : K → K} {fuel n m : Nat} {M A : Nat → Nat → K} {l0 u0 : Nat → K} {s : QPC K}
    (h : SessionC sq fuel n m M A l0 u0 s) (hfar : s.options.enableFarBounds = false) (htol : 0 ≤ s.options.terminationTolerance) {g : Nat → K}
    {lb ub lbA ubA : Option (Nat → K)} {nWSR : Int} {cputime : Option K}
    (hbox : ∀ i < n, lowerOf lb i ≤ upperOf ub i) (hboxA : ∀ k < m, lowerOf lbA k ≤ upperOf ubA k)
    (hkind : SameKind (s.options.enableEqualities = true) s.options.boundTolerance m l0 u0 (lowerOf lbA) (upperOf ubA))
    (hx : ∀ i < n, s.lb i ≤ s.x i ∧ s.x i ≤ s.ub i) (heq : EqualitiesOK s.toQPB lb ub)
    (hc : QPC.RunClean sq { s with count := s.count + 1 } g lb ub lbA ubA nWSR cputime 0)
    {o : OutC K} (ho : QPC.hotstart sq fuel s g lb ub lbA ubA nWSR cputime .null .null = .ok o) (hr : o.rv = SUCCESSFUL_RETURN) (ht : o.s.tau = 1) :
    ∃ H' : Nat → Nat → K, (∀ i < n, ∀ j < n, |H' i j - M i j| ≤ EPS) ∧ (QP.Symmetric n H' → QP.PosSemidef n H' →
      (QPC.qp n m H' g (lowerOf lb) (upperOf ub) A (lowerOf lbA) (upperOf ubA)).UnboundedBelow →
      (QPC.qp n m H' g (lowerOf lb) (upperOf ub) A (lowerOf lbA) (upperOf ubA)).AtInfinity o.s.x o.s.y) := by
  obtain ⟨-, k2⟩ := C34_hotstart_general_partial h hfar hbox hboxA hkind hx heq hc ho hr
  obtain ⟨H', a1, -, a2⟩ := k2 (Or.inr ⟨ht, htol⟩)
  exact ⟨H', a1, fun hs hp hu => atInfinity_of_unbounded hs hp (a2 ht).stationary hu⟩

/-! ### the hypotheses are met -/
section
open Runs

/-- One variable with the Hessian 1, and one constraint on it -/
def rep0 : QPC ℚ := startC 1 1 HST_POSDEF plain
def repH : Nat → Nat → ℚ := fun i j => vec [1] (i * 1 + j)
def repA : Nat → Nat → ℚ := fun k j => vec [1] (k * 1 + j)
def rep0c (g : List ℚ) (l u lA uA : ℚ) : QPC ℚ :=
  rep0.coldData (some (vec [1])) (vec g) (vec [1]) (some (vec [l])) (some (vec [u])) (some (vec [lA])) (some (vec [uA]))

theorem rep0_usable : QPC.Usable rep0 := .fresh 1 1 HST_POSDEF _ plain

theorem repH_symmetric : QP.Symmetric 1 repH := by
  intro i hi j hj
  obtain rfl : i = 0 := by omega
  obtain rfl : j = 0 := by omega
  rfl

theorem rep0_hessian (g : List ℚ) (l u lA uA : ℚ) : GivenHessian (rep0c g l u lA uA).toQPB repH :=
  ⟨fun h => (by cases h), fun _ => ⟨fun h => (by cases h), rfl⟩, fun h => (by cases h)⟩

theorem rep0_symH (g : List ℚ) (l u lA uA : ℚ) : (rep0c g l u lA uA).SymH := by
  intro H h
  obtain rfl : repH = H := Option.some.inj h
  exact repH_symmetric

/-- `x ≤ 1` and `x ≥ 2` -/
def rep1 : Res (OutC ℚ) := coldC rep0 (some [1]) [100] [1] [0] [1] [2] [100]

theorem rep1_admissible : QPC.Admissible rep0 (lowerOf (some (vec [0]))) (upperOf (some (vec [1]))) (lowerOf (some (vec [2])))
    (upperOf (some (vec [100]))) := by
  refine ⟨⟨?_, ?_, ?_, Or.inl ?_, ?_, ?_⟩, ?_, ?_, ?_, ?_, ?_, ?_, ?_⟩
  all_goals decide +kernel

/-- A cold start that meets the hypotheses of `C66_init_partial` and reports infeasibility after a change of the working set. -/
example : rep0.options.enableFarBounds = false ∧ 0 < rep0.options.epsDen ∧ QPC.ColdClean rootC (rep0c [100] 0 1 2 100) none none none none 10 none ∧
    ∃ o, rep1 = .ok o ∧ o.rv = RET_INIT_FAILED_INFEASIBILITY ∧ o.nWSR = 1 ∧ |o.s.y 1| < rep0.options.maxDualJump := by
  refine ⟨by decide +kernel, by decide +kernel, by decide +kernel, ?_⟩
  obtain ⟨o, e, h⟩ := of_holds (r := rep1) (p := fun o => decide (o.rv = RET_INIT_FAILED_INFEASIBILITY ∧ o.nWSR = 1 ∧ |o.s.y 1| < rep0.options.maxDualJump))
    (by decide +kernel)
  exact ⟨o, e, of_decide_eq_true h⟩

/-- `0 ≤ x ≤ 10` and `x ≥ 2` with a large gradient -/
def rep2 : Res (OutC ℚ) := coldC rep0 (some [1]) [1000000000] [1] [0] [10] [2] [100]

theorem rep2_admissible : QPC.Admissible rep0 (lowerOf (some (vec [0]))) (upperOf (some (vec [10]))) (lowerOf (some (vec [2])))
    (upperOf (some (vec [100]))) := by
  refine ⟨⟨?_, ?_, ?_, Or.inl ?_, ?_, ?_⟩, ?_, ?_, ?_, ?_, ?_, ?_, ?_⟩
  all_goals decide +kernel

/-- **C66** is violated: the cold start reports infeasibility of a QP that is feasible and even has a minimiser. -/
theorem C66_violated : ∃ o, rep2 = .ok o ∧ o.rv = RET_INIT_FAILED_INFEASIBILITY ∧ o.s.infeasible = true ∧
    (QPC.qp 1 1 repH (vec [1000000000]) (vec [0]) (vec [10]) repA (vec [2]) (vec [100])).IsMinimiser (fun _ => 2) := by
  obtain ⟨o, e, h⟩ := of_holds (r := rep2) (p := fun o => decide (o.rv = RET_INIT_FAILED_INFEASIBILITY ∧ o.s.infeasible = true)) (by decide +kernel)
  obtain ⟨h1, h2⟩ := of_decide_eq_true h
  refine ⟨o, e, h1, h2, C35_global_minimum (y := fun i => if i = 1 then 1000000002 else 0) repH_symmetric ?_ ⟨⟨?_, ?_, ?_, ?_, ?_⟩, ?_, ?_, ?_, ?_⟩⟩
  · intro d
    show 0 ≤ ∑ i ∈ range 1, d i * QP.row 1 repH d i
    have : ∑ i ∈ range 1, d i * QP.row 1 repH d i = d 0 * d 0 := by simp [QP.row, repH, vec]
    rw [this]
    exact mul_self_nonneg _
  all_goals
    intro i hi
    have hi : i < 1 := hi
    obtain rfl : i = 0 := by omega
    simp [QPC.qp, QP.row, repH, repA, vec] <;> norm_num

/-- The theorem applies to this run, so that it is the multiplier that is to blame. -/
example : ∃ o, rep2 = .ok o ∧
    (QPC.qp 1 1 repH (vec [1000000000]) (vec [0]) (vec [10]) repA (vec [2]) (vec [100])).HugeMultiplier o.s.y rep0.options.maxDualJump := by
  obtain ⟨o, e, h1, -, h3⟩ := C66_violated
  refine ⟨o, e, ?_⟩
  rcases C66_init_partial 5 rep0_usable (by decide +kernel) (by decide +kernel) rep2_admissible (by decide +kernel)
    (rep0_hessian [1000000000] 0 10 2 100) repH_symmetric (rep0_symH [1000000000] 0 10 2 100)
    (show QPC.ColdClean rootC (rep0c [1000000000] 0 10 2 100) none none none none 10 none by decide +kernel) e h1 with h | h
  · exact absurd h3.1 (h _)
  · exact h

/-! #### hotstarts with a guess -/

def noneWS : WS := guessWS [ST_INACTIVE]
def rep3 : Res (OutC ℚ) := coldC rep0 (some [1]) [100] [1] [0] [1] [-100] [100]
def rep4 : Res (OutC ℚ) := hotC rep3 [100] (some [0]) (some [1]) (some [2]) (some [100]) (.other noneWS) (.other noneWS)

/-- A hotstart from an empty working set that meets the hypotheses of `C66_guessed_partial` and reports infeasibility after two changes. -/
theorem rep4_infeasible : ∃ o, rep3 = .ok o ∧
    SessionC rootC 5 1 1 repH repA (lowerOf (some (vec [-100]))) (upperOf (some (vec [100]))) o.s ∧ o.s.options.enableFarBounds = false ∧ 0 < o.s.options.epsDen ∧
    (∀ i < 1, o.s.lb i ≤ o.s.x i ∧ o.s.x i ≤ o.s.ub i) ∧ (∀ k < 1, o.s.lbA k ≤ o.s.prodA o.s.x k ∧ o.s.prodA o.s.x k ≤ o.s.ubA k) ∧
    UsableGuess rootC 1 (lowerOf (some (vec [-100]))) (upperOf (some (vec [100]))) o.s noneWS noneWS (vec [100]) (some (vec [0])) (some (vec [1]))
      (some (vec [2])) (some (vec [100])) 10 none ∧
    ∃ o', rep4 = .ok o' ∧ o'.rv = RET_HOTSTART_STOPPED_INFEASIBILITY ∧ o'.nWSR = 2 := by
  obtain ⟨o, e, h⟩ := of_holds (r := rep3) (p := fun o : OutC ℚ => decide (QPC.GuessRunClean rootC o.s noneWS noneWS (vec [100]) (some (vec [0])) (some (vec [1]))
      (some (vec [2])) (some (vec [100])) 10 none) && decide (o.rv = SUCCESSFUL_RETURN ∧ o.s.options.enableFarBounds = false ∧ 0 < o.s.options.epsDen ∧
      (∀ i : Nat, i < 1 → o.s.lb i ≤ o.s.x i ∧ o.s.x i ≤ o.s.ub i) ∧ (∀ k : Nat, k < 1 → o.s.lbA k ≤ o.s.prodA o.s.x k ∧ o.s.prodA o.s.x k ≤ o.s.ubA k) ∧
      o.s.shallRefactorise noneWS noneWS = true ∧ QPC.GuessOK o.s noneWS noneWS ∧ o.s.lbA 0 = -100 ∧ o.s.ubA 0 = 100 ∧ o.s.options.boundTolerance ≤ 1 ∧
      o.s.options.enableEqualities = false)) (by decide +kernel)
  rw [Bool.and_eq_true] at h
  obtain ⟨k1, k2, k3, k4, k5, k6, k7, k8, k9, k10, k11⟩ := of_decide_eq_true h.2
  obtain ⟨o', e', h'⟩ := of_holds (r := rep4) (p := fun o => decide (o.rv = RET_HOTSTART_STOPPED_INFEASIBILITY ∧ o.nWSR = 2)) (by decide +kernel)
  refine ⟨o, e, SessionC.init rep0_usable rfl rfl (by decide +kernel) rfl rfl rfl
    (lb := some (vec [0])) (ub := some (vec [1])) (lbA := some (vec [-100])) (ubA := some (vec [100])) ?_ (rep0_hessian [100] 0 1 (-100) 100) repH_symmetric
    (rep0_symH [100] 0 1 (-100) 100) (show QPC.ColdClean rootC (rep0c [100] 0 1 (-100) 100) none none none none 10 none by decide +kernel) e (Or.inl k1),
    k2, k3, k4, k5, Or.inl ⟨k6, k7, of_decide_eq_true h.1, ⟨fun k hk hl => ?_, fun he => ?_, fun h => ?_, fun h => ?_⟩⟩, o', e', of_decide_eq_true h'⟩
  · refine ⟨⟨?_, ?_, ?_, Or.inl ?_, ?_, ?_⟩, ?_, ?_, ?_, ?_, ?_, ?_, ?_⟩
    all_goals decide +kernel
  · obtain rfl : k = 0 := by omega
    rw [k8] at hl
    exact absurd (hl.trans_le (add_le_add_right k10 _)) (by decide +kernel)
  · rw [k11] at he; cases he
  · exact absurd (h 0 (by omega)) (by rw [k8]; decide +kernel)
  · exact absurd (h 0 (by omega)) (by rw [k9]; decide +kernel)

/-! #### a zero eigenvalue of the Hessian -/

def sem0 : QPC ℚ := startC 2 1 HST_SEMIDEF plain
def semH : Nat → Nat → ℚ := fun i j => vec [4,0,0,0] (i * 2 + j)
def sem0c (g l u lA uA : List ℚ) : QPC ℚ :=
  sem0.coldData (some (vec [4,0,0,0])) (vec g) (vec [3,4]) (some (vec l)) (some (vec u)) (some (vec lA)) (some (vec uA))

theorem sem0_usable : QPC.Usable sem0 := .fresh 2 1 HST_SEMIDEF _ plain

theorem semH_symmetric : QP.Symmetric 2 semH := by
  intro i hi j hj
  have hi' : i = 0 ∨ i = 1 := by omega
  have hj' : j = 0 ∨ j = 1 := by omega
  rcases hi' with rfl | rfl <;> rcases hj' with rfl | rfl <;> rfl

theorem sem0_hessian (g l u lA uA : List ℚ) : GivenHessian (sem0c g l u lA uA).toQPB semH :=
  ⟨fun h => (by cases h), fun _ => ⟨fun h => (by cases h), rfl⟩, fun h => (by cases h)⟩

theorem sem0_symH (g l u lA uA : List ℚ) : (sem0c g l u lA uA).SymH := by
  intro H h
  obtain rfl : semH = H := Option.some.inj h
  exact semH_symmetric

theorem semH_posSemidef : QP.PosSemidef 2 semH := by
  intro d
  have : ∑ i ∈ range 2, d i * QP.row 2 semH d i = 4 * (d 0 * d 0) := by
    simp [QP.row, semH, vec, sum_range_succ]; ring
  rw [this]
  exact mul_nonneg (by norm_num) (mul_self_nonneg _)

/-- A session with the limits `u` above, after a cold start -/
def sem1 (u uA : List ℚ) : Res (OutC ℚ) := coldC sem0 (some [4,0,0,0]) [-20,1] [3,4] [0,0] u [-50] uA

theorem sem1_session (u uA : List ℚ)
    (ha : QPC.Admissible sem0 (lowerOf (some (vec [0,0]))) (upperOf (some (vec u))) (lowerOf (some (vec [-50]))) (upperOf (some (vec uA))))
    (hc : QPC.ColdClean rootC (sem0c [-20,1] [0,0] u [-50] uA) none none none none 10 none)
    {o : OutC ℚ} (e : sem1 u uA = .ok o) (hr : o.rv = SUCCESSFUL_RETURN) :
    SessionC rootC 5 2 1 semH gen0A (lowerOf (some (vec [-50]))) (upperOf (some (vec uA))) o.s :=
  SessionC.init sem0_usable rfl rfl (by decide +kernel) rfl rfl rfl ha (sem0_hessian _ _ _ _ _) semH_symmetric (sem0_symH _ _ _ _ _) hc e (Or.inl hr)

/-- The second variable, which has no curvature, gets a negative gradient. -/
def sem2 (u uA : List ℚ) : Res (OutC ℚ) := hotC (sem1 u uA) [-20,-1] (some [0,0]) (some u) (some [-50]) (some uA) .null .null

/-- Whatever has been checked by evaluation about the first call and the clean second one -/
theorem sem2_clean (u uA : List ℚ)
    (ha : QPC.Admissible sem0 (lowerOf (some (vec [0,0]))) (upperOf (some (vec u))) (lowerOf (some (vec [-50]))) (upperOf (some (vec uA))))
    (hc : QPC.ColdClean rootC (sem0c [-20,1] [0,0] u [-50] uA) none none none none 10 none)
    (hh : holds (sem1 u uA) (fun o : OutC ℚ => decide (o.rv = SUCCESSFUL_RETURN) && decide (∀ i : Nat, i < 2 → o.s.lb i ≤ o.s.x i ∧ o.s.x i ≤ o.s.ub i) &&
      decide (QPC.RunClean rootC { o.s with count := o.s.count + 1 } (vec [-20,-1]) (some (vec [0,0])) (some (vec u)) (some (vec [-50]))
        (some (vec uA)) 10 none 0) &&
      decide (o.s.options.enableFarBounds = false ∧ 0 < o.s.options.epsDen ∧ o.s.options.enableEqualities = false ∧ o.s.options.boundTolerance ≤ 1 ∧
        o.s.options.maxPrimalJump = sem0.options.maxPrimalJump ∧ ∀ i : Nat, i < 2 → o.s.bounds.type i ≠ ST_EQUALITY)) = true) :
    ∃ o, sem1 u uA = .ok o ∧ SessionC rootC 5 2 1 semH gen0A (lowerOf (some (vec [-50]))) (upperOf (some (vec uA))) o.s ∧
      o.s.options.enableFarBounds = false ∧ 0 < o.s.options.epsDen ∧ o.s.options.maxPrimalJump = sem0.options.maxPrimalJump ∧
      SameKind (o.s.options.enableEqualities = true) o.s.options.boundTolerance 1 (lowerOf (some (vec [-50]))) (upperOf (some (vec uA)))
        (lowerOf (some (vec [-50]))) (upperOf (some (vec uA))) ∧
      (∀ i < 2, o.s.lb i ≤ o.s.x i ∧ o.s.x i ≤ o.s.ub i) ∧ EqualitiesOK o.s.toQPB (some (vec [0,0])) (some (vec u)) ∧
      QPC.RunClean rootC { o.s with count := o.s.count + 1 } (vec [-20,-1]) (some (vec [0,0])) (some (vec u)) (some (vec [-50])) (some (vec uA)) 10 none 0 := by
  obtain ⟨o, e, h⟩ := of_holds hh
  rw [Bool.and_eq_true, Bool.and_eq_true, Bool.and_eq_true] at h
  obtain ⟨⟨⟨h0, h1⟩, h2⟩, h3⟩ := h
  obtain ⟨k1, k2, k3, k4, k5, k6⟩ := of_decide_eq_true h3
  have hs := sem1_session u uA ha hc e (of_decide_eq_true h0)
  have hn := hs.live.nV
  refine ⟨o, e, hs, k1, k2, k5, ⟨fun k hk hl => ?_, fun he => ?_, fun h => h, fun h => h⟩, of_decide_eq_true h1,
    ⟨fun i hi e => ?_, fun i hi _ e => absurd e (k6 i (by rw [← hn]; exact hi))⟩, of_decide_eq_true h2⟩
  · obtain rfl : k = 0 := by omega
    exact absurd (hl.trans_le (add_le_add_right k4 _)) (by decide +kernel)
  · rw [k3] at he; cases he
  · have := QPB.typeOf_eq e
    rw [k3] at this
    cases this

/-- Without upper limits the hotstart meets the hypotheses of `C67_hotstart_partial` and reports unboundedness, rightly. -/
theorem sem2_unbounded : ∃ o, sem1 [100,100000000000000000000] [100000000000000000000] = .ok o ∧
    SessionC rootC 5 2 1 semH gen0A (lowerOf (some (vec [-50]))) (upperOf (some (vec [100000000000000000000]))) o.s ∧
    o.s.options.enableFarBounds = false ∧ 0 < o.s.options.epsDen ∧ o.s.options.maxPrimalJump = sem0.options.maxPrimalJump ∧
    SameKind (o.s.options.enableEqualities = true) o.s.options.boundTolerance 1 (lowerOf (some (vec [-50]))) (upperOf (some (vec [100000000000000000000])))
      (lowerOf (some (vec [-50]))) (upperOf (some (vec [100000000000000000000]))) ∧
    (∀ i < 2, o.s.lb i ≤ o.s.x i ∧ o.s.x i ≤ o.s.ub i) ∧ EqualitiesOK o.s.toQPB (some (vec [0,0])) (some (vec [100,100000000000000000000])) ∧
    QPC.RunClean rootC { o.s with count := o.s.count + 1 } (vec [-20,-1]) (some (vec [0,0])) (some (vec [100,100000000000000000000])) (some (vec [-50]))
      (some (vec [100000000000000000000])) 10 none 0 ∧
    ∃ o', sem2 [100,100000000000000000000] [100000000000000000000] = .ok o' ∧ o'.rv = RET_HOTSTART_STOPPED_UNBOUNDEDNESS := by
  obtain ⟨o, h1, h2, h3, h4, h5, h6, h7, h8, h9⟩ := sem2_clean [100,100000000000000000000] [100000000000000000000]
    (by
      refine ⟨⟨?_, ?_, ?_, Or.inl ?_, ?_, ?_⟩, ?_, ?_, ?_, ?_, ?_, ?_, ?_⟩
      all_goals decide +kernel) (by decide +kernel) (by decide +kernel)
  obtain ⟨o', e', h'⟩ := of_holds (r := sem2 [100,100000000000000000000] [100000000000000000000])
    (p := fun o => decide (o.rv = RET_HOTSTART_STOPPED_UNBOUNDEDNESS)) (by decide +kernel)
  exact ⟨o, h1, h2, h3, h4, h5, h6, h7, h8, h9, o', e', of_decide_eq_true h'⟩

/-- The same hotstart with a guess that names the present working set meets the hypotheses of `C67_guessed_partial`. -/
example : ∃ o, sem1 [100,100000000000000000000] [100000000000000000000] = .ok o ∧
    SessionC rootC 5 2 1 semH gen0A (lowerOf (some (vec [-50]))) (upperOf (some (vec [100000000000000000000]))) o.s ∧
    (∀ k < 1, o.s.lbA k ≤ o.s.prodA o.s.x k ∧ o.s.prodA o.s.x k ≤ o.s.ubA k) ∧
    UsableGuess rootC 1 (lowerOf (some (vec [-50]))) (upperOf (some (vec [100000000000000000000]))) o.s (guessWS [ST_INACTIVE,ST_LOWER]) noneWS (vec [-20,-1])
      (some (vec [0,0])) (some (vec [100,100000000000000000000])) (some (vec [-50])) (some (vec [100000000000000000000])) 10 none ∧
    ∃ o', hotC (sem1 [100,100000000000000000000] [100000000000000000000]) [-20,-1] (some [0,0]) (some [100,100000000000000000000]) (some [-50])
      (some [100000000000000000000]) (.other (guessWS [ST_INACTIVE,ST_LOWER])) (.other noneWS) = .ok o' ∧ o'.rv = RET_HOTSTART_STOPPED_UNBOUNDEDNESS := by
  obtain ⟨o, e0, h1, -⟩ := sem2_unbounded
  obtain ⟨o1, e, h⟩ := of_holds (r := sem1 [100,100000000000000000000] [100000000000000000000]) (p := fun o : OutC ℚ =>
      decide (QPC.GuessRunClean rootC o.s (guessWS [ST_INACTIVE,ST_LOWER]) noneWS (vec [-20,-1])
      (some (vec [0,0])) (some (vec [100,100000000000000000000])) (some (vec [-50])) (some (vec [100000000000000000000])) 10 none) &&
      decide ((∀ k : Nat, k < 1 → o.s.lbA k ≤ o.s.prodA o.s.x k ∧ o.s.prodA o.s.x k ≤ o.s.ubA k) ∧
      o.s.shallRefactorise (guessWS [ST_INACTIVE,ST_LOWER]) noneWS = true ∧ QPC.GuessOK o.s (guessWS [ST_INACTIVE,ST_LOWER]) noneWS ∧ o.s.lbA 0 = -50 ∧
      o.s.options.boundTolerance ≤ 1 ∧ o.s.options.enableEqualities = false)) (by decide +kernel)
  rw [e0] at e
  cases e
  rw [Bool.and_eq_true] at h
  obtain ⟨k5, k6, k7, k8, k10, k11⟩ := of_decide_eq_true h.2
  obtain ⟨o', e', h'⟩ := of_holds (r := hotC (sem1 [100,100000000000000000000] [100000000000000000000]) [-20,-1] (some [0,0]) (some [100,100000000000000000000])
    (some [-50]) (some [100000000000000000000]) (.other (guessWS [ST_INACTIVE,ST_LOWER])) (.other noneWS))
    (p := fun o => decide (o.rv = RET_HOTSTART_STOPPED_UNBOUNDEDNESS)) (by decide +kernel)
  refine ⟨o, e0, h1, k5, Or.inl ⟨k6, k7, of_decide_eq_true h.1, ⟨fun k hk hl => ?_, fun he => ?_, fun h => ?_, fun _ k hk => ?_⟩⟩, o', e', of_decide_eq_true h'⟩
  · obtain rfl : k = 0 := by omega
    rw [k8] at hl
    exact absurd (hl.trans_le (add_le_add_right k10 _)) (by decide +kernel)
  · rw [k11] at he; cases he
  · exact absurd (h 0 (by omega)) (by rw [k8]; decide +kernel)
  · obtain rfl : k = 0 := by omega
    decide +kernel

/-- **C67** is violated: the hotstart meets the hypotheses of `C67_hotstart_partial` and reports unboundedness, but all limits are finite, and the
objective is bounded below. -/
theorem C67_violated : ∃ o, sem1 [100,1000000000] [100000000000] = .ok o ∧
    SessionC rootC 5 2 1 semH gen0A (lowerOf (some (vec [-50]))) (upperOf (some (vec [100000000000]))) o.s ∧
    ∃ o', sem2 [100,1000000000] [100000000000] = .ok o' ∧ o'.rv = RET_HOTSTART_STOPPED_UNBOUNDEDNESS ∧ o'.s.unbounded = true ∧
    ¬ (QPC.qp 2 1 semH (vec [-20,-1]) (vec [0,0]) (vec [100,1000000000]) gen0A (vec [-50]) (vec [100000000000])).UnboundedBelow := by
  obtain ⟨o, h1, h2, -⟩ := sem2_clean [100,1000000000] [100000000000]
    (by
      refine ⟨⟨?_, ?_, ?_, Or.inl ?_, ?_, ?_⟩, ?_, ?_, ?_, ?_, ?_, ?_, ?_⟩
      all_goals decide +kernel) (by decide +kernel) (by decide +kernel)
  obtain ⟨o', e', h'⟩ := of_holds (r := sem2 [100,1000000000] [100000000000])
    (p := fun o => decide (o.rv = RET_HOTSTART_STOPPED_UNBOUNDEDNESS ∧ o.s.unbounded = true)) (by decide +kernel)
  obtain ⟨r1, r2⟩ := of_decide_eq_true h'
  refine ⟨o, h1, h2, o', e', r1, r2, fun hu => ?_⟩
  obtain ⟨x, hx, hlt⟩ := hu (-50 - 1000000000)
  have h1 : x 1 ≤ 1000000000 := hx.upper 1 (show 1 < 2 by omega) (by decide +kernel)
  have e : QP.obj (QPC.qp 2 1 semH (vec [-20,-1]) (vec [0,0]) (vec [100,1000000000]) gen0A (vec [-50]) (vec [100000000000])) x =
      2 * ((x 0 - 5) * (x 0 - 5)) - 50 - x 1 := by
    simp [QP.obj, QPC.qp, QP.row, semH, vec, sum_range_succ]; ring
  rw [e] at hlt
  have := mul_self_nonneg (x 0 - 5)
  linarith

/-- **C68** is violated: a cold start for a QP that is unbounded below succeeds after a full step; it meets the hypotheses of `C68_init_partial`. -/
def sem3 : Res (OutC ℚ) := coldC sem0 (some [4,0,0,0]) [-20,-1] [3,4] [0,0] [100,100000000000000000000] [-50] [100000000000000000000]

theorem C68_violated :
    QPC.ColdClean rootC (sem0c [-20,-1] [0,0] [100,100000000000000000000] [-50] [100000000000000000000]) none none none none 10 none ∧
    ∃ o, sem3 = .ok o ∧ o.rv = SUCCESSFUL_RETURN ∧ o.s.status = QPS_SOLVED ∧ o.s.tau = 1 ∧ o.s.unbounded = false ∧
      o.s.x 1 = 1599999999999999999769/64 ∧ o.s.y 2 = -1/4 ∧ QP.PosSemidef 2 semH ∧
      (QPC.qp 2 1 semH (vec [-20,-1]) (vec [0,0]) (vec [100,100000000000000000000]) gen0A (vec [-50]) (vec [100000000000000000000])).UnboundedBelow := by
  refine ⟨by decide +kernel, ?_⟩
  obtain ⟨o, e, h⟩ := of_holds (r := sem3)
    (p := fun o => decide (o.rv = SUCCESSFUL_RETURN ∧ o.s.status = QPS_SOLVED ∧ o.s.tau = 1 ∧ o.s.unbounded = false ∧ o.s.x 1 = 1599999999999999999769/64 ∧ o.s.y 2 = -1/4))
    (by decide +kernel)
  obtain ⟨h1, h2, h3, h4, h5, h6⟩ := of_decide_eq_true h
  refine ⟨o, e, h1, h2, h3, h4, h5, h6, semH_posSemidef, fun c => ?_⟩
  have hinf : (INFTY : ℚ) = 100000000000000000000 := by decide +kernel
  refine ⟨fun i => if i = 1 then |c| + 1 else 0, ⟨fun i hi hl => ?_, fun i hi hl => ?_, fun k hk hl => ?_, fun k hk hl => ?_⟩, ?_⟩
  · have hi : i < 2 := hi
    have := abs_nonneg c
    interval_cases i <;> simp [QPC.qp, vec]
    linarith
  · have hi : i < 2 := hi
    interval_cases i
    · simp [QPC.qp, vec]
    · rw [hinf] at hl
      simp [QPC.qp, vec] at hl
  · have hk : k < 1 := hk
    have := abs_nonneg c
    interval_cases k
    simp [QPC.qp, vec, QP.row, gen0A, sum_range_succ]
    linarith
  · have hk : k < 1 := hk
    interval_cases k
    rw [hinf] at hl
    simp [QPC.qp, vec] at hl
  · simp [QP.obj, QPC.qp, QP.row, semH, vec, sum_range_succ]
    have := neg_abs_le c
    linarith

/-- A hotstart after that cold start meets the hypotheses of `C68_hotstart_partial` and succeeds, too. -/
example : ∃ o, sem3 = .ok o ∧
    SessionC rootC 5 2 1 semH gen0A (lowerOf (some (vec [-50]))) (upperOf (some (vec [100000000000000000000]))) o.s ∧
    o.s.options.enableFarBounds = false ∧ 0 ≤ o.s.options.terminationTolerance ∧
    SameKind (o.s.options.enableEqualities = true) o.s.options.boundTolerance 1 (lowerOf (some (vec [-50]))) (upperOf (some (vec [100000000000000000000])))
      (lowerOf (some (vec [-50]))) (upperOf (some (vec [100000000000000000000]))) ∧
    (∀ i < 2, o.s.lb i ≤ o.s.x i ∧ o.s.x i ≤ o.s.ub i) ∧ EqualitiesOK o.s.toQPB (some (vec [0,0])) (some (vec [100,100000000000000000000])) ∧
    QPC.RunClean rootC { o.s with count := o.s.count + 1 } (vec [-24,-2]) (some (vec [0,0])) (some (vec [100,100000000000000000000])) (some (vec [-50]))
      (some (vec [100000000000000000000])) 10 none 0 ∧
    ∃ o', hotC sem3 [-24,-2] (some [0,0]) (some [100,100000000000000000000]) (some [-50]) (some [100000000000000000000]) .null .null = .ok o' ∧
      o'.rv = SUCCESSFUL_RETURN ∧ o'.s.tau = 1 ∧ o'.s.y 2 = -1/2 := by
  obtain ⟨o, e, h⟩ := of_holds (r := sem3) (p := fun o : OutC ℚ => decide (EqualitiesOK o.s.toQPB (some (vec [0,0])) (some (vec [100,100000000000000000000]))) &&
      decide (QPC.RunClean rootC { o.s with count := o.s.count + 1 } (vec [-24,-2]) (some (vec [0,0])) (some (vec [100,100000000000000000000])) (some (vec [-50]))
        (some (vec [100000000000000000000])) 10 none 0) &&
      decide (o.rv = SUCCESSFUL_RETURN ∧ o.s.options.enableFarBounds = false ∧ 0 ≤ o.s.options.terminationTolerance ∧
        (∀ i : Nat, i < 2 → o.s.lb i ≤ o.s.x i ∧ o.s.x i ≤ o.s.ub i) ∧ o.s.options.boundTolerance ≤ 1 ∧ o.s.options.enableEqualities = false)) (by decide +kernel)
  rw [Bool.and_eq_true, Bool.and_eq_true] at h
  obtain ⟨⟨h1, h2⟩, h3⟩ := h
  obtain ⟨k1, k2, k3, k4, k5, k6⟩ := of_decide_eq_true h3
  obtain ⟨o', e', h'⟩ := of_holds (r := hotC sem3 [-24,-2] (some [0,0]) (some [100,100000000000000000000]) (some [-50]) (some [100000000000000000000]) .null .null)
    (p := fun o => decide (o.rv = SUCCESSFUL_RETURN ∧ o.s.tau = 1 ∧ o.s.y 2 = -1/2)) (by decide +kernel)
  refine ⟨o, e, SessionC.init sem0_usable rfl rfl (by decide +kernel) rfl rfl rfl
    (lb := some (vec [0,0])) (ub := some (vec [100,100000000000000000000])) (lbA := some (vec [-50])) (ubA := some (vec [100000000000000000000])) ?_
    (sem0_hessian [-20,-1] _ _ _ _) semH_symmetric (sem0_symH [-20,-1] _ _ _ _) C68_violated.1 e (Or.inl k1), k2, k3,
    ⟨fun k hk hl => ?_, fun he => ?_, fun h => h, fun h => h⟩, k4, of_decide_eq_true h1, of_decide_eq_true h2, o', e', of_decide_eq_true h'⟩
  · refine ⟨⟨?_, ?_, ?_, Or.inl ?_, ?_, ?_⟩, ?_, ?_, ?_, ?_, ?_, ?_, ?_⟩
    all_goals decide +kernel
  · obtain rfl : k = 0 := by omega
    exact absurd (hl.trans_le (add_le_add_right k5 _)) (by decide +kernel)
  · rw [k6] at he; cases he

end
end QpOASES.Props
