import Verif.Props.C34_General
import Verif.Props.C38_C44_General

/-!
C72: a hotstart with a guess for the bounds only keeps the working set of the constraints, and one with a guess for the constraints only that of the
bounds ("If a null pointer is passed, the previous working set of bounds is kept!", include/qpOASES/QProblem.hpp:286-289).
-/
namespace QpOASES.Props.General
open Spec ReturnValue SubjectToStatus SubjectToType HessianType QProblemStatus
open QPB (lowerOf upperOf Proper)

set_option linter.unusedSectionVars false

variable {K : Type} [Field K] [LinearOrder K] [IsStrictOrderedRing K]

/-- The first `n` statuses are kept: what was active is still active, on the same side, and nothing else has become active, apart from equalities. -/
def KeptSet (n : Nat) (before after : WS) (type : Nat → SubjectToType) : Prop :=
  ∀ k < n, (before.getStatus k ≠ ST_INACTIVE → after.getStatus k = before.getStatus k) ∧
    (after.getStatus k ≠ ST_INACTIVE → after.getStatus k = before.getStatus k ∨ type k = ST_EQUALITY)

/-- **C72** (part): the working set of the constraints is kept if the solver changes the previous working set and no number falls strictly between zero and a
tolerance meanwhile.  The homotopy starts from the state `s1` in which the
guess has been installed; whatever differs at the end is due to at most `nWSR` recalculations. -/
theorem C72_constraints_kept_partial {sq : K → K} {fuel n m : Nat} {M A : Nat → Nat → K} {l0 u0 : Nat → K} {s : QPC K}
    (h : SessionC sq fuel n m M A l0 u0 s) {wB : WS} (hB : ∀ i < n, Proper (wB.getStatus i)) (hre : s.shallRefactorise wB s.cons = false)
    {g : Nat → K} {lb ub lbA ubA : Option (Nat → K)} {nWSR : Int} {cputime : Option K} (hb : 0 ≤ nWSR) (hc : QPC.UpdatedClean sq (s.guessStart cputime) wB s.cons)
    {gC : QPB.Guess} (hg : QPC.NoGuess gC) {o : OutC K} (ho : QPC.hotstart sq fuel s g lb ub lbA ubA nWSR cputime (.other wB) gC = .ok o) :
    QPC.hotstart sq fuel s g lb ub lbA ubA nWSR cputime (.other wB) (.other s.cons) = .ok o ∧
    ∃ s1 : QPC K, (∃ r, QPC.setupAuxiliaryQP sq (s.guessStart cputime) (some wB) none = .ok (r, s1)) ∧ KeptSet m s.cons s1.cons s.cons.type ∧
      ∃ k : Nat, QPC.Recalcs sq k s1 o.s ∧ (k : Int) ≤ nWSR := by
  have hl := h.live
  have hn := hl.nV
  have hm := hl.nC
  subst hn hm
  have hF := hl.good.facs
  refine ⟨by rw [← QPC.hotstart_keepC hF hB hre hc hg]; exact ho, ?_⟩
  obtain ⟨_, s1, hs1, k, a, b, _⟩ := C38_hotstart hl.pos hb ho
  have e : ∃ r, QPC.setupAuxiliaryQP sq (s.guessStart cputime) (some wB) none = .ok (r, s1) := by
    rcases hg with rfl | rfl <;> exact hs1
  have ex := e
  obtain ⟨r, e⟩ := e
  obtain ⟨now, ek⟩ := QPC.startClock_frame s.toQPB cputime
  have es : s.guessStart cputime = { s with now := now } := by unfold QPC.guessStart; rw [ek]
  rw [es] at e hc
  have hF' : ({ s with now := now } : QPC K).Facs := hF.congr rfl rfl rfl rfl rfl rfl rfl rfl rfl rfl id
  obtain ⟨k1, k2, k3⟩ := QPC.setupAuxiliaryQP_keptC (s := { s with now := now }) hF' hB hre hc e
  have hd := QPC.setupAuxiliaryQP_dims e
  have hn1 : s1.nC = s.nC := QPC.dims_nC hd
  have hw : s1.cons.n = s.cons.n := k3.trans hF.shape.nC.symm
  refine ⟨s1, ex, fun j hj => ?_, k, a, b⟩
  have hj0 : j < s.cons.n := by rw [hF.shape.nC]; exact hj
  rw [WS.getStatus_of_lt hj0, WS.getStatus_of_lt (by rw [hw]; exact hj0)]
  refine ⟨fun ha => k1 j ha, fun ha => ?_⟩
  have := k2 j (by rw [hn1]; exact hj) ha
  rw [WS.getStatus_of_lt hj0] at this
  exact this

/-- **C72** (part): the same for the bounds if a guess for the constraints is given. -/
theorem C72_bounds_kept_partial {sq : K → K} {fuel n m : Nat} {M A : Nat → Nat → K} {l0 u0 : Nat → K} {s : QPC K}
    (h : SessionC sq fuel n m M A l0 u0 s) {wC : WS} (hC : ∀ i < m, Proper (wC.getStatus i)) (hre : s.shallRefactorise s.bounds wC = false)
    {g : Nat → K} {lb ub lbA ubA : Option (Nat → K)} {nWSR : Int} {cputime : Option K} (hb : 0 ≤ nWSR) (hc : QPC.UpdatedClean sq (s.guessStart cputime) s.bounds wC)
    {gB : QPB.Guess} (hg : QPC.NoGuess gB) {o : OutC K} (ho : QPC.hotstart sq fuel s g lb ub lbA ubA nWSR cputime gB (.other wC) = .ok o) :
    QPC.hotstart sq fuel s g lb ub lbA ubA nWSR cputime (.other s.bounds) (.other wC) = .ok o ∧
    ∃ s1 : QPC K, (∃ r, QPC.setupAuxiliaryQP sq (s.guessStart cputime) none (some wC) = .ok (r, s1)) ∧ KeptSet n s.bounds s1.bounds s.bounds.type ∧
      ∃ k : Nat, QPC.Recalcs sq k s1 o.s ∧ (k : Int) ≤ nWSR := by
  have hl := h.live
  have hn := hl.nV
  have hm := hl.nC
  subst hn hm
  have hF := hl.good.facs
  refine ⟨by rw [← QPC.hotstart_keepB hF hre hc hg]; exact ho, ?_⟩
  obtain ⟨_, s1, hs1, k, a, b, _⟩ := C38_hotstart hl.pos hb ho
  have e : ∃ r, QPC.setupAuxiliaryQP sq (s.guessStart cputime) none (some wC) = .ok (r, s1) := by
    rcases hg with rfl | rfl <;> exact hs1
  have ex := e
  obtain ⟨r, e⟩ := e
  obtain ⟨now, ek⟩ := QPC.startClock_frame s.toQPB cputime
  have es : s.guessStart cputime = { s with now := now } := by unfold QPC.guessStart; rw [ek]
  rw [es] at e hc
  have hF' : ({ s with now := now } : QPC K).Facs := hF.congr rfl rfl rfl rfl rfl rfl rfl rfl rfl rfl id
  obtain ⟨k1, k2, k3⟩ := QPC.setupAuxiliaryQP_keptB (s := { s with now := now }) hF' hC hre hc e
  have hw : s1.bounds.n = s.bounds.n := k3.trans hF.shape.nB.symm
  refine ⟨s1, ex, fun j hj => ?_, k, a, b⟩
  have hj0 : j < s.bounds.n := by rw [hF.shape.nB]; exact hj
  rw [WS.getStatus_of_lt hj0, WS.getStatus_of_lt (by rw [hw]; exact hj0)]
  refine ⟨fun ha => k1 j ha, fun ha => ?_⟩
  have := k2 j hj ha
  rw [WS.getStatus_of_lt hj0] at this
  exact this

/-- **C72** is violated: if the solver sets up the working set afresh, a missing guess for the constraints is treated as if none of them were guessed active. -/
theorem C72_constraints_emptied_violation {sq : K → K} {fuel : Nat} {s : QPC K} {wB : WS} (hre : s.shallRefactorise wB s.cons = true)
    {g : Nat → K} {lb ub lbA ubA : Option (Nat → K)} {nWSR : Int} {cputime : Option K} {gC : QPB.Guess} (hg : QPC.NoGuess gC) :
    (∀ k < s.nC, (QPC.noneActive s.nC).getStatus k = ST_INACTIVE) ∧
    QPC.hotstart sq fuel s g lb ub lbA ubA nWSR cputime (.other wB) gC =
      QPC.hotstart sq fuel s g lb ub lbA ubA nWSR cputime (.other wB) (.other (QPC.noneActive s.nC)) :=
  ⟨fun _ hk => QPC.noneActive_status hk, QPC.hotstart_scratchB hre hg⟩

/-- The same for a missing guess for the bounds. -/
theorem C72_bounds_emptied_violation {sq : K → K} {fuel : Nat} {s : QPC K} {wC : WS} (hre : s.shallRefactorise s.bounds wC = true)
    {g : Nat → K} {lb ub lbA ubA : Option (Nat → K)} {nWSR : Int} {cputime : Option K} {gB : QPB.Guess} (hg : QPC.NoGuess gB) :
    (∀ k < s.nV, (QPC.noneActive s.nV).getStatus k = ST_INACTIVE) ∧
    QPC.hotstart sq fuel s g lb ub lbA ubA nWSR cputime gB (.other wC) =
      QPC.hotstart sq fuel s g lb ub lbA ubA nWSR cputime (.other (QPC.noneActive s.nV)) (.other wC) :=
  ⟨fun _ hk => QPC.noneActive_status hk, QPC.hotstart_scratchC hre hg⟩

section
open QpOASES.Runs

/-- A hotstart that may not change the working set, as used to install a guess -/
def probe (r : Res (OutC ℚ)) (gB gC : QPB.Guess) : Res (OutC ℚ) := r.bind fun o => QPC.hotstart rootC 5 o.s (vec [40,-100]) (some (vec [-2,-100])) (some (vec [100,100]))
  (some (vec [-50])) (some (vec [5])) 0 none gB gC

/-- The run of `C34_General` ends with x₀ at its lower bound and the constraint at its upper limit. -/
theorem gen2_active : ∃ o, gen2 = .ok o ∧ o.s.bounds.getStatus 0 = ST_LOWER ∧ o.s.cons.getStatus 0 = ST_UPPER := by
  obtain ⟨o, e, h⟩ := of_holds (r := gen2) (p := fun o => decide (o.s.bounds.getStatus 0 = ST_LOWER ∧ o.s.cons.getStatus 0 = ST_UPPER)) (by decide +kernel)
  exact ⟨o, e, of_decide_eq_true h⟩

/-- **C72** is violated: a guess that drops the constraint, without a guess for the bounds, also drops the bound at which x₀ is. -/
theorem C72_violated : ∃ o o', gen2 = .ok o ∧ o.s.bounds.getStatus 0 = ST_LOWER ∧ o.s.bounds.type 0 = ST_BOUNDED ∧
    probe gen2 .null (.other (guessWS [ST_INACTIVE])) = .ok o' ∧ o'.rv = RET_MAX_NWSR_REACHED ∧ o'.nWSR = 0 ∧ o'.s.bounds.getStatus 0 = ST_INACTIVE := by
  obtain ⟨o, e, h⟩ := of_holds (r := gen2) (p := fun o => decide (o.s.bounds.getStatus 0 = ST_LOWER ∧ o.s.bounds.type 0 = ST_BOUNDED)) (by decide +kernel)
  obtain ⟨o', e', h'⟩ := of_holds (r := probe gen2 .null (.other (guessWS [ST_INACTIVE])))
    (p := fun o' => decide (o'.rv = RET_MAX_NWSR_REACHED ∧ o'.nWSR = 0 ∧ o'.s.bounds.getStatus 0 = ST_INACTIVE)) (by decide +kernel)
  obtain ⟨a, b⟩ := of_decide_eq_true h
  exact ⟨o, o', e, a, b, e', of_decide_eq_true h'⟩

/-- The hypotheses of `C72_constraints_kept_partial` are met by the first guess of `C34_General`, and the constraint stays active. -/
example : ∃ o, gen1 = .ok o ∧ o.s.cons.getStatus 0 = ST_UPPER ∧
    SessionC rootC 5 2 1 gen0H gen0A (lowerOf (some (vec [-50]))) (upperOf (some (vec [5]))) o.s ∧
    (∀ i : Nat, i < 2 → Proper ((guessWS [ST_LOWER, ST_INACTIVE]).getStatus i)) ∧
    o.s.shallRefactorise (guessWS [ST_LOWER, ST_INACTIVE]) o.s.cons = false ∧
    QPC.UpdatedClean rootC (o.s.guessStart none) (guessWS [ST_LOWER, ST_INACTIVE]) o.s.cons ∧
    ∃ o', probe gen1 (.other (guessWS [ST_LOWER, ST_INACTIVE])) .null = .ok o' ∧ o'.s.cons.getStatus 0 = ST_UPPER ∧ o'.s.bounds.getStatus 0 = ST_LOWER := by
  obtain ⟨o, e, _, _, hu, hs⟩ := gen1_session
  obtain ⟨o1, e1, h⟩ := of_holds (r := gen1) (p := fun o : OutC ℚ => decide (o.s.shallRefactorise (guessWS [ST_LOWER, ST_INACTIVE]) o.s.cons = false) &&
    decide (QPC.UpdatedClean rootC (o.s.guessStart none) (guessWS [ST_LOWER, ST_INACTIVE]) o.s.cons)) (by decide +kernel)
  rw [e] at e1
  cases e1
  rw [Bool.and_eq_true] at h
  obtain ⟨o', e', h'⟩ := of_holds (r := probe gen1 (.other (guessWS [ST_LOWER, ST_INACTIVE])) .null)
    (p := fun o' => decide (o'.s.cons.getStatus 0 = ST_UPPER ∧ o'.s.bounds.getStatus 0 = ST_LOWER)) (by decide +kernel)
  exact ⟨o, e, hu, hs, by decide, of_decide_eq_true h.1, of_decide_eq_true h.2, o', e', of_decide_eq_true h'⟩

/-- Those of `C72_bounds_kept_partial` are met after the second hotstart by a guess that names the constraint at its upper limit. -/
example : holds gen2 (fun o => decide (o.s.shallRefactorise o.s.bounds (guessWS [ST_UPPER]) = false) &&
    decide (QPC.UpdatedClean rootC (o.s.guessStart none) o.s.bounds (guessWS [ST_UPPER]))) = true := by decide +kernel

end

end QpOASES.Props.General
