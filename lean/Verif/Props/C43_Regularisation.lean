import Verif.Proofs.QPBSession
import Verif.Proofs.QPBRuns
import Verif.Proofs.QPBOutcome
import Verif.Proofs.QPBCheck
import Mathlib.Tactic.Linarith
import Mathlib.Tactic.Ring
import Mathlib.Tactic.IntervalCases

/-!
C43: regularisation (bound-constrained solver).
-/
namespace QpOASES.Props
open Finset Spec QPB ReturnValue SubjectToStatus SubjectToType HessianType QProblemStatus

set_option linter.unusedSectionVars false

variable {K : Type} [Field K] [LinearOrder K] [IsStrictOrderedRing K]

/-- `k` correction steps of the proximal point iteration for the QP with data `H`, `g`, `l`, `u`, where `H` includes the
regularisation with parameter `eps`, lead to `(x,y)`: the regularised QP is solved first, then, `k` times, the regularised QP with
gradient `g - eps*z`, where `z` is the solution of the previous one.  Solutions are meant up to the tolerance `tol`. -/
inductive Proximal (n : Nat) (H : Nat → Nat → K) (g l u : Nat → K) (tol eps : K) : Nat → (Nat → K) → (Nat → K) → Prop
  | first {x y : Nat → K} (h : SolvesNear n H g l u tol x y) : Proximal n H g l u tol eps 0 x y
  | next {k : Nat} {z w x y : Nat → K} (h : Proximal n H g l u tol eps k z w)
      (h' : SolvesNear n H (fun i => g i - eps * z i) l u tol x y) : Proximal n H g l u tol eps (k+1) x y

/-- What a solve needs: the object has solved the QP with its current data. -/
structure ReadyFor (sq : K → K) (s : QPB K) (l u : Nat → K) : Prop where
  status : s.status = QPS_AUXILIARYQPSOLVED ∨ s.status = QPS_HOMOTOPYQPSOLVED ∨ s.status = QPS_SOLVED
  inv : (s.setupSubjectToType (some l) (some u)).Inv
  box : ∀ i < s.nV, l i ≤ u i
  noEq : s.options.enableEqualities = false
  sqrt : s.SqrtFor sq

theorem ReadyFor.solve {sq : K → K} {s : QPB K} {l u : Nat → K} (h : ReadyFor sq s l u) {gNew : Nat → K} (nWSR : Int) (c : Option K) (p : Int)
    (hc : RunClean sq s gNew (some l) (some u) nWSR c p) :
    ∃ o, solveQP sq s gNew (some l) (some u) nWSR c p = .ok o ∧ (o.rv = SUCCESSFUL_RETURN →
      SolvesNear s.nV s.Heff gNew l u s.options.terminationTolerance o.s.x o.s.y ∧ ReadyFor sq o.s l u ∧ o.s.nV = s.nV ∧
      o.s.Heff = s.Heff ∧ o.s.options = s.options ∧ o.s.regVal = s.regVal ∧ o.s.status = QPS_SOLVED) := by
  have hty : ∀ i < s.nV, (s.setupSubjectToType (some l) (some u)).bounds.type i = s.typeOf (some l) (some u) i := fun i hi => if_pos hi
  have hT : Target (s.setupSubjectToType (some l) (some u)) (lowerOf (some l)) (upperOf (some u)) := by
    refine ⟨h.box, fun i hi e => ?_⟩
    rw [hty i hi] at e
    have := typeOf_eq e
    rw [h.noEq] at this
    cases this
  obtain ⟨o, e, a, -⟩ := solveQP_spec h.sqrt nWSR c p h.status h.inv hT hc
  refine ⟨o, e, fun hs => ?_⟩
  obtain ⟨a1, a2⟩ := a hs
  have b1 : o.s.nV = s.nV := a2.nV
  have b2 : o.s.Heff = s.Heff := a2.hess
  have b3 : o.s.options = s.options := a2.options
  have N := a1.solvesNear (fun hh => by rw [a2.noLower]; exact noLower_false (by rw [← b1]; exact hh))
    (fun hh => by rw [a2.noUpper]; exact noUpper_false (by rw [← b1]; exact hh))
  refine ⟨?_, ⟨Or.inr (Or.inr a1.status), ?_, ?_, ?_, ?_⟩, b1, b2, b3, a2.reg, a1.status⟩
  · rw [b1, b2, b3] at N; exact N.1
  · have W := a1.inv.opt.within a1.inv.ws a1.inv.n
    refine a1.inv.retype (fun i _ e => ?_) (fun i hi _ e => ?_) (fun hl i hi _ => ?_) (fun hu i hi _ => ?_)
    · have := typeOf_eq e
      rw [b3, h.noEq] at this
      cases this
    · rw [a2.type, hty i (by rw [← b1]; exact hi)] at e
      have := typeOf_eq e
      rw [h.noEq] at this
      cases this
    · refine W.1 ?_ i hi
      rw [a2.noLower, ← hl]
      show ((List.range s.nV).all fun i => !decide (l i > -INFTY)) = ((List.range o.s.nV).all fun i => !decide (l i > -INFTY))
      rw [b1]
    · refine W.2 ?_ i hi
      rw [a2.noUpper, ← hu]
      show ((List.range s.nV).all fun i => !decide (u i < INFTY)) = ((List.range o.s.nV).all fun i => !decide (u i < INFTY))
      rw [b1]
  · rw [b1]; exact h.box
  · rw [b3]; exact h.noEq
  · exact a2.sqrt h.sqrt

/-- No number in the correction solves falls strictly between zero and a tolerance. -/
def StepsClean (sq : K → K) (gNew l u : Nat → K) (nWSR : Int) (c : Option K) : Nat → Out K → K → Prop
  | 0, _, _ => True
  | m+1, o, total =>
    RunClean sq o.s (fun i => gNew i - o.s.regVal * o.s.x i) (some l) (some u) nWSR (c.map fun t => t - total) o.nWSR ∧
    ∀ o', solveQP sq o.s (fun i => gNew i - o.s.regVal * o.s.x i) (some l) (some u) nWSR (c.map fun t => t - total) o.nWSR = .ok o' →
      StepsClean sq gNew l u nWSR c m o' (total + o'.cputime.getD 0)

/-- **C43** (part): a regularised solve that succeeds has performed the configured number of correction steps, and the object
holds the user's gradient and the last iterate. -/
theorem C43_steps_partial {sq : K → K} {s : QPB K} {gNew l u : Nat → K} {nWSR : Int} {c : Option K} {p : Int} {o : Out K}
    (hr : ReadyFor sq s l u) (hu : s.usingRegularisation = true)
    (hc : RunClean sq s gNew (some l) (some u) nWSR c p)
    (hcs : ∀ o1, solveQP sq s gNew (some l) (some u) nWSR c p = .ok o1 →
      StepsClean sq gNew l u nWSR c s.options.numRegularisationSteps.toNat o1 (o1.cputime.getD 0))
    (h : solveRegularisedQP sq s gNew (some l) (some u) nWSR c p = .ok o) (hs : o.rv = SUCCESSFUL_RETURN) :
    Proximal s.nV s.Heff gNew l u s.options.terminationTolerance s.regVal s.options.numRegularisationSteps.toNat o.s.x o.s.y ∧
    o.s.g = gNew ∧ o.s.status = QPS_SOLVED := by
  have steps : ∀ (m k : Nat) (o1 : Out K) (total : K), ReadyFor sq o1.s l u → o1.s.nV = s.nV → o1.s.Heff = s.Heff → o1.s.options = s.options →
      o1.s.regVal = s.regVal → o1.s.status = QPS_SOLVED →
      Proximal s.nV s.Heff gNew l u s.options.terminationTolerance s.regVal k o1.s.x o1.s.y →
      StepsClean sq gNew l u nWSR c m o1 total → regSteps sq gNew (some l) (some u) nWSR c m o1 total = .ok o →
      Proximal s.nV s.Heff gNew l u s.options.terminationTolerance s.regVal (k + m) o.s.x o.s.y ∧ o.s.g = gNew ∧ o.s.status = QPS_SOLVED := by
    intro m
    induction m with
    | zero =>
      intro k o1 total r e1 e2 e3 e4 st P _ h
      cases h
      exact ⟨P, rfl, st⟩
    | succ m ih =>
      intro k o1 total r e1 e2 e3 e4 st P C h
      unfold regSteps at h
      obtain ⟨o2, E, h⟩ := Res.bind_eq_ok.1 h
      dsimp only at h
      obtain ⟨o3, E', S⟩ := r.solve (gNew := fun i => gNew i - o1.s.regVal * o1.s.x i) nWSR (c.map fun t => t - total) o1.nWSR C.1
      rw [E] at E'
      cases E'
      split at h
      · rename_i hne
        cases h
        exact absurd hs hne
      · rename_i he
        have he : o2.rv = SUCCESSFUL_RETURN := by simpa using he
        obtain ⟨s1, s2, s3, s4, s5, s6, s7⟩ := S he
        rw [e1, e2, e3, e4] at s1
        have := ih (k+1) o2 _ s2 (s3.trans e1) (s4.trans e2) (s5.trans e3) (s6.trans e4) s7 (.next P s1) (C.2 o2 E) h
        rw [show k + 1 + m = k + (m + 1) by omega] at this
        exact this
  unfold solveRegularisedQP at h
  rw [if_neg (by rw [hu]; decide)] at h
  obtain ⟨o1, E, h⟩ := Res.bind_eq_ok.1 h
  dsimp only at h
  obtain ⟨o3, E', S⟩ := hr.solve nWSR c p hc
  rw [E] at E'
  cases E'
  split at h
  · rename_i hne
    cases h
    exact absurd hs hne
  · rename_i he
    have he : o1.rv = SUCCESSFUL_RETURN := by simpa using he
    obtain ⟨s1, s2, s3, s4, s5, s6, s7⟩ := S he
    rw [s5] at h
    have := steps s.options.numRegularisationSteps.toNat 0 o1 _ s2 s3 s4 s5 s6 s7 (.first s1) (hcs o1 E) h
    rw [Nat.zero_add] at this
    exact this

/-- `H'` is `H` plus `eps` times the identity. -/
def Regularised (n : Nat) (H H' : Nat → Nat → K) (eps : K) : Prop := ∀ i < n, ∀ j < n, H' i j = H i j + if i = j then eps else 0

/-- **C43** (part): after at least one correction step, the result satisfies the optimality conditions of the problem *without*
regularisation, up to the tolerance and `eps` times the difference of the last two iterates. -/
theorem C43_original {n : Nat} {H H' : Nat → Nat → K} {g l u x y : Nat → K} {tol eps : K} {k : Nat} (hH : Regularised n H H' eps)
    (h : Proximal n H' g l u tol eps (k+1) x y) :
    ∃ z w, Proximal n H' g l u tol eps k z w ∧ ∃ g' l' u', (∀ i < n, |g i - g' i| ≤ tol * max 1 |g i - eps * z i| + |eps| * |x i - z i|) ∧
      Near n tol l l' ∧ Near n tol u u' ∧ BoxOptimal n H g' l' u' l u x y := by
  cases h with
  | @next _ z w _ _ h h' =>
    obtain ⟨g', l', u', n1, n2, n3, b⟩ := h'
    refine ⟨z, w, h, fun i => g' i + eps * x i, l', u', fun i hi => ?_, n2, n3, ⟨⟨fun i hi => ?_, b.stationary.pos, b.stationary.neg,
      b.stationary.posA, b.stationary.negA⟩, b.lower, b.upper⟩⟩
    · have e : g i - (g' i + eps * x i) = (g i - eps * z i - g' i) - eps * (x i - z i) := by ring
      rw [e, ← abs_mul]
      exact (abs_sub _ _).trans (add_le_add_left (n1 i hi) _)
    · have hi : i < n := hi
      have s := b.stationary.stat i hi
      have e : QP.row n H' x i = QP.row n H x i + eps * x i := by
        unfold QP.row
        have : ∀ j ∈ range n, H' i j * x j = H i j * x j + if i = j then eps * x j else 0 := by
          intro j hj
          rw [hH i hi j (mem_range.1 hj), add_mul]
          congr 1
          split <;> simp
        rw [sum_congr rfl this, sum_add_distrib, sum_ite_eq, if_pos (mem_range.2 hi)]
      have s : QP.row n H' x i + g' i = y i + ∑ k ∈ range 0, (0:K) * y (n + k) := s
      show QP.row n H x i + (g' i + eps * x i) = y i + ∑ k ∈ range 0, (0:K) * y (n + k)
      rw [← s, e]
      ring

/-- **C43**: if the last two iterates coincide, the conditions of the unregularised problem hold up to the tolerance. -/
theorem C43_fixpoint {n : Nat} {H H' : Nat → Nat → K} {g l u x y : Nat → K} {tol eps : K} (hH : Regularised n H H' eps)
    (h : SolvesNear n H' (fun i => g i - eps * x i) l u tol x y) :
    ∃ g' l' u', (∀ i < n, |g i - g' i| ≤ tol * max 1 |g i - eps * x i|) ∧
      Near n tol l l' ∧ Near n tol u u' ∧ BoxOptimal n H g' l' u' l u x y := by
  obtain ⟨g', l', u', n1, n2, n3, b⟩ := h
  refine ⟨fun i => g' i + eps * x i, l', u', fun i hi => ?_, n2, n3, ⟨⟨fun i hi => ?_, b.stationary.pos, b.stationary.neg,
    b.stationary.posA, b.stationary.negA⟩, b.lower, b.upper⟩⟩
  · have e : g i - (g' i + eps * x i) = g i - eps * x i - g' i := by ring
    rw [e]
    exact n1 i hi
  · have hi : i < n := hi
    have s := b.stationary.stat i hi
    have e : QP.row n H' x i = QP.row n H x i + eps * x i := by
      unfold QP.row
      have : ∀ j ∈ range n, H' i j * x j = H i j * x j + if i = j then eps * x j else 0 := by
        intro j hj
        rw [hH i hi j (mem_range.1 hj), add_mul]
        congr 1
        split <;> simp
      rw [sum_congr rfl this, sum_add_distrib, sum_ite_eq, if_pos (mem_range.2 hi)]
    have s : QP.row n H' x i + g' i = y i + ∑ k ∈ range 0, (0:K) * y (n + k) := s
    show QP.row n H x i + (g' i + eps * x i) = y i + ∑ k ∈ range 0, (0:K) * y (n + k)
    rw [← s, e]
    ring

/-- **C43** (part): regularising adds `eps` times the identity to the Hessian, where `eps` is the parameter of the correction steps.
Nothing else is changed. -/
theorem C43_regularise {sq : K → K} {s s' : QPB K} (he : s.options.enableRegularisation = true) (hn : s.usingRegularisation = false)
    (h : regulariseHessian sq s = .ok (SUCCESSFUL_RETURN, s')) (hr : s'.usingRegularisation = true) :
    Regularised s.nV s.Heff s'.Heff s'.regVal ∧ ∃ H, s' = { s with regVal := s'.regVal, H := H } := by
  unfold regulariseHessian at h
  rw [if_neg (by rw [he]; decide)] at h
  by_cases hi : s.hessianType = HST_IDENTITY
  · rw [if_pos hi] at h; cases h
  rw [if_neg hi, if_neg (by rw [hn]; decide)] at h
  by_cases hz : s.hessianType = HST_ZERO
  · rw [if_pos hz] at h
    cases h
    refine ⟨fun i _ j _ => ?_, s.H, rfl⟩
    have e1 : s.scal = 0 := by unfold QPB.scal; rw [if_pos hz, if_neg (by rw [hn]; decide)]
    have hs' : ∀ r : K, ({ s with regVal := r } : QPB K).scalarH := fun _ => Or.inl hz
    refine (Heff_scalar (hs' _) i j).trans ?_
    rw [Heff_scalar (Or.inl hz) i j, e1]
    unfold QPB.scal
    rw [if_pos hz, if_pos hr]
    split <;> simp
  · rw [if_neg hz] at h
    obtain ⟨H, e, h⟩ := Res.bind_eq_ok.1 h
    cases h
    have hs : ¬ s.scalarH := fun h => h.elim hz hi
    have eH : s.H = some H := by
      unfold getH at e
      split at e
      · cases e; assumption
      · cases e
    refine ⟨fun i h1 j h2 => ?_, _, rfl⟩
    rw [Heff_of_H hs eH]
    have hs' : ∀ (r : K) (H' : Nat → Nat → K), ¬ ({ s with regVal := r, H := some H' } : QPB K).scalarH := fun _ _ => hs
    refine (Heff_of_H (hs' _ _) rfl i j).trans ?_
    by_cases hij : i = j
    · rw [if_pos ⟨hij, h1⟩, if_pos hij]
    · rw [if_neg fun h => hij h.1, if_neg hij, add_zero]

/-! ### the hypotheses are met -/
section
open Runs

/-- Minimise -3x₀ over [0,10]×[-1,1], regularised by ½|x|², with four correction steps. -/
def lpOptions : Options ℚ := { plain with enableRegularisation := true, numRegularisationSteps := 4 }

/-- The object before the homotopy: nothing is active at the origin. -/
def lp : QPB ℚ := { start 2 HST_ZERO lpOptions with
  bounds := { (start 2 HST_ZERO lpOptions).bounds with
    noLower := false
    noUpper := false
    free := [0, 1]
    fixed := []
    status := fun _ => ST_INACTIVE
    type := fun _ => ST_BOUNDED }
  lb := vec [0, -1]
  ub := vec [10, 1]
  R := fun i j => if i = j then 1 else 0
  haveCholesky := true
  regVal := 1
  status := QPS_AUXILIARYQPSOLVED }

theorem lp_ready : ReadyFor root lp (vec [0, -1]) (vec [10, 1]) := by
  refine ⟨Or.inl (by decide +kernel), ?_, ?_, by decide +kernel, ?_⟩
  · refine ⟨⟨?_, ?_, ?_⟩, rfl, ⟨fun _ => ⟨1, ?_, ?_, ?_⟩, fun h => absurd (Or.inl (by decide +kernel)) h⟩, ?_, ?_, ?_, ?_⟩
    · decide +kernel
    · intro i _; rfl
    · intro i hi; cases hi
    · decide +kernel
    · decide +kernel
    · decide +kernel
    · unfold QP.Symmetric; decide +kernel
    · refine ⟨?_, ?_, ?_, ?_, ?_, ?_⟩ <;> decide +kernel
    · refine ⟨?_, ?_, ?_, ?_, Or.inl ?_⟩ <;> decide +kernel
    · intro h; exact absurd h (by decide +kernel)
  · decide +kernel
  · exact ⟨fun h => absurd (Or.inl (by decide +kernel)) h, fun _ _ => by decide +kernel⟩

/-- Check of `StepsClean`. -/
def stepsB (gNew l u : Nat → ℚ) (nWSR : Int) : Nat → Out ℚ → Bool
  | 0, _ => true
  | m+1, o =>
    runB root o.s (fun i => gNew i - o.s.regVal * o.s.x i) (some l) (some u) nWSR none o.nWSR &&
    match solveQP root o.s (fun i => gNew i - o.s.regVal * o.s.x i) (some l) (some u) nWSR none o.nWSR with
    | .ok o' => stepsB gNew l u nWSR m o'
    | _ => true

theorem stepsB_spec {gNew l u : Nat → ℚ} {nWSR : Int} : ∀ (m : Nat) (o : Out ℚ) (total : ℚ), stepsB gNew l u nWSR m o = true →
    StepsClean root gNew l u nWSR none m o total := by
  intro m
  induction m with
  | zero => intro _ _ _; trivial
  | succ m ih =>
    intro o total h
    unfold stepsB at h
    rw [Bool.and_eq_true] at h
    refine ⟨runB_spec h.1, fun o' e => ?_⟩
    have h2 := h.2
    simp only [Option.map_none] at e
    rw [e] at h2
    exact ih o' _ h2

/-- The solve and its four correction solves are clean; it succeeds, attains the solution (10,0) of the problem without
regularisation, and the multiplier of the limit is that of the problem without regularisation. -/
example : RunClean root lp (vec [-3, 0]) (some (vec [0, -1])) (some (vec [10, 1])) 10 none 0 ∧
    (∀ o1, solveQP root lp (vec [-3, 0]) (some (vec [0, -1])) (some (vec [10, 1])) 10 none 0 = .ok o1 →
      StepsClean root (vec [-3, 0]) (vec [0, -1]) (vec [10, 1]) 10 none lp.options.numRegularisationSteps.toNat o1 (o1.cputime.getD 0)) ∧
    ∃ o, solveRegularisedQP root lp (vec [-3, 0]) (some (vec [0, -1])) (some (vec [10, 1])) 10 none 0 = .ok o ∧
      o.rv = SUCCESSFUL_RETURN ∧ o.nWSR = 1 ∧ o.s.x 0 = 10 ∧ o.s.x 1 = 0 ∧ o.s.y 0 = -3 ∧ o.s.y 1 = 0 := by
  rw [show lp.options.numRegularisationSteps.toNat = 4 by decide +kernel]
  refine ⟨runB_spec (by decide +kernel), fun o1 e => stepsB_spec _ _ _ ?_, ?_⟩
  · obtain ⟨o, e', h⟩ := of_holds (r := solveQP root lp (vec [-3, 0]) (some (vec [0, -1])) (some (vec [10, 1])) 10 none 0)
      (p := fun o => stepsB (vec [-3, 0]) (vec [0, -1]) (vec [10, 1]) 10 4 o) (by decide +kernel)
    rw [e] at e'
    cases e'
    exact h
  · obtain ⟨o, e', h⟩ := of_holds (r := solveRegularisedQP root lp (vec [-3, 0]) (some (vec [0, -1])) (some (vec [10, 1])) 10 none 0)
      (p := fun o => decide (o.rv = SUCCESSFUL_RETURN ∧ o.nWSR = 1 ∧ o.s.x 0 = 10 ∧ o.s.x 1 = 0 ∧ o.s.y 0 = -3 ∧ o.s.y 1 = 0)) (by decide +kernel)
    exact ⟨o, e', of_decide_eq_true h⟩

/-- The regularisation is in use. -/
example : lp.usingRegularisation = true := by decide +kernel

end

/-! ### violation -/
section
open Runs

/-- Minimise (3/2)x²-12x over [0,100] with regularisation parameter 1 and one correction step; the solution is 4. -/
def divergent : QPB ℚ :=
  start 1 HST_SEMIDEF { plain with enableRegularisation := true, epsRegularisation := 1/3, numRegularisationSteps := 1 }

def again (r : Res (Out ℚ)) : Res (Out ℚ) := hot r [-12] (some [0]) (some [100]) .null
def divergent0 : Res (Out ℚ) := cold divergent (some [3]) [-12] [0] [100]

/-- **C43 is violated** by repeated hotstarts: a regularised solve leaves the user's gradient in the object, although the iterate is
optimal for a different one, so the next solve starts from a point that is not optimal for the data in the object, and the difference
is never made up for.  With the same data in every call, the first call finds 15/4 and each further call returns 5/4 times
the previous point with `SUCCESSFUL_RETURN`; the solution is 4. -/
theorem C43_hotstart_violated : ∃ o0 o1 o4, divergent0 = .ok o0 ∧ again divergent0 = .ok o1 ∧
    again (again (again (again divergent0))) = .ok o4 ∧ o0.rv = SUCCESSFUL_RETURN ∧ o0.s.x 0 = 15/4 ∧ o1.rv = SUCCESSFUL_RETURN ∧
    o1.s.x 0 = 5/4 * o0.s.x 0 ∧ o4.rv = SUCCESSFUL_RETURN ∧ o4.s.x 0 = (5/4)^4 * o0.s.x 0 ∧
    (QP.box 1 (fun _ _ => 3) (fun _ => -12) (fun _ => 0) (fun _ => 100)).KKT (fun _ => (4 : ℚ)) (fun _ => 0) := by
  obtain ⟨o0, e0, h0⟩ := of_holds (r := divergent0) (p := fun o => decide (o.rv = SUCCESSFUL_RETURN ∧ o.s.x 0 = 15/4)) (by decide +kernel)
  obtain ⟨o1, e1, h1⟩ := of_holds (r := again divergent0) (p := fun o => decide (o.rv = SUCCESSFUL_RETURN ∧ o.s.x 0 = 5/4*(15/4))) (by decide +kernel)
  obtain ⟨o4, e4, h4⟩ := of_holds (r := again (again (again (again divergent0))))
    (p := fun o => decide (o.rv = SUCCESSFUL_RETURN ∧ o.s.x 0 = (5/4)^4*(15/4))) (by decide +kernel)
  have h0 := of_decide_eq_true h0
  have h1 := of_decide_eq_true h1
  have h4 := of_decide_eq_true h4
  refine ⟨o0, o1, o4, e0, e1, e4, h0.1, h0.2, h1.1, by rw [h0.2, h1.2], h4.1, by rw [h0.2, h4.2], ⟨⟨?_, ?_, ?_, ?_, ?_⟩, ⟨?_, ?_, ?_, ?_⟩⟩⟩
  all_goals
    intro k hk
    first
    | exact absurd hk (Nat.not_lt_zero _)
    | (have hk : k < 1 := hk
       interval_cases k
       decide +kernel)
    | (intro h; exact absurd h (by decide +kernel))

end

end QpOASES.Props
