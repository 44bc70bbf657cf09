import Verif.Proofs.QPBSession
import Verif.Proofs.QPBFarRun
import Verif.Props.C35_Certificate
import Verif.Proofs.QPBRuns
import Mathlib.Tactic.NormNum

/-!
C34: what SUCCESSFUL_RETURN of init and hotstart means, for QPs with bounds on the variables only.
-/
namespace QpOASES.Props
open Finset Spec QPB ReturnValue SubjectToStatus SubjectToType HessianType QProblemStatus

set_option linter.unusedSectionVars false

variable {K : Type} [Field K] [LinearOrder K] [IsStrictOrderedRing K]

/-- `(x,y)` satisfies the optimality conditions of the QP up to the tolerance `tol` in gradient and limits; exactly (apart
from the rounding of the Hessian to the identity) if `full` holds. -/
def Solves (n : Nat) (M : Nat → Nat → K) (g l u : Nat → K) (tol : K) (full : Prop) (x y : Nat → K) : Prop :=
  ∃ H' : Nat → Nat → K, (∀ i < n, ∀ j < n, |H' i j - M i j| ≤ EPS) ∧ SolvesNear n H' g l u tol x y ∧
    (full → BoxOptimal n H' g l u l u x y)

/-- States of an object between calls: after a cold start and any number of hotstarts that returned success or ran out of
iterations.  `M` is the Hessian passed to the cold start. -/
inductive Session (sq : K → K) (fuel n : Nat) (M : Nat → Nat → K) : QPB K → Prop
  | init {s : QPB K} (hs : Usable s) (hfar : s.options.enableFarBounds = false) (hn : s.nV = n) {H : Option (Nat → K)} {g : Nat → K} {lb ub : Option (Nat → K)}
      (ha : Admissible s (lowerOf lb) (upperOf ub)) (hM : GivenHessian (s.coldData H g lb ub) M) (hsym : QP.Symmetric n M)
      (hsq : ((s.coldData H g lb ub).determineHessianType).2.SqrtFor sq)
      {nWSR : Int} {cputime : Option K} {xOpt yOpt : Option (Nat → K)} {guess : Option WS}
      (hsign : SignOK (s.coldData H g lb ub) xOpt yOpt guess) (hc : ColdClean sq (s.coldData H g lb ub) xOpt yOpt guess nWSR cputime)
      {o : Out K} (ho : init sq fuel s H (some g) lb ub nWSR cputime xOpt yOpt guess none = .ok o)
      (hr : o.rv = SUCCESSFUL_RETURN ∨ o.rv = RET_MAX_NWSR_REACHED) : Session sq fuel n M o.s
  | hotstart {s : QPB K} (hs : Session sq fuel n M s) (hfar : s.options.enableFarBounds = false) {g : Nat → K} {lb ub : Option (Nat → K)}
      {nWSR : Int} {cputime : Option K}
      (hbox : ∀ i < n, lowerOf lb i ≤ upperOf ub i) (hx : ∀ i < n, s.lb i ≤ s.x i ∧ s.x i ≤ s.ub i) (heq : EqualitiesOK s lb ub)
      (hc : RunClean sq { s with count := s.count + 1 } g lb ub nWSR cputime 0)
      {o : Out K} (ho : hotstart sq fuel s g lb ub nWSR cputime .null = .ok o)
      (hr : o.rv = SUCCESSFUL_RETURN ∨ o.rv = RET_MAX_NWSR_REACHED) : Session sq fuel n M o.s
  | initFar {s : QPB K} (hs : Usable s) (hfar : FarOptions s.options) (hn : s.nV = n) {H : Option (Nat → K)} {g : Nat → K}
      {lb ub : Option (Nat → K)}
      (ha : Admissible s (lowerOf lb) (upperOf ub)) (hM : GivenHessian (s.coldData H g lb ub) M) (hsym : QP.Symmetric n M)
      (hsq : ((s.coldData H g lb ub).determineHessianType).2.SqrtFor sq)
      {nWSR : Int} {cputime : Option K} {xOpt yOpt : Option (Nat → K)} {guess : Option WS}
      (hsign : SignOK (s.coldData H g lb ub) xOpt yOpt guess) (hc : StartClean sq (s.coldData H g lb ub) xOpt yOpt guess nWSR cputime)
      (hrun : ∀ s2 c, StartsAt sq (s.coldData H g lb ub) xOpt yOpt guess nWSR cputime s2 c →
        FarRunClean sq fuel s2 g (some (lowerOf lb)) (some (upperOf ub)) nWSR c)
      {o : Out K} (ho : init sq fuel s H (some g) lb ub nWSR cputime xOpt yOpt guess none = .ok o)
      (hr : o.rv = SUCCESSFUL_RETURN ∨ o.rv = RET_MAX_NWSR_REACHED) : Session sq fuel n M o.s
  | hotstartFar {s : QPB K} (hs : Session sq fuel n M s) (hfar : FarOptions s.options) {g : Nat → K} {lb ub : Option (Nat → K)}
      {nWSR : Int} {cputime : Option K} (hbox : ∀ i < n, lowerOf lb i ≤ upperOf ub i)
      (hc : FarRunClean sq fuel { s with count := s.count + 1 } g lb ub nWSR cputime)
      {o : Out K} (ho : hotstart sq fuel s g lb ub nWSR cputime .null = .ok o)
      (hr : o.rv = SUCCESSFUL_RETURN ∨ o.rv = RET_MAX_NWSR_REACHED) : Session sq fuel n M o.s

theorem Session.live {sq : K → K} {fuel n : Nat} {M : Nat → Nat → K} {s : QPB K} (h : Session sq fuel n M s) : Live sq n M s := by
  induction h with
  | init hs hfar hn ha hM hsym hsq hsign hc ho hr =>
    subst hn
    obtain ⟨o, e1, e2, e3⟩ := init_spec fuel hs hfar ha hM hsym hsq _ _ _ _ _ hsign hc
    rw [ho] at e1
    cases e1
    rcases hr with hr | hr
    · obtain ⟨a1, a2⟩ := e2 hr
      exact Live.of_init hs ha hM hsym hsq a1.inv a2 (Or.inr (Or.inr a1.status))
    · obtain ⟨a1, a2, a3⟩ := e3 hr
      refine Live.of_init hs ha hM hsym hsq a1 a2 ?_
      rcases a3 with a3 | a3
      · exact Or.inl a3
      · exact Or.inr (Or.inl a3)
  | hotstart hs hfar hbox hx heq hc ho hr ih =>
    obtain ⟨o, e1, e2, e3⟩ := ih.hotstart fuel hfar _ _ hbox hx heq hc
    rw [ho] at e1
    cases e1
    rcases hr with hr | hr
    · exact (e2 hr).2.2
    · exact e3 hr
  | initFar hs hfar hn ha hM hsym hsq hsign hc hrun ho hr =>
    subst hn
    exact (init_far fuel hs hfar ha hM hsym hsq hsign hc hrun ho hr).2.1
  | hotstartFar hs hfar hbox hc ho hr ih =>
    have := ih.hotstart_far fuel hfar hbox hc ho
    rcases hr with hr | hr
    · exact (this.solved hr).2.1
    · exact (this.stopped hr).1

/-- **C34** (part): a cold start that returns `SUCCESSFUL_RETURN` has solved the QP. -/
theorem C34_init_partial {sq : K → K} (fuel : Nat) {s : QPB K} (hs : Usable s) (hfar : s.options.enableFarBounds = false) {H : Option (Nat → K)} {g : Nat → K}
    {lb ub : Option (Nat → K)} (ha : Admissible s (lowerOf lb) (upperOf ub)) {M : Nat → Nat → K}
    (hM : GivenHessian (s.coldData H g lb ub) M) (hsym : QP.Symmetric s.nV M)
    (hsq : ((s.coldData H g lb ub).determineHessianType).2.SqrtFor sq)
    (nWSR : Int) (cputime : Option K) (xOpt yOpt : Option (Nat → K)) (guess : Option WS)
    (hsign : SignOK (s.coldData H g lb ub) xOpt yOpt guess) (hc : ColdClean sq (s.coldData H g lb ub) xOpt yOpt guess nWSR cputime) :
    ∃ o, init sq fuel s H (some g) lb ub nWSR cputime xOpt yOpt guess none = .ok o ∧ (o.rv = SUCCESSFUL_RETURN →
      o.s.status = QPS_SOLVED ∧
      Solves s.nV M g (lowerOf lb) (upperOf ub) s.options.terminationTolerance (o.s.tau = 1) o.s.x o.s.y) := by
  obtain ⟨o, e1, e2, e3⟩ := init_spec fuel hs hfar ha hM hsym hsq nWSR cputime xOpt yOpt guess hsign hc
  refine ⟨o, e1, fun hr => ?_⟩
  obtain ⟨a1, a2⟩ := e2 hr
  have hl := Live.of_init hs ha hM hsym hsq a1.inv a2 (Or.inr (Or.inr a1.status))
  obtain ⟨c1, c2, c3, c4, c5, c6, c7, c8, c9, c10, c11⟩ := hs.cold H g lb ub
  refine ⟨a1.status, o.s.Heff, hl.hess, ?_⟩
  have := a1.solvesNear (fun hh => ?_) (fun hh => ?_)
  · rw [hl.nV, a2.options, c7] at this
    exact this
  · rw [a2.noLower, c9, c10]
    exact noLower_false (by rw [← a2.nV]; exact hh)
  · rw [a2.noUpper, c9, c10]
    exact noUpper_false (by rw [← a2.nV]; exact hh)

/-- **C34** (part): the same for a hotstart after any history.  A hotstart with an absent vector of limits is covered if
the homotopy has ended with a full step. -/
theorem C34_hotstart_partial {sq : K → K} {fuel n : Nat} {M : Nat → Nat → K} {s : QPB K} (h : Session sq fuel n M s)
    (hfar : s.options.enableFarBounds = false) {g : Nat → K}
    {lb ub : Option (Nat → K)} (nWSR : Int) (cputime : Option K) (hbox : ∀ i < n, lowerOf lb i ≤ upperOf ub i)
    (hx : ∀ i < n, s.lb i ≤ s.x i ∧ s.x i ≤ s.ub i) (heq : EqualitiesOK s lb ub)
    (hc : RunClean sq { s with count := s.count + 1 } g lb ub nWSR cputime 0) :
    ∃ o, hotstart sq fuel s g lb ub nWSR cputime .null = .ok o ∧ (o.rv = SUCCESSFUL_RETURN →
      o.s.status = QPS_SOLVED ∧
      ((lb ≠ none ∧ ub ≠ none) ∨ o.s.tau = 1 ∧ 0 ≤ s.options.terminationTolerance →
        Solves n M g (lowerOf lb) (upperOf ub) s.options.terminationTolerance (o.s.tau = 1) o.s.x o.s.y)) := by
  have hl := h.live
  obtain ⟨o, e1, e2, e3⟩ := hl.hotstart fuel hfar nWSR cputime hbox hx heq hc
  refine ⟨o, e1, fun hr => ?_⟩
  obtain ⟨a1, a2, a3⟩ := e2 hr
  refine ⟨a1.status, fun hc => ⟨o.s.Heff, a3.hess, ?_⟩⟩
  have eopt : o.s.options = s.options := a2.options
  have hnl : (∃ i < o.s.nV, -INFTY < lowerOf lb i) → o.s.bounds.noLower = false := by
    intro hh
    rw [a2.noLower]
    cases lb with
    | none =>
      obtain ⟨i, _, hi⟩ := hh
      exact absurd hi (lt_irrefl _)
    | some l => exact noLower_false (by rw [hl.nV, ← a3.nV]; exact hh)
  have hnu : (∃ i < o.s.nV, upperOf ub i < INFTY) → o.s.bounds.noUpper = false := by
    intro hh
    rw [a2.noUpper]
    cases ub with
    | none =>
      obtain ⟨i, _, hi⟩ := hh
      exact absurd hi (lt_irrefl _)
    | some l => exact noUpper_false (by rw [hl.nV, ← a3.nV]; exact hh)
  have hO := a1.inv.opt
  have hb : BoxOptimal n o.s.Heff o.s.g o.s.lb o.s.ub (lowerOf lb) (upperOf ub) o.s.x o.s.y := by
    rw [← a3.nV]
    exact ⟨hO.stationary a1.inv.ws a1.inv.n, fun hh => (hO.within a1.inv.ws a1.inv.n).1 (hnl hh),
      fun hh => (hO.within a1.inv.ws a1.inv.n).2 (hnu hh)⟩
  have hfull : o.s.tau = 1 → BoxOptimal n o.s.Heff g (lowerOf lb) (upperOf ub) (lowerOf lb) (upperOf ub) o.s.x o.s.y := by
    intro ht
    obtain ⟨f1, f2, f3⟩ := a1.full ht
    rw [f1, f2, f3] at hb
    exact hb
  refine ⟨?_, hfull⟩
  rcases hc with ⟨hc1, hc2⟩ | ⟨ht, htol⟩
  · obtain ⟨l, rfl⟩ := Option.ne_none_iff_exists'.1 hc1
    obtain ⟨u, rfl⟩ := Option.ne_none_iff_exists'.1 hc2
    have hlen := a1.length
    rw [eopt] at hlen
    obtain ⟨n1, n2, n3⟩ := homotopyLength_near hlen
    rw [a3.nV] at n1 n2 n3
    exact ⟨o.s.g, o.s.lb, o.s.ub, n1, n2, n3, hb⟩
  · have near : ∀ v : Nat → K, Near n s.options.terminationTolerance v v := fun v i _ => by
      rw [sub_self, abs_zero]
      exact mul_nonneg htol (zero_le_one.trans (le_max_left _ _))
    exact ⟨g, lowerOf lb, upperOf ub, near _, near _, near _, hfull ht⟩

/-- The Hessian of the solver is the one given up to `EPS`, and the optimality conditions hold exactly. -/
def SolvesExactly (n : Nat) (M : Nat → Nat → K) (g l u x y : Nat → K) : Prop :=
  ∃ H' : Nat → Nat → K, (∀ i < n, ∀ j < n, |H' i j - M i j| ≤ EPS) ∧ BoxOptimal n H' g l u l u x y

/-- **C34** (part): with far bounds, as by default, a cold start that returns `SUCCESSFUL_RETURN` after a full step has solved the
QP with the limits given. -/
theorem C34_init_far_bounds_partial {sq : K → K} (fuel : Nat) {s : QPB K} (hs : Usable s) (hfar : FarOptions s.options)
    {H : Option (Nat → K)} {g : Nat → K} {lb ub : Option (Nat → K)} (ha : Admissible s (lowerOf lb) (upperOf ub)) {M : Nat → Nat → K}
    (hM : GivenHessian (s.coldData H g lb ub) M) (hsym : QP.Symmetric s.nV M)
    (hsq : ((s.coldData H g lb ub).determineHessianType).2.SqrtFor sq)
    {nWSR : Int} {cputime : Option K} {xOpt yOpt : Option (Nat → K)} {guess : Option WS}
    (hsign : SignOK (s.coldData H g lb ub) xOpt yOpt guess) (hc : StartClean sq (s.coldData H g lb ub) xOpt yOpt guess nWSR cputime)
    (hrun : ∀ s2 c, StartsAt sq (s.coldData H g lb ub) xOpt yOpt guess nWSR cputime s2 c →
      FarRunClean sq fuel s2 g (some (lowerOf lb)) (some (upperOf ub)) nWSR c) {o : Out K}
    (ho : init sq fuel s H (some g) lb ub nWSR cputime xOpt yOpt guess none = .ok o) (hr : o.rv = SUCCESSFUL_RETURN) :
    o.s.status = QPS_SOLVED ∧ (o.s.tau = 1 → SolvesExactly s.nV M g (lowerOf lb) (upperOf ub) o.s.x o.s.y) := by
  obtain ⟨a1, a2, -⟩ := init_far fuel hs hfar ha hM hsym hsq hsign hc hrun ho (Or.inl hr)
  exact ⟨(a1 hr).status, fun ht => ⟨o.s.Heff, a2.hess, (a1 hr).optimal a2 ht⟩⟩

/-- **C34** (part): the same for a hotstart with far bounds after any history; either vector of limits may be absent. -/
theorem C34_hotstart_far_bounds_partial {sq : K → K} {fuel n : Nat} {M : Nat → Nat → K} {s : QPB K} (h : Session sq fuel n M s)
    (hfar : FarOptions s.options) {g : Nat → K} {lb ub : Option (Nat → K)} {nWSR : Int} {cputime : Option K}
    (hbox : ∀ i < n, lowerOf lb i ≤ upperOf ub i)
    (hc : FarRunClean sq fuel { s with count := s.count + 1 } g lb ub nWSR cputime) {o : Out K}
    (ho : hotstart sq fuel s g lb ub nWSR cputime .null = .ok o) (hr : o.rv = SUCCESSFUL_RETURN) :
    o.s.status = QPS_SOLVED ∧ (o.s.tau = 1 → SolvesExactly n M g (lowerOf lb) (upperOf ub) o.s.x o.s.y) := by
  obtain ⟨a1, a2, -⟩ := (h.live.hotstart_far fuel hfar hbox hc ho).solved hr
  exact ⟨a1.status, fun ht => ⟨o.s.Heff, a2.hess, a1.optimal a2 ht⟩⟩

/-- A pair with `BoxOptimal` is a global minimiser if the Hessian is positive semidefinite and there are finite limits. -/
theorem C34_minimiser {n : Nat} {H : Nat → Nat → K} {g l u x y : Nat → K} (h : BoxOptimal n H g l u l u x y) (hs : QP.Symmetric n H)
    (hp : QP.PosSemidef n H) (hl : ∃ i < n, -INFTY < l i) (hu : ∃ i < n, u i < INFTY) : (QP.box n H g l u).IsMinimiser x :=
  C35_global_minimum (P := QP.box n H g l u) hs hp ⟨h.stationary, ⟨h.lower hl, h.upper hu, fun k hk => absurd hk (Nat.not_lt_zero _),
    fun k hk => absurd hk (Nat.not_lt_zero _)⟩⟩

/-! ### the hypotheses are met: a cold start and two hotstarts with several working set changes -/
section
open Runs

/-- Cold start: minimise ½|x|² - 3x₀ + x₁ over [0,1]×[0,5]. -/
def run0 : QPB ℚ := start 2 HST_IDENTITY plain
def run1 : Res (Out ℚ) := cold run0 none [-3, 1] [0, 0] [1, 5]
/-- Hotstart: the gradient changes sign, the limits move. -/
def run2 : Res (Out ℚ) := hot run1 [3, -2] (some [-1, 0]) (some [1, 5]) .null

theorem run0_usable : Usable run0 := .fresh 2 HST_IDENTITY _ plain

theorem plain_ok : OptionsOK plain := by
  refine ⟨?_, ?_, ?_, ?_, Or.inl ?_⟩ <;> decide +kernel

theorem run0_admissible : Admissible run0 (lowerOf (some (vec [0, 0]))) (upperOf (some (vec [1, 5]))) := by
  refine ⟨?_, ?_, ?_, ?_, ?_, ?_⟩
  · refine ⟨?_, ?_, ?_, ?_, Or.inl ?_⟩ <;> decide +kernel
  · intro h; exact absurd h (by decide +kernel)
  · decide +kernel
  · decide +kernel
  · decide +kernel
  · intro h; exact absurd h (by decide +kernel)

def run0c : QPB ℚ := run0.coldData none (vec [-3, 1]) (some (vec [0, 0])) (some (vec [1, 5]))

theorem run0_hessian : GivenHessian run0c (fun i j => if i = j then 1 else 0) :=
  ⟨fun _ _ _ => rfl, fun h => absurd rfl h, fun h => by cases h⟩

theorem run0_sign : SignOK run0c none none none := signOK_none _ _ _

theorem run0_clean : ColdClean root run0c none none none 10 none := coldB_spec (by decide +kernel)

theorem run0_sqrt : (run0c.determineHessianType).2.SqrtFor root := .ident rfl _

example : holds run1 (fun o => decide (o.rv = SUCCESSFUL_RETURN ∧ o.nWSR = 2 ∧ o.s.x 0 = 1 ∧ o.s.x 1 = 0 ∧ o.s.y 0 = -2 ∧
    o.s.y 1 = 1 ∧ o.s.tau = 1)) = true := by decide +kernel

theorem run1_session : ∃ o, run1 = .ok o ∧ Session root 5 2 (fun i j => if i = j then 1 else 0) o.s := by
  obtain ⟨o, e, h⟩ := of_holds (r := run1) (p := fun o => decide (o.rv = SUCCESSFUL_RETURN)) (by decide +kernel)
  refine ⟨o, e, Session.init run0_usable (by decide +kernel) rfl run0_admissible run0_hessian ?_ run0_sqrt run0_sign run0_clean e
    (Or.inl (of_decide_eq_true h))⟩
  intro i _ j _
  beta_reduce
  by_cases e : i = j
  · rw [if_pos e, if_pos e.symm]
  · rw [if_neg e, if_neg (Ne.symm e)]

/-- The second call meets the hypotheses, and it takes three working set changes to succeed. -/
example : ∃ o, run1 = .ok o ∧ (∀ i < 2, o.s.lb i ≤ o.s.x i ∧ o.s.x i ≤ o.s.ub i) ∧
    EqualitiesOK o.s (some (vec [-1, 0])) (some (vec [1, 5])) ∧
    RunClean root { o.s with count := o.s.count + 1 } (vec [3, -2]) (some (vec [-1, 0])) (some (vec [1, 5])) 10 none 0 ∧
    ∃ o', run2 = .ok o' ∧ o'.rv = SUCCESSFUL_RETURN ∧ o'.nWSR = 3 ∧ o'.s.x 0 = -1 ∧ o'.s.x 1 = 2 ∧ o'.s.y 0 = 2 ∧ o'.s.y 1 = 0 := by
  obtain ⟨o1, e1, hs⟩ := run1_session
  obtain ⟨o, e, h⟩ := of_holds (r := run1) (p := fun o : Out ℚ => decide (∀ i : Nat, i < 2 → o.s.lb i ≤ o.s.x i ∧ o.s.x i ≤ o.s.ub i) &&
    runB root { o.s with count := o.s.count + 1 } (vec [3, -2]) (some (vec [-1, 0])) (some (vec [1, 5])) 10 none 0 &&
    decide (o.s.options.enableEqualities = false)) (by decide +kernel)
  rw [e1] at e
  cases e
  rw [Bool.and_eq_true, Bool.and_eq_true] at h
  obtain ⟨⟨h1, h2⟩, h3⟩ := h
  refine ⟨o1, e1, of_decide_eq_true h1, hs.live.equalities (of_decide_eq_true h3) _ _, runB_spec h2, ?_⟩
  obtain ⟨o', e', h'⟩ := of_holds (r := run2) (p := fun o' => decide (o'.rv = SUCCESSFUL_RETURN ∧ o'.nWSR = 3 ∧ o'.s.x 0 = -1 ∧
    o'.s.x 1 = 2 ∧ o'.s.y 0 = 2 ∧ o'.s.y 1 = 0)) (by decide +kernel)
  exact ⟨o', e', of_decide_eq_true h'⟩

end

/-! ### the hypotheses are met with the default options: far bounds and ramping -/
section
open Runs

def farStart : QPB ℚ := start 2 HST_IDENTITY Options.setToDefault
/-- Minimise ½|x|² - 3x₀ + x₁ over [0,1]×ℝ. -/
def farCold : Res (Out ℚ) := QPB.init root 5 farStart none (some (vec [-3, 1])) (some (vec [0, -INFTY])) (some (vec [1, INFTY])) 20 none none none none none
/-- Then the gradient drives the second variable beyond the first far bound. -/
def farHot (o : Out ℚ) : Res (Out ℚ) := QPB.hotstart root 5 o.s (vec [-3, 5000000]) (some (vec [0, -INFTY])) (some (vec [1, INFTY])) 20 none .null

theorem farStart_usable : Usable farStart := .fresh 2 HST_IDENTITY _ _

theorem farStart_options : FarOptions farStart.options := by
  refine ⟨?_, ?_, ?_, ?_⟩ <;> decide +kernel

theorem farStart_admissible : Admissible farStart (lowerOf (some (vec [0, -INFTY]))) (upperOf (some (vec [1, INFTY]))) := by
  refine ⟨?_, ?_, ?_, ?_, ?_, ?_⟩
  · refine ⟨?_, ?_, ?_, ?_, Or.inl ?_⟩ <;> decide +kernel
  · intro _; decide +kernel
  · decide +kernel
  · decide +kernel
  · decide +kernel
  · intro h; exact absurd h (by decide +kernel)

def farStartC : QPB ℚ := farStart.coldData none (vec [-3, 1]) (some (vec [0, -INFTY])) (some (vec [1, INFTY]))

theorem farCold_session : ∃ o, farCold = .ok o ∧ o.rv = SUCCESSFUL_RETURN ∧ o.s.tau = 1 ∧ o.s.x 0 = 1 ∧ o.s.x 1 = -1 ∧
    Session root 5 2 (fun i j => if i = j then 1 else 0) o.s := by
  obtain ⟨o, e, h⟩ := of_holds (r := farCold) (p := fun o => decide (o.rv = SUCCESSFUL_RETURN ∧ o.s.tau = 1 ∧ o.s.x 0 = 1 ∧ o.s.x 1 = -1)) (by decide +kernel)
  obtain ⟨h1, h2, h3, h4⟩ := of_decide_eq_true h
  have hc := farColdB_spec (sq := root) (fuel := 5) (s := farStartC) (xOpt := none) (yOpt := none) (guess := none) (nWSR := 20) (cputime := none)
    (by decide +kernel)
  refine ⟨o, e, h1, h2, h3, h4, Session.initFar farStart_usable farStart_options rfl farStart_admissible
    (⟨fun _ _ _ => rfl, fun h => absurd rfl h, fun h => by cases h⟩ : GivenHessian farStartC _) ?_
    (SqrtFor.ident (s := (farStartC.determineHessianType).2) rfl _) (signOK_none _ _ _) hc.1 hc.2 e (Or.inl h1)⟩
  intro i _ j _
  beta_reduce
  by_cases e : i = j
  · rw [if_pos e, if_pos e.symm]
  · rw [if_neg e, if_neg (Ne.symm e)]

/-- The hotstart meets the hypotheses, enlarges the far bounds once and ends at the minimum. -/
example : ∃ o o', farCold = .ok o ∧ FarOptions o.s.options ∧
    FarRunClean root 5 { o.s with count := o.s.count + 1 } (vec [-3, 5000000]) (some (vec [0, -INFTY])) (some (vec [1, INFTY])) 20 none ∧
    farHot o = .ok o' ∧ o'.rv = SUCCESSFUL_RETURN ∧ o'.s.tau = 1 ∧ o'.s.x 1 = -5000000 := by
  obtain ⟨o, e, h⟩ := of_holds (r := farCold) (p := fun o =>
    farRunB root 5 { o.s with count := o.s.count + 1 } (vec [-3, 5000000]) (some (vec [0, -INFTY])) (some (vec [1, INFTY])) 20 none &&
    decide (o.s.options.enableFarBounds = true ∧ 0 < o.s.options.initialFarBounds ∧ 0 < o.s.options.growFarBounds ∧ 0 < o.s.options.boundTolerance) &&
    holds (farHot o) fun o' => decide (o'.rv = SUCCESSFUL_RETURN ∧ o'.s.tau = 1 ∧ o'.s.x 1 = -5000000)) (by decide +kernel)
  rw [Bool.and_eq_true, Bool.and_eq_true] at h
  obtain ⟨⟨h1, h2⟩, h3⟩ := h
  obtain ⟨o', e', h'⟩ := of_holds h3
  obtain ⟨k1, k2, k3, k4⟩ := of_decide_eq_true h2
  exact ⟨o, o', e, ⟨k1, k2, k3, k4⟩, farRunB_spec h1, e', of_decide_eq_true h'⟩

end

/-! ### violations -/
section
open Runs

theorem Solves.lower {n : Nat} {M : Nat → Nat → K} {g l u : Nat → K} {tol : K} {full : Prop} {x y : Nat → K}
    (h : Solves n M g l u tol full x y) (hl : ∃ i < n, -INFTY < l i) : ∀ i < n, l i - tol * max 1 |l i| ≤ x i := by
  obtain ⟨_, _, ⟨_, lb', _, _, n2, _, hb⟩, _⟩ := h
  intro i hi
  have h1 := hb.lower hl i hi
  have h2 := (abs_le.1 (n2 i hi)).2
  linarith

theorem Solves.neg {n : Nat} {M : Nat → Nat → K} {g l u : Nat → K} {tol : K} {full : Prop} {x y : Nat → K}
    (h : Solves n M g l u tol full x y) : ∀ i < n, y i < 0 → u i - tol * max 1 |u i| ≤ x i := by
  obtain ⟨_, _, ⟨_, _, ub', _, _, n3, hb⟩, _⟩ := h
  intro i hi hy
  have h1 : x i = ub' i := hb.stationary.neg i hi hy
  have h2 := (abs_le.1 (n3 i hi)).2
  linarith

/-- Guess for the third call: the first two variables at their lower limits. -/
def guessed : WS :=
  { n := 3
    type := fun _ => ST_BOUNDED
    status := fun i => if i = 2 then ST_INACTIVE else ST_LOWER
    noLower := false
    noUpper := false
    free := [2]
    fixed := [0, 1] }

/-- **C34 violated**: if a hotstart is given a guessed working set that differs little from the current one, the Cholesky
factor is not updated, and `SUCCESSFUL_RETURN` comes with a point that is not optimal: here the Hessian is
diag(1,4,9), and the third variable is -9/16 instead of 1. -/
theorem C34_guess_violation : ∃ o o', cold (start 3 HST_POSDEF plain) (some [1,0,0, 0,4,0, 0,0,9]) [1,0,0] [0,-5,-5] [10,10,10] = .ok o ∧
    o.rv = SUCCESSFUL_RETURN ∧ hot (.ok o) [1,50,-9] (some [0,-5,-5]) (some [10,10,10]) (.other guessed) = .ok o' ∧
    o'.rv = SUCCESSFUL_RETURN ∧
    ¬ Solves 3 (fun i j => vec [1,0,0, 0,4,0, 0,0,9] (3 * i + j)) (vec [1,50,-9]) (vec [0,-5,-5]) (vec [10,10,10])
      o'.s.options.terminationTolerance (o'.s.tau = 1) o'.s.x o'.s.y := by
  obtain ⟨o, e, h⟩ := of_holds (r := cold (start 3 HST_POSDEF plain) (some [1,0,0, 0,4,0, 0,0,9]) [1,0,0] [0,-5,-5] [10,10,10])
    (p := fun o => decide (o.rv = SUCCESSFUL_RETURN) && holds (hot (.ok o) [1,50,-9] (some [0,-5,-5]) (some [10,10,10]) (.other guessed))
      (fun o' => decide (o'.rv = SUCCESSFUL_RETURN ∧ o'.s.x 0 = 0 ∧ o'.s.x 1 = -5 ∧ o'.s.x 2 = -9/16 ∧ o'.s.y 2 = 0 ∧ o'.s.tau = 1))) (by decide +kernel)
  rw [Bool.and_eq_true] at h
  obtain ⟨o', e', h'⟩ := of_holds h.2
  obtain ⟨r1, x0, x1, x2, y2, t1⟩ := of_decide_eq_true h'
  refine ⟨o, o', e, of_decide_eq_true h.1, e', r1, ?_⟩
  rintro ⟨H', hH, _, hfull⟩
  have hst := (hfull t1).stationary.stat 2 (show 2 < 3 by decide)
  simp only [QP.row, QP.box, sum_range_succ, range_zero, sum_empty, zero_add, x0, x1, x2, y2, add_zero, mul_zero] at hst
  have h1 := abs_le.1 (hH 2 (by decide) 1 (by decide))
  have h2 := abs_le.1 (hH 2 (by decide) 2 (by decide))
  have v1 : vec [1,0,0, 0,4,0, 0,0,9] (3 * 2 + 1) = 0 := by decide +kernel
  have v2 : vec [1,0,0, 0,4,0, 0,0,9] (3 * 2 + 2) = 9 := by decide +kernel
  have v3 : vec [1,50,-9] 2 = -9 := by decide +kernel
  have he : (EPS : ℚ) < 1/10 := by decide +kernel
  beta_reduce at h1 h2
  rw [v1] at h1
  rw [v2] at h2
  rw [v3] at hst
  linarith [h1.1, h1.2, h2.1, h2.2]

/-- Equality detection without regularisation. -/
def withEq : Options ℚ := { plain with enableEqualities := true }

/-- **C34 violated**: an inactive variable whose limits begin to coincide is no longer watched by the ratio test. -/
theorem C34_equality_violation : ∃ o, hot (hot (cold (start 1 HST_IDENTITY withEq) none [0] [-1] [1]) [0] (some [0]) (some [0]) .null)
      [1] (some [0]) (some [0]) .null = .ok o ∧ o.rv = SUCCESSFUL_RETURN ∧ o.s.x 0 = -1 ∧
    ¬ Solves 1 (fun _ _ => 1) (vec [1]) (vec [0]) (vec [0]) o.s.options.terminationTolerance (o.s.tau = 1) o.s.x o.s.y := by
  obtain ⟨o, e, h⟩ := of_holds (r := hot (hot (cold (start 1 HST_IDENTITY withEq) none [0] [-1] [1]) [0] (some [0]) (some [0]) .null)
      [1] (some [0]) (some [0]) .null) (p := fun o => decide (o.rv = SUCCESSFUL_RETURN ∧ o.s.x 0 = -1 ∧
        o.s.options.terminationTolerance < 1)) (by decide +kernel)
  obtain ⟨r1, x0, ht⟩ := of_decide_eq_true h
  refine ⟨o, e, r1, x0, fun hs => ?_⟩
  have := hs.lower ⟨0, by decide, by decide +kernel⟩ 0 (by decide)
  rw [x0, show vec [0] 0 = 0 by decide +kernel, abs_zero, max_eq_left zero_le_one] at this
  linarith

/-- **C34 violated**: a variable with coinciding limits may have a multiplier of either sign; when the limits move apart, its
sign is not checked: here the minimum is at 5, but the result is 0. -/
theorem C34_equality_sign_violation : ∃ o, hot (cold (start 1 HST_IDENTITY withEq) none [-5] [1] [1]) [-5] (some [0]) (some [10]) .null =
      .ok o ∧ o.rv = SUCCESSFUL_RETURN ∧ o.s.x 0 = 0 ∧ o.s.y 0 = -5 ∧
    ¬ Solves 1 (fun _ _ => 1) (vec [-5]) (vec [0]) (vec [10]) o.s.options.terminationTolerance (o.s.tau = 1) o.s.x o.s.y := by
  obtain ⟨o, e, h⟩ := of_holds (r := hot (cold (start 1 HST_IDENTITY withEq) none [-5] [1] [1]) [-5] (some [0]) (some [10]) .null)
    (p := fun o => decide (o.rv = SUCCESSFUL_RETURN ∧ o.s.x 0 = 0 ∧ o.s.y 0 = -5 ∧ o.s.options.terminationTolerance < 1/2)) (by decide +kernel)
  obtain ⟨r1, x0, y0, ht⟩ := of_decide_eq_true h
  refine ⟨o, e, r1, x0, y0, fun hs => ?_⟩
  have := hs.neg 0 (by decide) (by rw [y0]; norm_num)
  rw [x0, show vec [10] 0 = 10 by decide +kernel] at this
  norm_num at this
  linarith

/-- **C34 violated**: absent limits are ignored when the remaining distance is measured, so that the homotopy stops after
the first, partial step: minimise ½|x|² without limits after a call with lower limits (1,2). -/
theorem C34_null_violation : ∃ o, hot (cold (start 2 HST_IDENTITY plain) none [0,0] [1,2] [10,10]) [0,0] none none .null = .ok o ∧
    o.rv = SUCCESSFUL_RETURN ∧ 1/2 < o.s.x 1 := by
  obtain ⟨o, e, h⟩ := of_holds (r := hot (cold (start 2 HST_IDENTITY plain) none [0,0] [1,2] [10,10]) [0,0] none none .null)
    (p := fun o => decide (o.rv = SUCCESSFUL_RETURN ∧ 1/2 < o.s.x 1)) (by decide +kernel)
  exact ⟨o, e, of_decide_eq_true h⟩

end

end QpOASES.Props
