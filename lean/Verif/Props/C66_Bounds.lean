import Verif.Proofs.QPBReport
import Verif.Props.C38_C41_Protocol
import Verif.Props.C66_Far
import Verif.Props.C34_Solved

/-!
C66, C67, C68: reports of infeasibility and of unboundedness by the solver for bounds only.
-/
namespace QpOASES.Props
open Spec QPB ReturnValue SubjectToStatus SubjectToType HessianType QProblemStatus Finset

set_option linter.unusedSectionVars false

variable {K : Type} [Field K] [LinearOrder K] [IsStrictOrderedRing K]

/-! ### C66 -/

/-- Only limits that cross are called inconsistent. -/
theorem inconsistent_infeasible {s : QPB K} {lb ub : Option (Nat → K)} (h : s.areBoundsConsistent lb ub = false) (M : Nat → Nat → K) (g : Nat → K) :
    (QP.box s.nV M g (lowerOf lb) (upperOf ub)).Infeasible := by
  unfold areBoundsConsistent at h
  split at h
  · rename_i l u
    rw [List.all_eq_false] at h
    obtain ⟨i, hi, h⟩ := h
    have hi := List.mem_range.1 hi
    have h : u i + EPS < l i := by simpa using h
    intro x hx
    have h1 : l i ≤ x i := hx.lower i hi
    have h2 : x i ≤ u i := hx.upper i hi
    have hE : (0 : K) < EPS := EPS_pos'
    linarith
  · cases h

theorem coldData_reports {s : QPB K} (hs : Usable s) (H : Option (Nat → K)) (g : Nat → K) (lb ub : Option (Nat → K)) :
    (s.coldData H g lb ub).reports = (false, false) := by
  have key : ∀ s0 : QPB K, s0.reports = (false, false) → (s0.setupQPdata H (some g) lb ub).2.reports = (false, false) := by
    intro s0 h0
    obtain ⟨h', t', e⟩ := setH_frame s0 H
    have e' : (s0.setupQPdata H (some g) lb ub).2 = { s0.setH H with g := g, lb := lowerOf lb, ub := upperOf ub } := rfl
    rw [e', e]
    exact h0
  unfold coldData
  apply key
  cases hs with
  | fresh n t clk o => split <;> rfl
  | used s h hn => rw [if_pos h]; rfl

/-- The object in which the homotopy of a cold start begins. -/
theorem coldStart_frame {sq : K → K} {s : QPB K} (hs : Usable s) {H : Option (Nat → K)} {g : Nat → K} {lb ub xOpt yOpt R : Option (Nat → K)}
    {guess : Option WS} {nWSR : Int} {c : Option K} {s1 : QPB K} (h : ColdStart sq (s.coldData H g lb ub) xOpt yOpt guess R nWSR c s1) :
    s1.reports = (false, false) ∧ s1.farOptions = (s.coldData H g lb ub).farOptions := by
  have h1 := (prepareInitialQP_reports sq ((s.coldData H g lb ub).startClock c).2 xOpt yOpt guess R nWSR c).2 s1 h
  have h2 := (prepareInitialQP_far sq ((s.coldData H g lb ub).startClock c).2 xOpt yOpt guess R nWSR c).2 s1 h
  obtain ⟨k, e⟩ := startClock_keep (s.coldData H g lb ub) c
  rw [e] at h1 h2
  exact ⟨h1.trans (coldData_reports hs H g lb ub), h2⟩

/-- **C66** for `init` of the solver for bounds only, without any assumption on the data, the options, the guesses and the start:
if infeasibility is reported, there is no feasible point. -/
theorem C66_init_bounds {sq : K → K} {fuel : Nat} {s : QPB K} (hs : Usable s) {H : Option (Nat → K)} {g : Nat → K} {lb ub : Option (Nat → K)} {nWSR : Int}
    {c : Option K} {xOpt yOpt : Option (Nat → K)} {guess : Option WS} {R : Option (Nat → K)} {o : Out K} (hb : 0 ≤ nWSR)
    (h : init sq fuel s H (some g) lb ub nWSR c xOpt yOpt guess R = .ok o) (hr : o.rv = RET_INIT_FAILED_INFEASIBILITY) (M : Nat → Nat → K) :
    (QP.box s.nV M g (lowerOf lb) (upperOf ub)).Infeasible := by
  rcases init_outcome h with ⟨-, b⟩ | ⟨g', eg, s1, cs, o1, e1, -, -, ho⟩
  · rw [hr] at b; exact absurd b (by decide)
  · cases eg
    have hi : o1.s.infeasible = true := by
      rcases ho with ho | ⟨-, -, ho⟩ | ⟨-, -, -, -, ho⟩ | ⟨-, -, h1, ho⟩
      · exact ho.1
      · rw [hr] at ho; cases ho
      · rw [hr] at ho; cases ho
      · rw [ho] at hr
        rcases h1 with h1 | h1 <;> rw [h1] at hr <;> cases hr
    obtain ⟨k0, e0⟩ := stopClock_keep s1 c ((s.coldData H g lb ub).startClock c).1
    rw [e0] at e1
    obtain ⟨f1, f2⟩ := coldStart_frame hs cs
    have nC : (s.coldData H g lb ub).nV = s.nV := (hs.cold H g lb ub).2.2.2.1
    have n1 : s1.nV = s.nV := (congrArg (fun a => a.2.2.2.2.1) f2).trans nC
    have i1 : s1.infeasible = false := congrArg Prod.fst f1
    have hn : ({ s1 with now := k0 } : QPB K).nV ≠ 0 := by
      show s1.nV ≠ 0
      rw [n1, ← nC]
      exact (hs.cold H g lb ub).2.2.2.2.1
    obtain ⟨s2, hs2, ⟨-, -, -, w, hw⟩ | ⟨s3, -, -, hs3, hm⟩⟩ := hotstart_cases hn hb e1
    · cases hw
    · have hs2 : s2 = { s1 with now := k0 } := hs2
      have hs3 : s3 = s2 := hs3
      subst hs3
      subst hs2
      cases hm with
      | inconsistent h => rw [← n1]; exact inconsistent_infeasible (s := { s1 with now := k0 }) h M g
      | setupFailed _ _ _ _ _ _ i => rw [hi] at i; exact absurd (i.trans (show QPB.infeasible _ = false from i1)) (by decide)
      | refused _ _ _ _ _ _ _ i => rw [hi] at i; exact absurd (i.trans (show QPB.infeasible _ = false from i1)) (by decide)
      | solved _ _ _ _ _ _ S => have := S.infeasible; rw [hi] at this; cases this

/-- **C66** (part) for `hotstart` of the solver for bounds only: on an initialised object infeasibility is never reported by the return value,
and the object says so afterwards only if there is no feasible point. -/
theorem C66_hotstart_bounds_partial {sq : K → K} {fuel : Nat} {s : QPB K} {g : Nat → K} {lb ub : Option (Nat → K)} {nWSR : Int}
    {c : Option K} {o : Out K} (hb : 0 ≤ nWSR) (hi : ¬ NotInitialised s) (h : hotstart sq fuel s g lb ub nWSR c .null = .ok o) (M : Nat → Nat → K) :
    o.rv ≠ RET_HOTSTART_STOPPED_INFEASIBILITY ∧
    (s.infeasible = false → o.s.infeasible = true → (QP.box s.nV M g (lowerOf lb) (upperOf ub)).Infeasible) := by
  by_cases hn : s.nV = 0
  · rw [hotstart_empty hn] at h
    cases h
    exact ⟨fun h => (by cases h), fun h1 h2 => absurd (h1.symm.trans h2) (by decide)⟩
  · obtain ⟨s2, hs2, ⟨-, -, -, w, hw⟩ | ⟨s3, -, -, hs3, hm⟩⟩ := hotstart_cases hn hb h
    · cases hw
    · have hs2 : s2 = s := hs2
      have hs3 : s3 = s2 := hs3
      subst hs3
      subst hs2
      cases hm with
      | inconsistent h rv => exact ⟨by rw [rv]; decide, fun _ _ => inconsistent_infeasible h M g⟩
      | setupFailed _ rv _ _ _ _ i =>
        exact ⟨by rcases rv with rv | rv <;> rw [rv] <;> decide, fun h1 h2 => absurd (h1.symm.trans (i.symm.trans h2)) (by decide)⟩
      | refused _ hr => exact absurd hr hi
      | solved _ _ _ _ _ _ S =>
        refine ⟨fun hh => ?_, fun _ h2 => ?_⟩
        · rcases S.outcome with q | q | q | q
          · rw [hh] at q; cases q.1
          · rw [hh] at q; cases q.1
          · have := q.1
            rw [hh] at this
            unfold Failure at this
            revert this
            decide
          · rw [hh] at q; cases q.1
        · have := S.infeasible; rw [h2] at this; cases this

/-- **C66** (part): the same for the return value of a hotstart with a guess, in any state of the object. -/
theorem C66_guessed_bounds_partial {sq : K → K} {fuel : Nat} {s : QPB K} {g : Nat → K} {lb ub : Option (Nat → K)} {nWSR : Int}
    {c : Option K} {guess : QPB.Guess} {o : Out K} (hb : 0 ≤ nWSR) (hg : guess ≠ .null) (h : hotstart sq fuel s g lb ub nWSR c guess = .ok o) :
    o.rv ≠ RET_HOTSTART_STOPPED_INFEASIBILITY := by
  by_cases hn : s.nV = 0
  · rw [hotstart_empty hn] at h
    cases h
    exact fun h => (by cases h)
  · obtain ⟨s2, hs2, ⟨rv, -⟩ | ⟨s3, -, -, hs3, hm⟩⟩ := hotstart_cases hn hb h
    · rw [rv]; decide
    · have hst : s3.status = QPS_AUXILIARYQPSOLVED := by
        cases guess with
        | null => exact absurd rfl hg
        | self => exact hs3
        | other w => exact hs3
      cases hm with
      | inconsistent h rv => rw [rv]; decide
      | setupFailed _ rv => rcases rv with rv | rv <;> rw [rv] <;> decide
      | refused _ hr => unfold NotReady at hr; rw [hst] at hr; exact absurd hr (by decide)
      | solved _ _ _ _ _ _ S =>
        intro hh
        rcases S.outcome with q | q | q | q
        · rw [hh] at q; cases q.1
        · rw [hh] at q; cases q.1
        · have := q.1
          rw [hh] at this
          unfold Failure at this
          revert this
          decide
        · rw [hh] at q; cases q.1

/-! ### C67 -/

theorem nearFar_beyond {s : QPB K} {c t : K} {lb ub : Option (Nat → K)} (h : NearFar s c t lb ub) (hc : 0 < c) (ht : t ≤ 1) (M : Nat → Nat → K)
    (g l u : Nat → K) : (QP.box s.nV M g l u).Beyond ((1 - t) * INFTY / c) s.x := by
  obtain ⟨B, lf, uf, hB, hw, ⟨i, hi, h1, h2⟩ | ⟨i, hi, h1, h2⟩⟩ := h
  · exact Or.inl ⟨i, hi, near_lower (hw i hi).1 h1 hc ht hB h2⟩
  · exact Or.inl ⟨i, hi, near_upper (hw i hi).2 h1 hc ht hB h2⟩

/-- **C67** (part) for `hotstart` of the solver for bounds only, in any state of the object and with any guess: when unboundedness is reported, the point
reached has a variable of the size of `INFTY / growFarBounds`. -/
theorem C67_hotstart_bounds_partial {sq : K → K} {fuel : Nat} {s : QPB K} {g : Nat → K} {lb ub : Option (Nat → K)} {nWSR : Int}
    {c : Option K} {guess : QPB.Guess} {o : Out K} (hb : 0 ≤ nWSR) (hR : s.options.enableRamping = true → 0 ≤ s.ramp0 ∧ 0 ≤ s.ramp1)
    (hg : 0 < s.options.growFarBounds) (hi : 0 ≤ s.options.initialFarBounds) (ht : s.options.boundTolerance ≤ 1)
    (h : hotstart sq fuel s g lb ub nWSR c guess = .ok o) (hr : o.rv = RET_HOTSTART_STOPPED_UNBOUNDEDNESS) (M : Nat → Nat → K) :
    (QP.box s.nV M g (lowerOf lb) (upperOf ub)).Beyond ((1 - s.options.boundTolerance) * INFTY / s.options.growFarBounds) o.s.x := by
  obtain ⟨n1, h1⟩ := hotstart_report hb hR hg hi h hr
  have := nearFar_beyond h1 hg ht M g (lowerOf lb) (upperOf ub)
  rw [n1] at this
  exact this

/-- **C67** (part): the same for `init`. -/
theorem C67_init_bounds_partial {sq : K → K} {fuel : Nat} {s : QPB K} (hs : Usable s) {H : Option (Nat → K)} {g : Nat → K} {lb ub : Option (Nat → K)}
    {nWSR : Int} {c : Option K} {xOpt yOpt : Option (Nat → K)} {guess : Option WS} {R : Option (Nat → K)} {o : Out K} (hb : 0 ≤ nWSR)
    (hR : s.options.enableRamping = true → 0 ≤ s.options.initialRamping ∧ 0 ≤ s.options.finalRamping)
    (hg : 0 < s.options.growFarBounds) (hi : 0 ≤ s.options.initialFarBounds) (ht : s.options.boundTolerance ≤ 1)
    (h : init sq fuel s H (some g) lb ub nWSR c xOpt yOpt guess R = .ok o) (hr : o.rv = RET_INIT_FAILED_UNBOUNDEDNESS) (M : Nat → Nat → K) :
    (QP.box s.nV M g (lowerOf lb) (upperOf ub)).Beyond ((1 - s.options.boundTolerance) * INFTY / s.options.growFarBounds) o.s.x := by
  rcases init_outcome h with ⟨-, b⟩ | ⟨g', eg, s1, cs, o1, e1, -, ⟨k1, ek⟩, ho⟩
  · rw [hr] at b; exact absurd b (by decide)
  · cases eg
    have hu : o1.s.infeasible = false ∧ o1.s.unbounded = true := by
      rcases ho with ⟨-, ho⟩ | ⟨h1, h2, -⟩ | ⟨-, -, -, -, ho⟩ | ⟨-, -, h1, ho⟩
      · rw [hr] at ho; cases ho
      · exact ⟨h1, h2⟩
      · rw [hr] at ho; cases ho
      · rw [ho] at hr
        rcases h1 with h1 | h1 <;> rw [h1] at hr <;> cases hr
    obtain ⟨k0, e0⟩ := stopClock_keep s1 c ((s.coldData H g lb ub).startClock c).1
    rw [e0] at e1
    obtain ⟨f1, f2⟩ := coldStart_frame hs cs
    obtain ⟨-, -, -, nC, nz, -, oC, -, -, -, rC⟩ := hs.cold H g lb ub
    have n1 : s1.nV = s.nV := (congrArg (fun a => a.2.2.2.2.1) f2).trans nC
    have a0 : s1.options.initialFarBounds = s.options.initialFarBounds := (congrArg (fun a => a.1) f2).trans (congrArg Options.initialFarBounds oC)
    have a1 : s1.options.enableRamping = s.options.enableRamping := (congrArg (fun a => a.2.2.2.1) f2).trans (congrArg Options.enableRamping oC)
    have g1 : s1.options.growFarBounds = s.options.growFarBounds := (congrArg (fun a => a.2.1) f2).trans (congrArg Options.growFarBounds oC)
    have t1 : s1.options.boundTolerance = s.options.boundTolerance := (congrArg (fun a => a.2.2.2.2.2.1) f2).trans (congrArg Options.boundTolerance oC)
    have a2 : s1.ramp0 = (s.coldData H g lb ub).ramp0 := congrArg (fun a => a.2.2.2.2.2.2.1) f2
    have a3 : s1.ramp1 = (s.coldData H g lb ub).ramp1 := congrArg (fun a => a.2.2.2.2.2.2.2) f2
    have u1 : s1.unbounded = false := congrArg Prod.snd f1
    have hn : ({ s1 with now := k0 } : QPB K).nV ≠ 0 := by
      show s1.nV ≠ 0
      rw [n1, ← nC]
      exact nz
    have rv1 : o1.rv = RET_HOTSTART_STOPPED_UNBOUNDEDNESS := by
      obtain ⟨s2, hs2, ⟨-, -, -, w, hw⟩ | ⟨s3, -, -, hs3, hm⟩⟩ := hotstart_cases hn hb e1
      · cases hw
      · have hs2 : s2 = { s1 with now := k0 } := hs2
        have hs3 : s3 = s2 := hs3
        subst hs3
        subst hs2
        cases hm with
        | inconsistent _ _ _ e => have := hu.1; rw [e] at this; cases this
        | setupFailed _ _ _ _ _ _ _ i => rw [hu.2] at i; exact absurd (i.trans (show QPB.unbounded _ = false from u1)) (by decide)
        | refused _ _ _ _ _ _ _ _ i => rw [hu.2] at i; exact absurd (i.trans (show QPB.unbounded _ = false from u1)) (by decide)
        | solved _ _ _ _ _ _ S =>
          rcases S.outcome with q | q | q | q
          · rw [hu.2] at q; cases q.2.2
          · rw [hu.2] at q; cases q.2.2
          · rw [hu.2] at q; cases q.2.2
          · exact q.1
    have hd : (0 : K) ≤ (Options.setToDefault : Options K).initialRamping ∧ (0 : K) ≤ (Options.setToDefault : Options K).finalRamping := by
      constructor
      · show (0 : K) ≤ 1 / 2; positivity
      · show (0 : K) ≤ 1; positivity
    have := C67_hotstart_bounds_partial hb (s := { s1 with now := k0 }) (fun hh => by
      show 0 ≤ s1.ramp0 ∧ 0 ≤ s1.ramp1
      rw [a2, a3]
      rcases rC with ⟨r1, r2⟩ | ⟨r1, r2⟩
      · rw [r1, r2]; exact hR (a1 ▸ hh)
      · rw [r1, r2]; exact hd) (by show 0 < s1.options.growFarBounds; rw [g1]; exact hg) (by show 0 ≤ s1.options.initialFarBounds; rw [a0]; exact hi)
      (by show s1.options.boundTolerance ≤ 1; rw [t1]; exact ht) e1 rv1 M
    rw [ek]
    have h2 : (QP.box s1.nV M g (lowerOf lb) (upperOf ub)).Beyond ((1 - s1.options.boundTolerance) * INFTY / s1.options.growFarBounds) o1.s.x := this
    rw [n1, g1, t1] at h2
    exact h2

/-! ### C68 -/

theorem not_beyond {n : Nat} {H : Nat → Nat → K} {g l u x : Nat → K} {v : K} (hx : ∀ i < n, |x i| < v) : ¬ (QP.box n H g l u).Beyond v x := by
  rintro (⟨i, hi, h⟩ | ⟨k, hk, -⟩)
  · exact absurd (hx i hi) (not_lt.2 h)
  · exact absurd hk (Nat.not_lt_zero _)

/-- **C68** (part) for `hotstart` of the solver for bounds only, without far bounds: success after a full step for a convex QP that is unbounded below
means that the point holds on to a limit that counts as infinite. -/
theorem C68_hotstart_bounds_partial {sq : K → K} {fuel n : Nat} {M : Nat → Nat → K} {s : QPB K} (h : Session sq fuel n M s)
    (hfar : s.options.enableFarBounds = false) (htol : 0 ≤ s.options.terminationTolerance) {g : Nat → K} {lb ub : Option (Nat → K)} {nWSR : Int}
    {cputime : Option K} (hbox : ∀ i < n, lowerOf lb i ≤ upperOf ub i) (hx : ∀ i < n, s.lb i ≤ s.x i ∧ s.x i ≤ s.ub i) (heq : EqualitiesOK s lb ub)
    (hc : RunClean sq { s with count := s.count + 1 } g lb ub nWSR cputime 0) {o : Out K}
    (ho : hotstart sq fuel s g lb ub nWSR cputime .null = .ok o) (hr : o.rv = SUCCESSFUL_RETURN) (ht : o.s.tau = 1) :
    ∃ H' : Nat → Nat → K, (∀ i < n, ∀ j < n, |H' i j - M i j| ≤ EPS) ∧ (QP.Symmetric n H' → QP.PosSemidef n H' →
      (QP.box n H' g (lowerOf lb) (upperOf ub)).UnboundedBelow → (QP.box n H' g (lowerOf lb) (upperOf ub)).AtInfinity o.s.x o.s.y) := by
  obtain ⟨o', e1, e2⟩ := C34_hotstart_partial h hfar nWSR cputime hbox hx heq hc
  rw [ho] at e1
  cases e1
  obtain ⟨H', a1, -, a2⟩ := (e2 hr).2 (Or.inr ⟨ht, htol⟩)
  exact ⟨H', a1, fun hs hp hu => atInfinity_of_unbounded (P := QP.box n H' g (lowerOf lb) (upperOf ub)) hs hp (a2 ht).stationary hu⟩

/-- **C68** (part): the same for `init`. -/
theorem C68_init_bounds_partial {sq : K → K} (fuel : Nat) {s : QPB K} (hs : Usable s) (hfar : s.options.enableFarBounds = false)
    {H : Option (Nat → K)} {g : Nat → K} {lb ub : Option (Nat → K)} (ha : Admissible s (lowerOf lb) (upperOf ub)) {M : Nat → Nat → K}
    (hM : GivenHessian (s.coldData H g lb ub) M) (hsym : QP.Symmetric s.nV M)
    (hsq : ((s.coldData H g lb ub).determineHessianType).2.SqrtFor sq)
    {nWSR : Int} {cputime : Option K} {xOpt yOpt : Option (Nat → K)} {guess : Option WS}
    (hsign : SignOK (s.coldData H g lb ub) xOpt yOpt guess) (hc : ColdClean sq (s.coldData H g lb ub) xOpt yOpt guess nWSR cputime) {o : Out K}
    (ho : init sq fuel s H (some g) lb ub nWSR cputime xOpt yOpt guess none = .ok o) (hr : o.rv = SUCCESSFUL_RETURN) (ht : o.s.tau = 1) :
    ∃ H' : Nat → Nat → K, (∀ i < s.nV, ∀ j < s.nV, |H' i j - M i j| ≤ EPS) ∧ (QP.Symmetric s.nV H' → QP.PosSemidef s.nV H' →
      (QP.box s.nV H' g (lowerOf lb) (upperOf ub)).UnboundedBelow → (QP.box s.nV H' g (lowerOf lb) (upperOf ub)).AtInfinity o.s.x o.s.y) := by
  obtain ⟨o', e1, e2⟩ := C34_init_partial fuel hs hfar ha hM hsym hsq nWSR cputime xOpt yOpt guess hsign hc
  rw [ho] at e1
  cases e1
  obtain ⟨H', a1, -, a2⟩ := (e2 hr).2
  exact ⟨H', a1, fun hs hp hu => atInfinity_of_unbounded (P := QP.box s.nV H' g (lowerOf lb) (upperOf ub)) hs hp (a2 ht).stationary hu⟩

/-- **C68** (part): with far bounds, as by default, a QP for which a hotstart succeeds after a full step is not unbounded below, unless the point returned has a variable of
size `INFTY`. -/
theorem C68_hotstart_far_bounds_partial {sq : K → K} {fuel n : Nat} {M : Nat → Nat → K} {s : QPB K} (h : Session sq fuel n M s)
    (hfar : FarOptions s.options) {g : Nat → K} {lb ub : Option (Nat → K)} {nWSR : Int} {cputime : Option K}
    (hbox : ∀ i < n, lowerOf lb i ≤ upperOf ub i)
    (hc : FarRunClean sq fuel { s with count := s.count + 1 } g lb ub nWSR cputime) {o : Out K}
    (ho : hotstart sq fuel s g lb ub nWSR cputime .null = .ok o) (hr : o.rv = SUCCESSFUL_RETURN) (ht : o.s.tau = 1) :
    ∃ H' : Nat → Nat → K, (∀ i < n, ∀ j < n, |H' i j - M i j| ≤ EPS) ∧ (QP.Symmetric n H' → QP.PosSemidef n H' → (∀ i < n, |o.s.x i| < INFTY) →
      ¬ (QP.box n H' g (lowerOf lb) (upperOf ub)).UnboundedBelow) := by
  obtain ⟨H', a1, a2⟩ := (C34_hotstart_far_bounds_partial h hfar hbox hc ho hr).2 ht
  exact ⟨H', a1, fun hs hp hx hu => not_beyond hx
    (C68_beyond (atInfinity_of_unbounded (P := QP.box n H' g (lowerOf lb) (upperOf ub)) hs hp a2.stationary hu))⟩

/-- **C68** (part): the same for `init`. -/
theorem C68_init_far_bounds_partial {sq : K → K} (fuel : Nat) {s : QPB K} (hs : Usable s) (hfar : FarOptions s.options)
    {H : Option (Nat → K)} {g : Nat → K} {lb ub : Option (Nat → K)} (ha : Admissible s (lowerOf lb) (upperOf ub)) {M : Nat → Nat → K}
    (hM : GivenHessian (s.coldData H g lb ub) M) (hsym : QP.Symmetric s.nV M)
    (hsq : ((s.coldData H g lb ub).determineHessianType).2.SqrtFor sq)
    {nWSR : Int} {cputime : Option K} {xOpt yOpt : Option (Nat → K)} {guess : Option WS}
    (hsign : SignOK (s.coldData H g lb ub) xOpt yOpt guess) (hc : StartClean sq (s.coldData H g lb ub) xOpt yOpt guess nWSR cputime)
    (hrun : ∀ s2 c, StartsAt sq (s.coldData H g lb ub) xOpt yOpt guess nWSR cputime s2 c →
      FarRunClean sq fuel s2 g (some (lowerOf lb)) (some (upperOf ub)) nWSR c) {o : Out K}
    (ho : init sq fuel s H (some g) lb ub nWSR cputime xOpt yOpt guess none = .ok o) (hr : o.rv = SUCCESSFUL_RETURN) (ht : o.s.tau = 1) :
    ∃ H' : Nat → Nat → K, (∀ i < s.nV, ∀ j < s.nV, |H' i j - M i j| ≤ EPS) ∧ (QP.Symmetric s.nV H' → QP.PosSemidef s.nV H' →
      (∀ i < s.nV, |o.s.x i| < INFTY) → ¬ (QP.box s.nV H' g (lowerOf lb) (upperOf ub)).UnboundedBelow) := by
  obtain ⟨H', a1, a2⟩ := (C34_init_far_bounds_partial fuel hs hfar ha hM hsym hsq hsign hc hrun ho hr).2 ht
  exact ⟨H', a1, fun hs hp hx hu => not_beyond hx
    (C68_beyond (atInfinity_of_unbounded (P := QP.box s.nV H' g (lowerOf lb) (upperOf ub)) hs hp a2.stationary hu))⟩

/-! ### runs -/
section
open QpOASES.Runs

/-- The runs of `C34_Solved` meet the hypotheses of the theorems with far bounds; the points they return are small. -/
example : ∃ o, farCold = .ok o ∧ o.rv = SUCCESSFUL_RETURN ∧ o.s.tau = 1 ∧ (∀ i < 2, |o.s.x i| < INFTY) ∧
    Session root 5 2 (fun i j => if i = j then 1 else 0) o.s := by
  obtain ⟨o, e, h1, h2, h3, h4, h5⟩ := farCold_session
  have hinf : (INFTY : ℚ) = 100000000000000000000 := by decide +kernel
  refine ⟨o, e, h1, h2, fun i hi => ?_, h5⟩
  interval_cases i
  · rw [h3, hinf]; norm_num
  · rw [h4, hinf]; norm_num

/-- A cold start with crossing limits meets the hypotheses of `C66_init_bounds`. -/
example : Usable farStart ∧ ∃ o, cold farStart none [1, 2] [0, 3] [1, 2] = .ok o ∧ o.rv = RET_INIT_FAILED_INFEASIBILITY := by
  obtain ⟨o, e, h⟩ := of_holds (r := cold farStart none [1, 2] [0, 3] [1, 2]) (p := fun o => decide (o.rv = RET_INIT_FAILED_INFEASIBILITY)) (by decide +kernel)
  exact ⟨farStart_usable, o, e, of_decide_eq_true h⟩

/-- A hotstart with crossing limits meets the hypotheses of `C66_hotstart_bounds_partial`. -/
example : ∃ o, run1 = .ok o ∧ ¬ NotInitialised o.s ∧ o.s.infeasible = false ∧
    ∃ o', hot run1 [1, 2] (some [0, 3]) (some [1, 2]) .null = .ok o' ∧ o'.s.infeasible = true := by
  obtain ⟨o, e, h⟩ := of_holds (r := run1) (p := fun o => decide (o.s.status = QPS_SOLVED ∧ o.s.infeasible = false)) (by decide +kernel)
  obtain ⟨h1, h2⟩ := of_decide_eq_true h
  obtain ⟨o', e', h'⟩ := of_holds (r := hot run1 [1, 2] (some [0, 3]) (some [1, 2]) .null) (p := fun o => o.s.infeasible) (by decide +kernel)
  exact ⟨o, e, by unfold NotInitialised; rw [h1]; decide, h2, o', e', h'⟩

/-- On a new object a hotstart with crossing limits leaves its mark, and ... -/
def stale1 : Res (Out ℚ) := QPB.hotstart root 5 farStart (vec [0, 0]) (some (vec [1, 0])) (some (vec [0, 1])) 10 none .null
/-- ... a hotstart with good limits then reports infeasibility. -/
def stale2 : Res (Out ℚ) := hot stale1 [0, 0] (some [0, 0]) (some [1, 1]) .null

/-- **C66** is violated by `hotstart` of the solver for bounds only on objects that have not been initialised: infeasibility is reported for a QP
with feasible points, because the flag of an earlier call is still set. -/
theorem C66_violated_bounds : ∃ o, stale1 = .ok o ∧ o.rv = SUCCESSFUL_RETURN ∧ o.s.infeasible = true ∧
    ∃ o', stale2 = .ok o' ∧ o'.rv = RET_HOTSTART_STOPPED_INFEASIBILITY ∧ o'.s.infeasible = true ∧
      ∀ M, (QP.box 2 M (vec [0, 0]) (vec [0, 0]) (vec [1, 1])).Feasible fun _ => 0 := by
  obtain ⟨o, e, h⟩ := of_holds (r := stale1) (p := fun o => decide (o.rv = SUCCESSFUL_RETURN ∧ o.s.infeasible = true)) (by decide +kernel)
  obtain ⟨h1, h2⟩ := of_decide_eq_true h
  obtain ⟨o', e', h'⟩ := of_holds (r := stale2) (p := fun o => decide (o.rv = RET_HOTSTART_STOPPED_INFEASIBILITY ∧ o.s.infeasible = true)) (by decide +kernel)
  obtain ⟨h3, h4⟩ := of_decide_eq_true h'
  refine ⟨o, e, h1, h2, o', e', h3, h4, fun M => ⟨fun i hi => ?_, fun i hi => ?_, fun k hk => absurd hk (Nat.not_lt_zero _), fun k hk => absurd hk (Nat.not_lt_zero _)⟩⟩
  · have hi : i < 2 := hi
    interval_cases i <;> simp [QP.box, vec]
  · have hi : i < 2 := hi
    interval_cases i <;> simp [QP.box, vec]

/-- Minimise ½|x|² + 10¹⁹x₀ without limits. -/
def distant : Res (Out ℚ) := QPB.init root 5 farStart none (some (vec [10000000000000000000, 0])) none none 10 none none none none none

/-- **C67** is violated by the solver for bounds only with its default options: a QP is reported unbounded although its objective function is bounded below.
The run meets the hypotheses of `C67_init_bounds_partial`. -/
theorem C67_violated_bounds : Usable farStart ∧ 0 ≤ farStart.options.initialRamping ∧ 0 ≤ farStart.options.finalRamping ∧
    0 < farStart.options.growFarBounds ∧ 0 ≤ farStart.options.initialFarBounds ∧ farStart.options.boundTolerance ≤ 1 ∧
    ∃ o, distant = .ok o ∧ o.rv = RET_INIT_FAILED_UNBOUNDEDNESS ∧ o.s.x 0 = -1500000000000000000 ∧
      ¬ (QP.box 2 (fun i j => if i = j then 1 else 0) (vec [10000000000000000000, 0]) (lowerOf none) (upperOf none)).UnboundedBelow := by
  obtain ⟨o, e, h⟩ := of_holds (r := distant) (p := fun o => decide (o.rv = RET_INIT_FAILED_UNBOUNDEDNESS ∧ o.s.x 0 = -1500000000000000000)) (by decide +kernel)
  obtain ⟨h1, h2⟩ := of_decide_eq_true h
  refine ⟨farStart_usable, by decide +kernel, by decide +kernel, by decide +kernel, by decide +kernel, by decide +kernel, o, e, h1, h2, fun hu => ?_⟩
  obtain ⟨x, -, hlt⟩ := hu (-50000000000000000000000000000000000000)
  have e : QP.obj (QP.box 2 (fun i j => if i = j then 1 else 0) (vec [10000000000000000000, 0]) (lowerOf none) (upperOf none)) x =
      ((x 0 + 10000000000000000000) * (x 0 + 10000000000000000000) + x 1 * x 1) / 2 - 50000000000000000000000000000000000000 := by
    simp [QP.obj, QP.box, QP.row, vec, sum_range_succ]; ring
  rw [e] at hlt
  have := mul_self_nonneg (x 0 + 10000000000000000000)
  have := mul_self_nonneg (x 1)
  linarith

/-- Minimise 2x₀² - 20x₀ + x₁ over [0,100]×(-∞,100]: with far bounds a hotstart reports unboundedness, rightly so. -/
def slide (o : Options ℚ) : Res (Out ℚ) := hot (cold (start 2 HST_SEMIDEF o) (some [4, 0, 0, 0]) [20, 1] [0, 0] [100, 100]) [-20, 1]
  (some [0, -100000000000000000000]) (some [100, 100]) .null

/-- It meets the hypotheses of `C67_hotstart_bounds_partial`. -/
example : ∃ o, cold (start 2 HST_SEMIDEF { (Options.setToDefault : Options ℚ) with enableRamping := false }) (some [4, 0, 0, 0]) [20, 1] [0, 0] [100, 100] = .ok o ∧
    o.s.options.enableRamping = false ∧ 0 < o.s.options.growFarBounds ∧ 0 ≤ o.s.options.initialFarBounds ∧ o.s.options.boundTolerance ≤ 1 ∧
    ∃ o', slide { (Options.setToDefault : Options ℚ) with enableRamping := false } = .ok o' ∧ o'.rv = RET_HOTSTART_STOPPED_UNBOUNDEDNESS ∧
      o'.s.x 1 = -1000000000000000000 := by
  obtain ⟨o, e, h⟩ := of_holds (r := cold (start 2 HST_SEMIDEF { (Options.setToDefault : Options ℚ) with enableRamping := false }) (some [4, 0, 0, 0]) [20, 1] [0, 0] [100, 100])
    (p := fun o => decide (o.s.options.enableRamping = false ∧ 0 < o.s.options.growFarBounds ∧ 0 ≤ o.s.options.initialFarBounds ∧ o.s.options.boundTolerance ≤ 1))
    (by decide +kernel)
  obtain ⟨h1, h2, h3, h4⟩ := of_decide_eq_true h
  obtain ⟨o', e', h'⟩ := of_holds (r := slide { (Options.setToDefault : Options ℚ) with enableRamping := false })
    (p := fun o => decide (o.rv = RET_HOTSTART_STOPPED_UNBOUNDEDNESS ∧ o.s.x 1 = -1000000000000000000)) (by decide +kernel)
  exact ⟨o, e, h1, h2, h3, h4, o', e', of_decide_eq_true h'⟩

/-- **C68** is violated by the solver for bounds only without far bounds: the same hotstart succeeds after a full step although the QP is unbounded below. -/
theorem C68_violated_bounds : ∃ o, slide plain = .ok o ∧ o.rv = SUCCESSFUL_RETURN ∧ o.s.tau = 1 ∧ o.s.unbounded = false ∧
    o.s.x 1 = -100000000000000000000 ∧
    (QP.box 2 semH (vec [-20, 1]) (vec [0, -100000000000000000000]) (vec [100, 100])).UnboundedBelow := by
  obtain ⟨o, e, h⟩ := of_holds (r := slide plain)
    (p := fun o => decide (o.rv = SUCCESSFUL_RETURN ∧ o.s.tau = 1 ∧ o.s.unbounded = false ∧ o.s.x 1 = -100000000000000000000)) (by decide +kernel)
  obtain ⟨h1, h2, h3, h4⟩ := of_decide_eq_true h
  refine ⟨o, e, h1, h2, h3, h4, fun c => ?_⟩
  have hinf : (INFTY : ℚ) = 100000000000000000000 := by decide +kernel
  refine ⟨fun i => if i = 1 then -(|c| + 1) else 0, ⟨fun i hi hl => ?_, fun i hi hl => ?_, fun k hk => absurd hk (Nat.not_lt_zero _),
    fun k hk => absurd hk (Nat.not_lt_zero _)⟩, ?_⟩
  · have hi : i < 2 := hi
    interval_cases i
    · simp [QP.box, vec]
    · rw [hinf] at hl
      simp [QP.box, vec] at hl
  · have hi : i < 2 := hi
    have := abs_nonneg c
    interval_cases i
    · simp [QP.box, vec]
    · simp [QP.box, vec]
      linarith
  · simp [QP.obj, QP.box, QP.row, semH, vec, sum_range_succ]
    have := neg_abs_le c
    linarith

end

end QpOASES.Props
