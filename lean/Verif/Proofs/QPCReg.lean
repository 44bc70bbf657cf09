import Verif.Proofs.QPCSession
import Verif.Proofs.QPCOutcome
import Verif.Spec.Proximal

/-!
Regularisation of QPs with general constraints.
-/
namespace QpOASES
open Finset Props Spec SubjectToStatus SubjectToType ReturnValue HessianType QProblemStatus
open QPB (lowerOf upperOf)

set_option linter.unusedSectionVars false

variable {K : Type} [Field K] [LinearOrder K] [IsStrictOrderedRing K]

namespace QPC

/-! ### the solves of `solveRegularisedQP` -/

/-- What a problem needs for its solves: tolerances with the right signs, consistent limits, and limits that count as equal are equal. -/
structure Sound (q : QPC K) : Prop where
  params : q.Params
  relax : 0 ≤ q.options.boundRelaxation
  eq : q.options.enableEqualities = true → ∀ i < q.nV, q.lb i > q.ub i - q.options.boundTolerance → q.lb i = q.ub i

theorem ColdOK.sound {q : QPC K} (h : q.ColdOK) : q.Sound := ⟨h.params, h.relax, h.eq⟩

theorem Launched.params {s q : QPC K} (h : Launched s q) (hq : q.Sound) : s.Params := by
  have hP := h.problem
  exact ⟨by rw [hP.options]; exact hq.params.options, fun hh => by rw [hP.options] at hh; rw [hP.ramps.1, hP.ramps.2]; exact hq.params.ramp hh⟩

/-- A solve for another gradient leads to a state with the same properties. -/
theorem Launched.solve {sq : K → K} {s q : QPC K} (h : Launched s q) (hq : q.Sound) {g : Nat → K} {nWSR : Int} {c : Option K} {p : Int}
    (hcl : RunClean sq s g (some q.lb) (some q.ub) (some q.lbA) (some q.ubA) nWSR c p) {o : OutC K}
    (e : solveQP sq s g (some q.lb) (some q.ub) (some q.lbA) (some q.ubA) nWSR c p = .ok o) (hr : o.rv = SUCCESSFUL_RETURN) :
    Solved o.s g (some q.lb) (some q.ub) (some q.lbA) (some q.ubA) ∧ Launched o.s q := by
  have hP := h.problem
  obtain ⟨j1, -⟩ := solveQP_spec (by rw [h.types]; exact h.good) (h.params hq) (by rw [hP.options]; exact hq.relax)
    (by rw [h.types]; exact h.target) hcl e
  rw [h.types] at j1
  obtain ⟨a1, a2⟩ := j1 hr
  have hP' := hP.same a2
  exact ⟨a1, a1.good, hP'.retyped a1.good.opt hq.eq, h.target.same a2, hP'⟩

/-- No number in the correction solves falls strictly between zero and a tolerance. -/
def StepsCleanC (sq : K → K) (g l u lA uA : Nat → K) (nWSR : Int) (c : Option K) : Nat → OutC K → K → Prop
  | 0, _, _ => True
  | m+1, o, total =>
    RunClean sq o.s (fun i => g i - o.s.regVal * o.s.x i) (some l) (some u) (some lA) (some uA) nWSR (c.map fun t => t - total) o.nWSR ∧
    ∀ o', solveQP sq o.s (fun i => g i - o.s.regVal * o.s.x i) (some l) (some u) (some lA) (some uA) nWSR (c.map fun t => t - total) o.nWSR = .ok o' →
      StepsCleanC sq g l u lA uA nWSR c m o' (total + o'.cputime.getD 0)

/-- Nothing in the first solve and the correction solves falls strictly between zero and a tolerance. -/
def RegClean (sq : K → K) (s : QPC K) (g l u lA uA : Nat → K) (nWSR : Int) (c : Option K) : Prop :=
  RunClean sq s g (some l) (some u) (some lA) (some uA) nWSR c 0 ∧
  ∀ o, solveQP sq s g (some l) (some u) (some lA) (some uA) nWSR c 0 = .ok o →
    StepsCleanC sq g l u lA uA nWSR c o.s.options.numRegularisationSteps.toNat o (o.cputime.getD 0)

/-- What the QP of the object is to be like for the optimality conditions of its limits. -/
structure Describes (q : QPC K) (P : QP K) : Prop where
  nV : P.nV = q.nV
  nC : P.nC = q.nC
  lb : ∀ i < q.nV, P.lb i = q.lb i
  ub : ∀ i < q.nV, P.ub i = q.ub i
  A : ∀ k < q.nC, P.A k = q.A k
  lbA : ∀ k < q.nC, P.lbA k = q.lbA k
  ubA : ∀ k < q.nC, P.ubA k = q.ubA k
  absent : ∀ k < q.nC, P.lbA k < -INFTY + q.options.boundTolerance → INFTY - q.options.boundTolerance < P.ubA k → P.lbA k ≤ -INFTY ∧ INFTY ≤ P.ubA k

theorem Solved.nearlySolves {s q : QPC K} {g : Nat → K} (h : Solved s g (some q.lb) (some q.ub) (some q.lbA) (some q.ubA)) (hP : ForProblem s q)
    {P : QP K} (hd : Describes q P) (hH : ∀ i < q.nV, ∀ j < q.nV, P.H i j = s.Heff i j) (hg : ∀ i < q.nV, P.g i = g i) :
    NearlySolves P s.options.terminationTolerance s.x s.y := by
  obtain ⟨n1, n2, n3, n4, n5⟩ := homotopyLength_near h.length
  rw [hP.nV] at n1 n2 n3
  rw [hP.nC] at n4 n5
  have hnl : (∃ i < q.nV, -INFTY < P.lb i) → s.bounds.noLower = false := by
    rintro ⟨i, hi, hh⟩
    rw [hP.noLowerB]
    exact QPB.noLower_false (s := q.toQPB) ⟨i, hi, by rw [← hd.lb i hi]; exact hh⟩
  have hnu : (∃ i < q.nV, P.ub i < INFTY) → s.bounds.noUpper = false := by
    rintro ⟨i, hi, hh⟩
    rw [hP.noUpperB]
    exact QPB.noUpper_false (s := q.toQPB) ⟨i, hi, by rw [← hd.ub i hi]; exact hh⟩
  have hnlA : (∃ k < q.nC, -INFTY < P.lbA k) → s.cons.noLower = false := by
    rintro ⟨k, hk, hh⟩
    rw [hP.noLowerC]
    show ((List.range q.nC).all fun i => !decide (q.lbA i > -INFTY)) = false
    rw [List.all_eq_false]
    exact ⟨k, List.mem_range.2 hk, by rw [← hd.lbA k hk]; simp [hh]⟩
  have hnuA : (∃ k < q.nC, P.ubA k < INFTY) → s.cons.noUpper = false := by
    rintro ⟨k, hk, hh⟩
    rw [hP.noUpperC]
    show ((List.range q.nC).all fun i => !decide (q.ubA i < INFTY)) = false
    rw [List.all_eq_false]
    exact ⟨k, List.mem_range.2 hk, by rw [← hd.ubA k hk]; simp [hh]⟩
  have hty : ∀ k < q.nC, -INFTY < P.lbA k ∨ P.ubA k < INFTY → s.cons.type k ≠ ST_UNBOUNDED := by
    intro k hk hh e
    rcases hP.typeC k hk with h1 | ⟨_, h1⟩
    · rw [h1] at e
      have := (typeOfC_unbounded e).1
      rw [← hd.lbA k hk, ← hd.ubA k hk] at this
      have := hd.absent k hk this.1 this.2
      rcases hh with hh | hh
      · exact absurd hh (not_lt.2 this.1)
      · exact absurd hh (not_lt.2 this.2)
    · rw [h1] at e; cases e
  have key := h.good.optimal_of (n := q.nV) (m := q.nC) (M := P.H) (A := P.A) hP.nV hP.nC (fun k hk => by rw [hP.A, hd.A k hk]) (gR := P.g) (l := P.lb) (u := P.ub)
    (lA := P.lbA) (uA := P.ubA) (fun _ _ => rfl) (fun _ _ => rfl) hnl hnu hty hnlA hnuA
  refine ⟨s.g, s.lb, s.ub, s.lbA, s.ubA, ?_, ?_, ?_, ?_, ?_, ?_⟩
  · intro i hi; have hi : i < q.nV := by rw [← hd.nV]; exact hi
    rw [hg i hi]; exact n1 i hi
  · intro i hi; have hi : i < q.nV := by rw [← hd.nV]; exact hi
    rw [hd.lb i hi]; exact n2 i hi
  · intro i hi; have hi : i < q.nV := by rw [← hd.nV]; exact hi
    rw [hd.ub i hi]; exact n3 i hi
  · intro k hk; have hk : k < q.nC := by rw [← hd.nC]; exact hk
    rw [hd.lbA k hk]; exact n4 k hk
  · intro k hk; have hk : k < q.nC := by rw [← hd.nC]; exact hk
    rw [hd.ubA k hk]; exact n5 k hk
  · obtain ⟨d1, d2⟩ : P.nV = q.nV ∧ P.nC = q.nC := ⟨hd.nV, hd.nC⟩
    have st := key.stationary
    refine ⟨⟨fun i hi => ?_, ?_, ?_, ?_, ?_⟩, ?_, ?_, ?_, ?_⟩
    · have hi : i < q.nV := by rw [← d1]; exact hi
      have := st.stat i hi
      show QP.row P.nV P.H s.x i + s.g i = s.y i + ∑ k ∈ range P.nC, P.A k i * s.y (P.nV + k)
      rw [d1, d2]
      refine Eq.trans ?_ this
      congr 1
      exact Finset.sum_congr rfl fun j hj => by rw [hH i hi j (mem_range.1 hj)]; rfl
    all_goals simp only [d1, d2]
    · exact st.pos
    · exact st.neg
    · exact st.posA
    · exact st.negA
    · exact key.lower
    · exact key.upper
    · exact key.lowerA
    · exact key.upperA

/-- The problem regularised about another point, or not at all, has the same limits. -/
theorem Describes.proximal {q : QPC K} {P : QP K} (h : Describes q P) (eps : K) (z : Nat → K) : Describes q (P.proximal eps z) :=
  ⟨h.nV, h.nC, h.lb, h.ub, h.A, h.lbA, h.ubA, h.absent⟩

theorem regSteps_spec {sq : K → K} {q : QPC K} (hq : q.Sound) {P : QP K} (hd : Describes q P) {g : Nat → K} (hg : ∀ i < q.nV, P.g i = g i) {eps tol : K}
    {M : Nat → Nat → K} (hH : ∀ i < q.nV, ∀ j < q.nV, P.H i j + (if i = j then eps else 0) = M i j)
    {nWSR : Int} {c : Option K} : ∀ (m k : Nat) (o o' : OutC K) (total : K), Launched o.s q → o.s.status = QPS_SOLVED → o.s.regVal = eps →
      o.s.Heff = M → o.s.options.terminationTolerance = tol → ProximalPoint P tol eps k o.s.x o.s.y →
      StepsCleanC sq g q.lb q.ub q.lbA q.ubA nWSR c m o total →
      regSteps sq g (some q.lb) (some q.ub) (some q.lbA) (some q.ubA) nWSR c m o total = .ok o' → o'.rv = SUCCESSFUL_RETURN →
      ProximalPoint P tol eps (k + m) o'.s.x o'.s.y ∧ o'.s.g = g ∧ o'.s.status = QPS_SOLVED ∧ o'.s.regVal = eps := by
  intro m
  induction m with
  | zero =>
    intro k o o' total hl hst he hM ht hp _ e _
    cases e
    exact ⟨hp, rfl, hst, he⟩
  | succ m ih =>
    intro k o o' total hl hst he hM ht hp hc e hr
    unfold regSteps at e
    obtain ⟨o2, E, e⟩ := Res.bind_eq_ok.1 e
    dsimp only at e
    split at e
    · next hne => cases e; exact absurd hr hne
    next hne =>
    rw [not_not] at hne
    obtain ⟨a1, a2⟩ := hl.solve hq hc.1 E hne
    have hM' : o2.s.Heff = M := (a2.problem.hess.trans hl.problem.hess.symm).trans hM
    have he' : o2.s.regVal = eps := (a2.problem.reg.trans hl.problem.reg.symm).trans he
    have ho' : o2.s.options = o.s.options := a2.problem.options.trans hl.problem.options.symm
    have N := a1.nearlySolves a2.problem (hd.proximal eps o.s.x) (fun i hi j hj => by rw [hM']; exact hH i hi j hj)
      (fun i hi => by show P.g i - eps * o.s.x i = _; rw [hg i hi, he])
    rw [ho', ht] at N
    have := ih (k+1) o2 o' _ a2 a1.status he' hM' (by rw [ho']; exact ht) (.next hp N) (hc.2 o2 E) e hr
    rw [show k + 1 + m = k + (m + 1) by omega] at this
    exact this

/-- A regularised solve performs the configured number of correction steps. -/
theorem Launched.regularised {sq : K → K} {s q : QPC K} (h : Launched s q) (hq : q.Sound) {P : QP K} (hd : Describes q P) {g : Nat → K}
    (hg : ∀ i < q.nV, P.g i = g i) (hH : ∀ i < q.nV, ∀ j < q.nV, P.H i j + (if i = j then s.regVal else 0) = s.Heff i j)
    (hu : s.usingRegularisation = true) {nWSR : Int} {c : Option K} (hc : RegClean sq s g q.lb q.ub q.lbA q.ubA nWSR c) {o : OutC K}
    (e : solveRegularisedQP sq s g (some q.lb) (some q.ub) (some q.lbA) (some q.ubA) nWSR c 0 = .ok o) (hr : o.rv = SUCCESSFUL_RETURN) :
    ProximalPoint P s.options.terminationTolerance s.regVal s.options.numRegularisationSteps.toNat o.s.x o.s.y ∧ o.s.g = g ∧
      o.s.status = QPS_SOLVED ∧ o.s.regVal = s.regVal := by
  unfold solveRegularisedQP at e
  rw [if_neg (by rw [hu]; decide)] at e
  obtain ⟨o2, E, e⟩ := Res.bind_eq_ok.1 e
  dsimp only at e
  split at e
  · next hne => cases e; exact absurd hr hne
  next hne =>
  rw [not_not] at hne
  obtain ⟨a1, a2⟩ := h.solve hq hc.1 E hne
  have hM' : o2.s.Heff = s.Heff := a2.problem.hess.trans h.problem.hess.symm
  have he' : o2.s.regVal = s.regVal := a2.problem.reg.trans h.problem.reg.symm
  have ho' : o2.s.options = s.options := a2.problem.options.trans h.problem.options.symm
  have N := a1.nearlySolves a2.problem (hd.proximal s.regVal fun _ => 0) (fun i hi j hj => by rw [hM']; exact hH i hi j hj)
    (fun i hi => by show P.g i - s.regVal * 0 = _; rw [hg i hi, mul_zero, sub_zero])
  rw [ho'] at N
  have hcs := hc.2 o2 E
  rw [ho'] at e hcs
  have := regSteps_spec hq hd hg hH _ 0 o2 o _ a2 a1.status he' hM' (by rw [ho']) (.first N) hcs e hr
  rw [Nat.zero_add] at this
  exact this

/-! ### regularisation of the Hessian -/

/-- Regularising changes the Hessian and its parameter only, and depends on the type, the gradient and the Hessian only. -/
theorem _root_.QpOASES.QPB.regulariseHessian_change {sq : K → K} {s s' : QPB K} {r : ReturnValue} (h : QPB.regulariseHessian sq s = .ok (r, s')) :
    s' = { s with regVal := s'.regVal, H := s'.H } ∧ ∀ u : QPB K, u.options = s.options → u.hessianType = s.hessianType → u.regVal = s.regVal → u.g = s.g →
      u.nV = s.nV → u.H = s.H → QPB.regulariseHessian sq u = .ok (r, { u with regVal := s'.regVal, H := s'.H }) := by
  unfold QPB.regulariseHessian at h ⊢
  unfold QPB.usingRegularisation at h ⊢
  have c1 : ∀ u : QPB K, u.options = s.options → (u.options.enableRegularisation = false ↔ s.options.enableRegularisation = false) := fun u h => by rw [h]
  by_cases he : s.options.enableRegularisation = false
  · rw [if_pos he] at h
    cases h
    refine ⟨rfl, fun u h1 h2 h3 h4 h5 h6 => ?_⟩
    rw [if_pos ((c1 u h1).2 he), ← h3, ← h6]
  rw [if_neg he] at h
  by_cases hi : s.hessianType = HST_IDENTITY
  · rw [if_pos hi] at h
    cases h
    refine ⟨rfl, fun u h1 h2 h3 h4 h5 h6 => ?_⟩
    rw [if_neg (fun hh => he ((c1 u h1).1 hh)), if_pos (h2.trans hi), ← h3, ← h6]
  rw [if_neg hi] at h
  by_cases hu : decide (s.regVal > ZERO) = true
  · rw [if_pos hu] at h
    cases h
    refine ⟨rfl, fun u h1 h2 h3 h4 h5 h6 => ?_⟩
    rw [if_neg (fun hh => he ((c1 u h1).1 hh)), if_neg (fun hh => hi (h2.symm.trans hh)), if_pos (by rw [h3]; exact hu), ← h3, ← h6]
  rw [if_neg hu] at h
  by_cases hz : s.hessianType = HST_ZERO
  · rw [if_pos hz] at h
    cases h
    refine ⟨rfl, fun u h1 h2 h3 h4 h5 h6 => ?_⟩
    rw [if_neg (fun hh => he ((c1 u h1).1 hh)), if_neg (fun hh => hi (h2.symm.trans hh)), if_neg (by rw [h3]; exact hu), if_pos (h2.trans hz), ← h4, ← h5, ← h6, ← h1]
  rw [if_neg hz] at h
  obtain ⟨H, e, h⟩ := Res.bind_eq_ok.1 h
  cases h
  refine ⟨rfl, fun u h1 h2 h3 h4 h5 h6 => ?_⟩
  have e' : u.getH = .ok H := by unfold QPB.getH at e ⊢; rw [h6]; exact e
  rw [if_neg (fun hh => he ((c1 u h1).1 hh)), if_neg (fun hh => hi (h2.symm.trans hh)), if_neg (by rw [h3]; exact hu), if_neg (fun hh => hz (h2.symm.trans hh)), e', Res.bind_ok]
  rw [← h5, ← h1]

/-- A Hessian that has been regularised is the given one plus a multiple of the identity. -/
theorem _root_.QpOASES.QPB.regulariseHessian_heff {sq : K → K} {s s' : QPB K} (he : s.options.enableRegularisation = true) (hn : s.usingRegularisation = false)
    (h : QPB.regulariseHessian sq s = .ok (SUCCESSFUL_RETURN, s')) (hr : s'.usingRegularisation = true) :
    (∀ i < s.nV, ∀ j < s.nV, s.Heff i j + (if i = j then s'.regVal else 0) = s'.Heff i j) ∧ s.hessianType ≠ HST_IDENTITY := by
  unfold QPB.regulariseHessian at h
  rw [if_neg (by rw [he]; decide)] at h
  by_cases hi : s.hessianType = HST_IDENTITY
  · rw [if_pos hi] at h; cases h
  refine ⟨?_, hi⟩
  rw [if_neg hi, if_neg (by rw [hn]; decide)] at h
  by_cases hz : s.hessianType = HST_ZERO
  · rw [if_pos hz] at h
    cases h
    intro i _ j _
    have e1 : s.scal = 0 := by unfold QPB.scal; rw [if_pos hz, if_neg (by rw [hn]; decide)]
    have hs' : ∀ r : K, ({ s with regVal := r } : QPB K).scalarH := fun _ => Or.inl hz
    refine Eq.symm ((QPB.Heff_scalar (hs' _) i j).trans ?_)
    rw [QPB.Heff_scalar (Or.inl hz) i j, e1]
    unfold QPB.scal
    rw [if_pos hz, if_pos hr]
    split <;> simp
  · rw [if_neg hz] at h
    obtain ⟨H, e, h⟩ := Res.bind_eq_ok.1 h
    cases h
    have hs : ¬ s.scalarH := fun h => h.elim hz hi
    have eH : s.H = some H := by
      unfold QPB.getH at e
      split at e
      · cases e; assumption
      · cases e
    intro i h1 j h2
    rw [QPB.Heff_of_H hs eH]
    have hs' : ∀ (r : K) (H' : Nat → Nat → K), ¬ ({ s with regVal := r, H := some H' } : QPB K).scalarH := fun _ _ => hs
    refine Eq.symm ((QPB.Heff_of_H (hs' _ _) rfl i j).trans ?_)
    by_cases hij : i = j
    · rw [if_pos ⟨hij, h1⟩, if_pos hij]
    · rw [if_neg fun h => hij h.1, if_neg hij, add_zero]

/-- Symmetry is kept. -/
theorem _root_.QpOASES.QPB.regulariseHessian_sym {sq : K → K} {s s' : QPB K} {r : ReturnValue} (h : QPB.regulariseHessian sq s = .ok (r, s'))
    (hs : ∀ H, s.H = some H → ∀ i < s.nV, ∀ j < s.nV, H i j = H j i) : ∀ H, s'.H = some H → ∀ i < s.nV, ∀ j < s.nV, H i j = H j i := by
  unfold QPB.regulariseHessian at h
  split at h
  · cases h; exact hs
  split at h
  · cases h; exact hs
  split at h
  · cases h; exact hs
  split at h
  · cases h; exact hs
  obtain ⟨H, e, h⟩ := Res.bind_eq_ok.1 h
  cases h
  have eH : s.H = some H := by
    unfold QPB.getH at e
    split at e
    · cases e; assumption
    · cases e
  intro H' e' i hi j hj
  simp only [Option.some.injEq] at e'
  subst e'
  dsimp only
  by_cases hij : i = j
  · subst hij; rfl
  · rw [if_neg fun h => hij h.1, if_neg fun h => hij h.1.symm]
    exact hs H eH i hi j hj

/-! ### regularisation before the auxiliary QP is set up -/

/-- Regularising first does not make a difference to setting up the auxiliary QP. -/
theorem prepareAuxiliary_early {sq : K → K} {s : QPC K} {v : K} {H : Option (Nat → Nat → K)} (hz : s.hessianType = HST_ZERO ∨ s.hessianType = HST_SEMIDEF)
    (hA : regulariseHessian sq s = .ok (SUCCESSFUL_RETURN, { s with regVal := v, H := H }))
    (hB : ({ s with regVal := v, H := H } : QPC K).toQPB.Idle) {xOpt yOpt : Option (Nat → K)} {gB gC : Option WS} {R : Option (Nat → K)} {nWSR : Int}
    {c : Option K} {s' : QPC K} (e : prepareAuxiliary sq s xOpt yOpt gB gC R nWSR c = .ok (.ok s')) :
    prepareAuxiliary sq { s with regVal := v, H := H } xOpt yOpt gB gC R nWSR c = .ok (.ok s') := by
  unfold prepareAuxiliary at e ⊢
  have h1 : ({ s with regVal := v, H := H } : QPC K).toQPB.auxStatus xOpt yOpt gB = s.toQPB.auxStatus xOpt yOpt gB := rfl
  have h2 : ({ s with regVal := v, H := H } : QPC K).auxStatusC xOpt yOpt gC = s.auxStatusC xOpt yOpt gC := rfl
  rw [h1, h2]
  change (match QPB.obtainAux (s.toQPB.auxStatus xOpt yOpt gB) s.nV 0 (WS.init s.nV), QPB.obtainAux (s.auxStatusC xOpt yOpt gC) s.nC 0 (WS.init s.nC) with
    | some auxB, some auxC => _
    | _, _ => _) = _
  generalize QPB.obtainAux (s.toQPB.auxStatus xOpt yOpt gB) s.nV 0 (WS.init s.nV) = oB at *
  generalize QPB.obtainAux (s.auxStatusC xOpt yOpt gC) s.nC 0 (WS.init s.nC) = oC at *
  cases oB with
  | none => cases e
  | some auxB =>
  cases oC with
  | none => cases e
  | some auxC =>
  dsimp only at e ⊢
  rw [if_pos hz, hA] at e
  rw [if_pos hz, regulariseHessian_idle hB]
  exact e

theorem _root_.QpOASES.QPB.determineHessianType_done {s : QPB K} (hz : s.hessianType = HST_ZERO ∨ s.hessianType = HST_SEMIDEF ∧ s.H ≠ none)
    (he : s.options.enableRegularisation = true) : s.determineHessianType = (SUCCESSFUL_RETURN, s) := by
  unfold QPB.determineHessianType QPB.ensureRegularisation
  rcases hz with hz | ⟨hz, hH⟩
  · rw [hz]
    dsimp only
    rw [if_pos he]
  · obtain ⟨H, eH⟩ := Option.ne_none_iff_exists'.1 hH
    rw [hz, eH]

/-- The Hessian of the object is regularised with parameter `v` as soon as its type is known, which leads to the Hessian `H`. -/
structure Early (sq : K → K) (s : QPC K) (b : QPB K) (v : K) (H : Option (Nat → Nat → K)) : Prop where
  det : s.toQPB.determineHessianType = (SUCCESSFUL_RETURN, b)
  type : b.hessianType = HST_ZERO ∨ b.hessianType = HST_SEMIDEF ∧ H ≠ none
  on : b.options.enableRegularisation = true
  reg : QPB.regulariseHessian sq b = .ok (SUCCESSFUL_RETURN, { b with regVal := v, H := H })
  pos : ZERO < v

theorem Early.idle {sq : K → K} {s : QPC K} {b : QPB K} {v : K} {H : Option (Nat → Nat → K)} (h : Early sq s b v H) :
    ({ b with regVal := v, H := H } : QPB K).Idle := by
  refine Or.inr ⟨decide_eq_true h.pos, ?_⟩
  show b.hessianType ≠ HST_IDENTITY
  rcases h.type with h | h
  · rw [h]; decide
  · rw [h.1]; decide

theorem Early.type' {sq : K → K} {s : QPC K} {b : QPB K} {v : K} {H : Option (Nat → Nat → K)} (h : Early sq s b v H) :
    b.hessianType = HST_ZERO ∨ b.hessianType = HST_SEMIDEF := h.type.imp id And.left

theorem Early.again {sq : K → K} {s : QPC K} {b : QPB K} {v : K} {H : Option (Nat → Nat → K)} (h : Early sq s b v H) {t : QPC K}
    (h1 : t.options = b.options) (h2 : t.hessianType = b.hessianType) (h3 : t.regVal = b.regVal) (h4 : t.g = b.g) (h5 : t.nV = b.nV) (h6 : t.H = b.H) :
    regulariseHessian sq t = .ok (SUCCESSFUL_RETURN, { t with regVal := v, H := H }) := by
  unfold regulariseHessian
  rw [(QPB.regulariseHessian_change h.reg).2 t.toQPB h1 h2 h3 h4 h5 h6]
  rfl

theorem prepareInitialQP_early {sq : K → K} {s : QPC K} {b : QPB K} {v : K} {H : Option (Nat → Nat → K)} (h : Early sq s b v H)
    {xOpt yOpt : Option (Nat → K)} {gB gC : Option WS} {R : Option (Nat → K)} {nWSR : Int}
    {c : Option K} {s' : QPC K} (e : prepareInitialQP sq s xOpt yOpt gB gC R nWSR c = .ok (.ok s')) :
    prepareInitialQP sq { s with toQPB := { b with regVal := v, H := H } } xOpt yOpt gB gC R nWSR c = .ok (.ok s') := by
  unfold prepareInitialQP at e ⊢
  dsimp only at e ⊢
  rw [determineHessianType_status, h.det] at e
  dsimp only at e
  rw [if_neg (by simp)] at e
  rw [QPB.determineHessianType_done (s := { b with regVal := v, H := H, status := QPS_NOTINITIALISED }) h.type h.on]
  dsimp only
  rw [if_neg (by simp)]
  refine prepareAuxiliary_early (v := v) (H := H) ?_ ?_ h.idle e
  · exact h.type'
  · exact h.again rfl rfl rfl rfl rfl rfl

theorem determineHessianType_now (s : QPB K) (k : Nat) :
    ({ s with now := k } : QPB K).determineHessianType = ((s.determineHessianType).1, { (s.determineHessianType).2 with now := k }) := by
  unfold QPB.determineHessianType QPB.ensureRegularisation
  dsimp only
  repeat' split
  all_goals rfl

theorem Early.now {sq : K → K} {s : QPC K} {b : QPB K} {v : K} {H : Option (Nat → Nat → K)} (h : Early sq s b v H) (k : Nat) :
    Early sq { s with now := k } { b with now := k } v H := by
  refine ⟨?_, h.type, h.on, ?_, h.pos⟩
  · show ({ s.toQPB with now := k } : QPB K).determineHessianType = _
    rw [determineHessianType_now, h.det]
  · exact (QPB.regulariseHessian_change h.reg).2 _ rfl rfl rfl rfl rfl rfl

/-- A cold start that regularises at once takes the same course as one for the regularised Hessian. -/
theorem solveInitialQP_early {sq : K → K} {fuel : Nat} {s : QPC K} {b : QPB K} {v : K} {H : Option (Nat → Nat → K)} (h : Early sq s b v H)
    {xOpt yOpt : Option (Nat → K)} {gB gC : Option WS} {R : Option (Nat → K)} {nWSR : Int} {c : Option K} {o : OutC K}
    (e : solveInitialQP sq fuel s xOpt yOpt gB gC R nWSR c = .ok o) (hr : o.rv = SUCCESSFUL_RETURN ∨ o.rv = RET_MAX_NWSR_REACHED) :
    solveInitialQP sq fuel { s with toQPB := { b with regVal := v, H := H } } xOpt yOpt gB gC R nWSR c = .ok o := by
  obtain ⟨t, op, e1, -⟩ := QPB.determineHessianType_frame s.toQPB
  have hb : b = { s.toQPB with hessianType := t, options := op } := by rw [← e1, h.det]
  unfold solveInitialQP at e ⊢
  dsimp only at e ⊢
  obtain ⟨p, e2, e⟩ := Res.bind_eq_ok.1 e
  cases p with
  | error o' =>
    simp only [Res.ok.injEq] at e
    subst e
    obtain ⟨-, h1, -⟩ := prepareInitialQP_setUp e2
    rcases h1 with h1 | h1 <;> rw [h1] at hr <;> rcases hr with hr | hr <;> cases hr
  | ok s' =>
    have hclock : (({ b with regVal := v, H := H } : QPB K).startClock c).1 = (s.toQPB.startClock c).1 := by
      rw [hb]; cases c <;> rfl
    have hclock2 : ∃ k, (s.toQPB.startClock c).2 = { s.toQPB with now := k } ∧
        (({ b with regVal := v, H := H } : QPB K).startClock c).2 = { b with regVal := v, H := H, now := k } := by
      cases c with
      | none => exact ⟨s.now, rfl, by rw [hb]; rfl⟩
      | some c => exact ⟨s.now + 1, rfl, by rw [hb]; rfl⟩
    obtain ⟨k, k1, k2⟩ := hclock2
    rw [k1] at e2
    rw [k2, hclock, prepareInitialQP_early (h.now k) e2, Res.bind_ok]
    rw [hb]
    exact e

/-- Options and limits a cold start with regularisation is specified for. -/
structure RegularData (s : QPC K) (l u lA uA : Nat → K) : Prop where
  options : OptionsOK s.options
  ramp : s.options.enableRamping = true → 0 ≤ s.options.initialRamping ∧ 0 ≤ s.options.finalRamping
  relax : 0 ≤ s.options.boundRelaxation
  box : ∀ i < s.nV, l i ≤ u i
  eq : s.options.enableEqualities = true → ∀ i < s.nV, l i > u i - s.options.boundTolerance → l i = u i
  boxA : ∀ k < s.nC, lA k ≤ uA k
  eqA : s.options.enableEqualities = true → ∀ k < s.nC, lA k > uA k - s.options.boundTolerance → lA k = uA k
  absent : ∀ k < s.nC, lA k < -INFTY + s.options.boundTolerance → INFTY - s.options.boundTolerance < uA k → lA k ≤ -INFTY ∧ INFTY ≤ uA k

/-- The object once its Hessian has been regularised -/
def early (sq : K → K) (q : QPC K) : QPC K :=
  match QPB.regulariseHessian sq (q.toQPB.determineHessianType).2 with
  | .ok (_, b) => { q with toQPB := b }
  | .ub _ => q

theorem Early.eq {sq : K → K} {q : QPC K} {b : QPB K} {v : K} {H : Option (Nat → Nat → K)} (h : Early sq q b v H) :
    q.early sq = { q with toQPB := { b with regVal := v, H := H } } := by
  unfold early
  rw [h.det]
  dsimp only
  rw [h.reg]

/-- Options that may have been changed when the Hessian turned out to be zero -/
theorem _root_.QpOASES.QPB.determineHessianType_options (s : QPB K) : (s.determineHessianType).2.options = s.options ∨
    (s.determineHessianType).2.options = { s.options with enableRegularisation := true, numRegularisationSteps := 1 } := by
  unfold QPB.determineHessianType QPB.ensureRegularisation
  dsimp only
  repeat' split
  all_goals first | exact Or.inl rfl | exact Or.inr rfl

theorem Early.coldOK {sq : K → K} {q s : QPC K} {b : QPB K} {v : K} {H : Option (Nat → Nat → K)} (h : Early sq q b v H) {g A : Nat → K}
    {lb ub lbA ubA : Option (Nat → K)} (c : Stored q s g A lb ub lbA ubA) (ha : RegularData s (lowerOf lb) (upperOf ub) (lowerOf lbA) (upperOf ubA))
    (hst : q.SymH) : ColdOK (q.early sq) := by
  obtain ⟨t, op, e1, -⟩ := QPB.determineHessianType_frame q.toQPB
  have ho := QPB.determineHessianType_options q.toQPB
  rw [e1] at ho
  have ho : op = s.options ∨ op = { s.options with enableRegularisation := true, numRegularisationSteps := 1 } := by rw [← c.options]; exact ho
  have hb : b = { q.toQPB with hessianType := t, options := op } := by rw [← e1, h.det]
  have hdone := QPB.determineHessianType_done (s := { b with regVal := v, H := H }) h.type h.on
  have hidle := h.idle
  have hon := h.on
  have hsym := QPB.regulariseHessian_sym h.reg (s := b) (by rw [hb]; exact hst)
  rw [h.eq]
  have hop : OptionsOK op := by
    have := ha.options
    rcases ho with ho | ho
    · rw [ho]; exact this
    · rw [ho]; exact ⟨this.epsNum, this.epsDen, this.refSteps, this.iterRef, this.jump, this.drop⟩
  have hfields : op.enableRamping = s.options.enableRamping ∧ op.boundRelaxation = s.options.boundRelaxation ∧ op.enableEqualities = s.options.enableEqualities ∧
      op.boundTolerance = s.options.boundTolerance := by
    rcases ho with ho | ho <;> rw [ho] <;> exact ⟨rfl, rfl, rfl, rfl⟩
  refine ⟨by rw [hb]; exact c.freeB, by rw [hb]; exact c.fixedB, by rw [hb]; exact c.nB, by show q.cons.free = []; rw [c.cons]; rfl,
    by show q.cons.fixed = []; rw [c.cons]; rfl, by show q.cons.n = q.nC; rw [c.cons]; rfl, by rw [hb]; exact c.size, by rw [hb]; exact c.pos,
    ⟨by rw [hb]; exact hop, ?_⟩, by rw [hb]; show 0 ≤ op.boundRelaxation; rw [hfields.2.1]; exact ha.relax, ?_, ?_, ?_, ?_, ?_, ?_, ?_⟩
  · intro hr
    rw [hb] at hr ⊢
    have hr : op.enableRamping = true := hr
    rw [hfields.1] at hr
    obtain ⟨r2, r3⟩ := ha.ramp hr
    show 0 ≤ q.ramp0 ∧ 0 ≤ q.ramp1
    rcases c.ramps with ⟨e1, e2⟩ | ⟨e1, e2⟩
    · rw [e1, e2]; exact ⟨r2, r3⟩
    · rw [e1, e2]
      refine ⟨?_, ?_⟩
      · show (0 : K) ≤ 1/2; positivity
      · show (0 : K) ≤ 1; exact zero_le_one
  · intro _
    rw [hdone]; exact hidle
  · rw [hb]
    show ∀ i < q.nV, q.lb i ≤ q.ub i
    rw [c.nV, c.lb, c.ub]; exact ha.box
  · rw [hb]
    show op.enableEqualities = true → ∀ i < q.nV, q.lb i > q.ub i - op.boundTolerance → q.lb i = q.ub i
    rw [c.nV, c.lb, c.ub, hfields.2.2.1, hfields.2.2.2]; exact ha.eq
  · intro k hk
    have hk : k < q.nC := hk
    obtain ⟨_, d2, d3⟩ := c.data (by omega)
    show q.lbA k ≤ q.ubA k
    rw [d2, d3]
    exact ha.boxA k (by rw [← c.nC]; exact hk)
  · rw [hb]
    show op.enableEqualities = true → ∀ k < q.nC, q.lbA k > q.ubA k - op.boundTolerance → q.lbA k = q.ubA k
    rw [hfields.2.2.1, hfields.2.2.2]
    intro he k hk
    obtain ⟨_, d2, d3⟩ := c.data (by omega)
    rw [d2, d3]
    exact ha.eqA he k (by rw [← c.nC]; exact hk)
  · intro _
    rw [hb] at hon ⊢
    exact hon
  · intro H' e'
    have := hsym H' e'
    rw [hb] at this ⊢
    exact this

/-- The Hessian `M` of a problem that is regularised at once with parameter `v`: it is known to be zero, or it is declared as positive
semidefinite and regularisation is enabled. -/
structure Singular (sq : K → K) (q : QPB K) (M : Nat → Nat → K) (v : K) : Prop where
  zero : q.hessianType = HST_ZERO → (∀ i j, M i j = 0) ∧ v = getNorm sq q.g q.nV 2 * q.options.epsRegularisation
  semidef : q.hessianType ≠ HST_ZERO → q.hessianType = HST_SEMIDEF ∧ q.H = some M ∧ q.options.enableRegularisation = true ∧
    v = getNorm sq (fun p => M (p / q.nV) (p % q.nV)) (q.nV * q.nV) 2 * q.options.epsRegularisation
  fresh : q.regVal = 0
  pos : ZERO < v

theorem Singular.early {sq : K → K} {q : QPC K} {M : Nat → Nat → K} {v : K} (h : Singular sq q.toQPB M v) :
    ∃ b H, Early sq q b v H ∧ b.Heff = M ∧ b.regVal = 0 ∧ b.nV = q.nV := by
  by_cases hz : q.hessianType = HST_ZERO
  · obtain ⟨h1, h2⟩ := h.zero hz
    have hd : q.toQPB.determineHessianType = (SUCCESSFUL_RETURN, q.toQPB.ensureRegularisation) := by
      unfold QPB.determineHessianType
      rw [hz]
    have hens : ∃ op, q.toQPB.ensureRegularisation = { q.toQPB with options := op } ∧ op.enableRegularisation = true ∧
        op.epsRegularisation = q.options.epsRegularisation := by
      unfold QPB.ensureRegularisation
      split
      · next he => exact ⟨q.options, rfl, he, rfl⟩
      · exact ⟨_, rfl, rfl, rfl⟩
    obtain ⟨op, e1, e2, e3⟩ := hens
    have hu : ({ q.toQPB with options := op } : QPB K).usingRegularisation = false := by
      unfold QPB.usingRegularisation; rw [h.fresh]; exact decide_eq_false (not_lt.2 ZERO_pos.le)
    refine ⟨{ q.toQPB with options := op }, q.H, ⟨by rw [hd, e1], Or.inl hz, e2, ?_, h.pos⟩, ?_, h.fresh, rfl⟩
    · unfold QPB.regulariseHessian
      rw [if_neg (by show ¬ op.enableRegularisation = false; rw [e2]; decide), if_neg (by show ¬ q.hessianType = HST_IDENTITY; rw [hz]; decide),
        if_neg (by rw [hu]; decide), if_pos hz]
      show Res.ok (SUCCESSFUL_RETURN, { q.toQPB with options := op, regVal := getNorm sq q.g q.nV 2 * op.epsRegularisation }) = _
      rw [e3, ← h2]
    · funext i j
      have key : ∀ t : QPB K, t.hessianType = HST_ZERO → t.usingRegularisation = false → t.Heff i j = M i j := fun t a1 a2 => by
        unfold QPB.Heff
        rw [a1, h1]
        simp [a2]
      exact key _ hz hu
  · obtain ⟨h1, h2, h3, h4⟩ := h.semidef hz
    have hd : q.toQPB.determineHessianType = (SUCCESSFUL_RETURN, q.toQPB) := by
      unfold QPB.determineHessianType
      rw [h1, h2]
    have hu : q.toQPB.usingRegularisation = false := by
      unfold QPB.usingRegularisation; rw [h.fresh]; exact decide_eq_false (not_lt.2 ZERO_pos.le)
    refine ⟨q.toQPB, some fun i j => if i = j ∧ i < q.nV then M i j + v else M i j, ⟨hd, Or.inr ⟨h1, by simp⟩, h3, ?_, h.pos⟩, ?_, h.fresh, rfl⟩
    · unfold QPB.regulariseHessian
      rw [if_neg (by rw [h3]; decide), if_neg (by rw [h1]; decide), if_neg (by rw [hu]; decide), if_neg (by rw [h1]; decide)]
      unfold QPB.getH
      rw [h2]
      dsimp only
      rw [Res.bind_ok, ← h4]
    · exact funext fun i => funext fun j => QPB.Heff_of_H (fun hs => hs.elim (by rw [h1]; decide) (by rw [h1]; decide)) h2 i j

/-- **Cold start with a singular Hessian**: if it succeeds, the proximal point iteration has been performed for the QP of the user. -/
theorem init_singular {sq : K → K} (fuel : Nat) {s : QPC K} (h : Usable s) (hfar : s.options.enableFarBounds = false) {H : Option (Nat → K)} {g A : Nat → K}
    {lb ub lbA ubA : Option (Nat → K)} (ha : RegularData s (lowerOf lb) (upperOf ub) (lowerOf lbA) (upperOf ubA)) {M : Nat → Nat → K} {v : K}
    (hM : Singular sq (s.coldData H g A lb ub lbA ubA).toQPB M v) (hst : (s.coldData H g A lb ub lbA ubA).SymH)
    {nWSR : Int} {cputime : Option K} {xOpt yOpt : Option (Nat → K)} {gB gC : Option WS}
    (hc : StartClean sq ((s.coldData H g A lb ub lbA ubA).early sq) xOpt yOpt gB gC nWSR cputime)
    (hrun : ∀ s2 c, StartsAt sq ((s.coldData H g A lb ub lbA ubA).early sq) xOpt yOpt gB gC nWSR cputime s2 c →
      RegClean sq s2 g (lowerOf lb) (upperOf ub) (s.coldData H g A lb ub lbA ubA).lbA (s.coldData H g A lb ub lbA ubA).ubA nWSR c) {o : OutC K}
    (e : init sq fuel s H (some g) (some A) lb ub lbA ubA nWSR cputime xOpt yOpt gB gC none = .ok o) (hr : o.rv = SUCCESSFUL_RETURN) :
    ProximalPoint (qp s.nV s.nC M g (lowerOf lb) (upperOf ub) (fun k j => A (k * s.nV + j)) (lowerOf lbA) (upperOf ubA)) s.options.terminationTolerance v
      (if s.options.enableRegularisation = true then s.options.numRegularisationSteps.toNat else 1) o.s.x o.s.y ∧
    o.s.g = g ∧ o.s.status = QPS_SOLVED ∧ o.s.regVal = v := by
  rcases init_cases sq fuel (s := s) H g A lb ub lbA ubA nWSR cputime xOpt yOpt gB gC with ⟨o', e', h1, -⟩ | e'
  · rw [e] at e'
    simp only [Res.ok.injEq] at e'
    subst e'
    exact absurd hr h1
  rw [e'] at e
  have c := h.cold H g A lb ub lbA ubA
  generalize s.coldData H g A lb ub lbA ubA = q at *
  obtain ⟨b, H', hE, hb1, hb2, hb3⟩ := hM.early
  have hcold := hE.coldOK c ha hst
  have e2 := solveInitialQP_early hE e (Or.inl hr)
  have hq := hE.eq
  rw [← hq] at e2
  obtain ⟨s2, c2, o1, k, hs2, hL, hgo, r1, r2⟩ := solveInitialQP_cases fuel hcold hc e2 (Or.inl hr)
  have hrc := hrun s2 c2 hs2
  -- fields of the regularised object
  obtain ⟨t, op, e1, -⟩ := QPB.determineHessianType_frame q.toQPB
  have hop := QPB.determineHessianType_options q.toQPB
  rw [e1] at hop
  have hbq : b = { q.toQPB with hessianType := t, options := op } := by rw [← e1, hE.det]
  have hon : op.enableRegularisation = true := by have := hE.on; rw [hbq] at this; exact this
  have f1 : (q.early sq).nV = s.nV := by rw [hq, hbq]; exact c.nV
  have f2 : (q.early sq).nC = s.nC := by rw [hq]; exact c.nC
  have f3 : (q.early sq).lb = lowerOf lb := by rw [hq, hbq]; exact c.lb
  have f4 : (q.early sq).ub = upperOf ub := by rw [hq, hbq]; exact c.ub
  have f5 : (q.early sq).lbA = q.lbA := by rw [hq]
  have f6 : (q.early sq).ubA = q.ubA := by rw [hq]
  have f7 : (q.early sq).g = g := by rw [hq, hbq]; exact c.g
  have f8 : (q.early sq).options = op := by rw [hq, hbq]
  have f9 : (q.early sq).regVal = v := by rw [hq]
  have f10 : (q.early sq).A = q.A := by rw [hq]
  have hopt : op.terminationTolerance = s.options.terminationTolerance ∧ op.boundTolerance = s.options.boundTolerance ∧ op.enableFarBounds = s.options.enableFarBounds ∧
      op.numRegularisationSteps.toNat = (if s.options.enableRegularisation = true then s.options.numRegularisationSteps.toNat else 1) := by
    rw [← c.options]
    rcases hop with hop | hop
    · have hop : op = q.options := hop
      rw [hop] at hon ⊢
      exact ⟨rfl, rfl, rfl, by rw [if_pos hon]⟩
    · have hd := hE.det
      have hop : op = { q.options with enableRegularisation := true, numRegularisationSteps := 1 } := hop
      have hdd : q.options.enableRegularisation = true → op = q.options := fun hh => by
        have := QPB.determineHessianType_enabled hh
        rw [e1] at this
        exact this
      by_cases hh : q.options.enableRegularisation = true
      · rw [hdd hh, if_pos hh]; exact ⟨rfl, rfl, rfl, rfl⟩
      · rw [if_neg hh, hop]; exact ⟨rfl, rfl, rfl, rfl⟩
  have hP := hL.problem
  unfold runOn at hgo
  rw [if_pos (by rw [hP.options, f8, hopt.2.2.1]; exact hfar), f3, f4, f5, f6, f7] at hgo
  have hdat : ∀ k < s.nC, q.A = (fun k j => A (k * q.nV + j)) ∧ q.lbA = lowerOf lbA ∧ q.ubA = upperOf ubA := fun k hk => c.data (by rw [c.nC]; omega)
  have hdes : Describes (q.early sq) (qp s.nV s.nC M g (lowerOf lb) (upperOf ub) (fun k j => A (k * s.nV + j)) (lowerOf lbA) (upperOf ubA)) := by
    refine ⟨f1.symm, f2.symm, fun i _ => by rw [f3]; rfl, fun i _ => by rw [f4]; rfl, fun k hk => ?_, fun k hk => ?_, fun k hk => ?_, fun k hk => ?_⟩
    · rw [f10, (hdat k (by rw [← f2]; exact hk)).1, c.nV]; rfl
    · rw [f5, (hdat k (by rw [← f2]; exact hk)).2.1]; rfl
    · rw [f6, (hdat k (by rw [← f2]; exact hk)).2.2]; rfl
    · rw [f8, hopt.2.1]
      exact ha.absent k (by rw [← f2]; exact hk)
  have hdone := QPB.determineHessianType_done (s := { b with regVal := v, H := H' }) hE.type hE.on
  have hbu : b.usingRegularisation = false := by unfold QPB.usingRegularisation; rw [hb2]; exact decide_eq_false (not_lt.2 ZERO_pos.le)
  have hpos : ({ b with regVal := v, H := H' } : QPB K).usingRegularisation = true := decide_eq_true hE.pos
  have hheff := (QPB.regulariseHessian_heff hE.on hbu hE.reg hpos).1
  have hreg2 : s2.regVal = v := hP.reg.trans f9
  have key := hL.regularised hcold.sound hdes (g := g) (fun _ _ => rfl) (fun i hi j hj => by
      rw [hreg2, hP.hess, hq, hdone]
      show M i j + _ = _
      rw [← hb1]
      exact hheff i (by rw [hb3, c.nV, ← f1]; exact hi) j (by rw [hb3, c.nV, ← f1]; exact hj))
    (show s2.toQPB.usingRegularisation = true by unfold QPB.usingRegularisation; rw [hreg2]; exact decide_eq_true hE.pos)
    (by rw [f3, f4, f5, f6]; exact hrc) (by rw [f3, f4, f5, f6]; exact hgo) (r1 ▸ hr)
  rw [hreg2, show s2.options = op from hP.options.trans f8, hopt.1, hopt.2.2.2] at key
  rw [r2]
  exact key

end QPC
end QpOASES
