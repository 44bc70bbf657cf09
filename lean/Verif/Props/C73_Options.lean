import Verif.Proofs.QPBKept
import Verif.Proofs.QPCKept
import Verif.Proofs.SQKept
import Verif.Proofs.QPCRuns

/-!
C73: the solver leaves the options of the user alone.

Violated: a Hessian that is zero switches regularisation on, for good, and the size of the regularisation may grow.  With general
constraints a guess that cannot be installed switches off the full tests for linear independence, although the call succeeds.  Proved:
nothing else is ever changed.
-/
namespace QpOASES.Props
open QPB ReturnValue HessianType

variable {K : Type} [Field K] [LinearOrder K] [IsStrictOrderedRing K]

/-- The options `o'` are the options `o`, except possibly for the size of the regularisation. -/
def SameButSize (o' o : Options K) : Prop := o' = { o with epsRegularisation := o'.epsRegularisation }

/-- The options `o'` are the options `o`, except possibly for those that control the regularisation. -/
def SameButRegularisation (o' o : Options K) : Prop :=
  o' = { o with
    enableRegularisation := o'.enableRegularisation
    numRegularisationSteps := o'.numRegularisationSteps
    epsRegularisation := o'.epsRegularisation }

theorem sameButSize_iff {s' s : QPB K} : s'.steady = s.steady ↔ SameButSize s'.options s.options := by
  unfold SameButSize steady
  simp [Options.ext_iff]

theorem SameButSize.weaken {o' o : Options K} (h : SameButSize o' o) : SameButRegularisation o' o := by
  unfold SameButSize SameButRegularisation at *
  rw [Options.ext_iff] at h ⊢
  simp_all

theorem SameButRegularisation.trans {a b c : Options K} (h : SameButRegularisation a b) (k : SameButRegularisation b c) :
    SameButRegularisation a c := by
  unfold SameButRegularisation at *
  rw [Options.ext_iff] at h k ⊢
  simp_all

/-- The Hessian passed to `init` is zero or missing, or the user has told the object that Hessians are zero. -/
def TakenZero (s : QPB K) (H : Option (Nat → K)) : Prop :=
  s.hessianType = HST_ZERO ∨ H = none ∨ ∃ h, H = some h ∧ ∀ i < s.nV, ∀ j < s.nV, |h (i * s.nV + j)| ≤ EPS

/-- A hotstart, whatever it returns, changes no option other than the size of the regularisation. -/
theorem C73_hotstart_partial {sq : K → K} {fuel : Nat} {s : QPB K} {gNew : Nat → K} {lbNew ubNew : Option (Nat → K)} {nWSR : Int}
    {c : Option K} {guess : QPB.Guess} {o : Out K} (hb : 0 ≤ nWSR) (h : hotstart sq fuel s gNew lbNew ubNew nWSR c guess = .ok o) :
    SameButSize o.s.options s.options :=
  sameButSize_iff.1 (hotstart_steady hb h)

/-- A cold start, whatever it returns, changes no option other than the size of the regularisation, or switches on regularisation with
one step, which was off before; the latter only if the Hessian is zero or missing. -/
theorem C73_init_partial {sq : K → K} {fuel : Nat} {s : QPB K} {H g lb ub : Option (Nat → K)} {nWSR : Int} {c : Option K}
    {xOpt yOpt : Option (Nat → K)} {guess : Option WS} {R : Option (Nat → K)} {o : Out K} (hb : 0 ≤ nWSR)
    (h : init sq fuel s H g lb ub nWSR c xOpt yOpt guess R = .ok o) :
    SameButSize o.s.options s.options ∨
    (TakenZero s H ∧ s.options.enableRegularisation = false ∧
      SameButSize o.s.options { s.options with enableRegularisation := true, numRegularisationSteps := 1 }) := by
  rcases init_grown hb h with k | ⟨k0, k1, k2⟩
  · exact Or.inl (sameButSize_iff.1 k)
  · exact Or.inr ⟨k0, k1, sameButSize_iff (s := { s with
      options := { s.options with enableRegularisation := true, numRegularisationSteps := 1 } }).1 k2⟩

/-- A user who has switched on regularisation keeps all options, except possibly for its size. -/
theorem C73_regularised_partial {sq : K → K} {fuel : Nat} {s : QPB K} {H g lb ub : Option (Nat → K)} {nWSR : Int} {c : Option K}
    {xOpt yOpt : Option (Nat → K)} {guess : Option WS} {R : Option (Nat → K)} {o : Out K} (hb : 0 ≤ nWSR)
    (hr : s.options.enableRegularisation = true) (h : init sq fuel s H g lb ub nWSR c xOpt yOpt guess R = .ok o) :
    SameButSize o.s.options s.options := by
  rcases C73_init_partial hb h with k | ⟨_, k, _⟩
  · exact k
  · rw [hr] at k; cases k

/-- If the Hessian has an element that is not zero, all options are kept, except possibly for the size of the regularisation. -/
theorem C73_nonzero_partial {sq : K → K} {fuel : Nat} {s : QPB K} {h : Nat → K} {g lb ub : Option (Nat → K)} {nWSR : Int} {c : Option K}
    {xOpt yOpt : Option (Nat → K)} {guess : Option WS} {R : Option (Nat → K)} {o : Out K} (hb : 0 ≤ nWSR)
    (hz : s.hessianType ≠ HST_ZERO) {i j : Nat} (hi : i < s.nV) (hj : j < s.nV) (hh : EPS < |h (i * s.nV + j)|)
    (e : init sq fuel s (some h) g lb ub nWSR c xOpt yOpt guess R = .ok o) : SameButSize o.s.options s.options := by
  rcases C73_init_partial hb e with k | ⟨k, _⟩
  · exact k
  · rcases k with k | k | ⟨h', k, k'⟩
    · exact absurd k hz
    · cases k
    · cases k
      exact absurd hh (not_lt.2 (k' i hi j hj))

/-- What any sequence of cold starts, hotstarts and resets makes of an object. -/
inductive Calls (sq : K → K) : QPB K → QPB K → Prop
  | nil (s : QPB K) : Calls sq s s
  | init {s s' : QPB K} (fuel : Nat) (H g lb ub : Option (Nat → K)) (nWSR : Int) (c : Option K) (xOpt yOpt : Option (Nat → K))
      (guess : Option WS) (R : Option (Nat → K)) (o : Out K) : Calls sq s s' → 0 ≤ nWSR →
      QPB.init sq fuel s' H g lb ub nWSR c xOpt yOpt guess R = .ok o → Calls sq s o.s
  | hotstart {s s' : QPB K} (fuel : Nat) (g : Nat → K) (lb ub : Option (Nat → K)) (nWSR : Int) (c : Option K) (guess : QPB.Guess)
      (o : Out K) : Calls sq s s' → 0 ≤ nWSR → QPB.hotstart sq fuel s' g lb ub nWSR c guess = .ok o → Calls sq s o.s
  | reset {s s' : QPB K} : Calls sq s s' → Calls sq s s'.reset

/-- No sequence of calls changes options other than those that control the regularisation, and none switches regularisation off. -/
theorem C73_session_partial {sq : K → K} {s s' : QPB K} (h : Calls sq s s') : SameButRegularisation s'.options s.options ∧
    (s.options.enableRegularisation = true → SameButSize s'.options s.options) := by
  have key : ∀ {a b c : Options K}, SameButSize a b → SameButSize b c → SameButSize a c := by
    intro a b c h k
    unfold SameButSize at *
    rw [Options.ext_iff] at h k ⊢
    simp_all
  induction h with
  | nil => exact ⟨rfl, fun _ => rfl⟩
  | @init s' fuel H g lb ub nWSR c xOpt yOpt guess R o _ hb e ih =>
    refine ⟨.trans ?_ ih.1, fun hr => ?_⟩
    · rcases C73_init_partial hb e with k | ⟨_, _, k⟩
      · exact k.weaken
      · exact .trans k.weaken rfl
    · have k := ih.2 hr
      have hr' : s'.options.enableRegularisation = true := by
        unfold SameButSize at k
        rw [Options.ext_iff] at k
        simp_all
      exact key (C73_regularised_partial hb hr' e) k
  | hotstart fuel g lb ub nWSR c guess o _ hb e ih =>
    have k := C73_hotstart_partial hb e
    exact ⟨.trans k.weaken ih.1, fun hr => key k (ih.2 hr)⟩
  | reset _ ih => exact ih

/-! ### General constraints -/

/-- The options `o'` are the options `o`, except possibly for the size of the regularisation and the full tests for linear independence. -/
def SameButTests (o' o : Options K) : Prop :=
  o' = { o with epsRegularisation := o'.epsRegularisation, enableFullLITests := o'.enableFullLITests }

theorem sameButTests_iff {s' s : QPC K} : s'.light = s.light ↔ SameButTests s'.options s.options := by
  unfold SameButTests QPC.light QPC.steady steady
  simp [Options.ext_iff]

namespace General

/-- A hotstart of QProblem without guesses, whatever it returns, changes no option other than the size of the regularisation. -/
theorem C73_hotstart_partial {sq : K → K} {fuel : Nat} {s : QPC K} {gNew : Nat → K} {lbNew ubNew lbANew ubANew : Option (Nat → K)}
    {nWSR : Int} {c : Option K} {o : OutC K} (hb : 0 ≤ nWSR)
    (h : QPC.hotstart sq fuel s gNew lbNew ubNew lbANew ubANew nWSR c .null .null = .ok o) : SameButSize o.s.options s.options :=
  sameButSize_iff.1 (QPC.hotstart_null_steady hb h)

/-- One with guesses may also change the full tests for linear independence. -/
theorem C73_guessed_partial {sq : K → K} {fuel : Nat} {s : QPC K} {gNew : Nat → K} {lbNew ubNew lbANew ubANew : Option (Nat → K)}
    {nWSR : Int} {c : Option K} {gB gC : QPB.Guess} {o : OutC K} (hb : 0 ≤ nWSR)
    (h : QPC.hotstart sq fuel s gNew lbNew ubNew lbANew ubANew nWSR c gB gC = .ok o) : SameButTests o.s.options s.options :=
  sameButTests_iff.1 (QPC.hotstart_light hb h)

/-- A cold start may in addition switch on regularisation with one step, if the Hessian is zero or missing. -/
theorem C73_init_partial {sq : K → K} {fuel : Nat} {s : QPC K} {H g A lb ub lbA ubA : Option (Nat → K)} {nWSR : Int} {c : Option K}
    {xOpt yOpt : Option (Nat → K)} {gB gC : Option WS} {R : Option (Nat → K)} {o : OutC K} (hb : 0 ≤ nWSR)
    (h : QPC.init sq fuel s H g A lb ub lbA ubA nWSR c xOpt yOpt gB gC R = .ok o) :
    SameButTests o.s.options s.options ∨
    (TakenZero s.toQPB H ∧ s.options.enableRegularisation = false ∧
      SameButTests o.s.options { s.options with enableRegularisation := true, numRegularisationSteps := 1 }) := by
  rcases QPC.init_grown hb h with k | ⟨k0, k1, k2⟩
  · exact Or.inl (sameButTests_iff.1 k)
  · exact Or.inr ⟨k0, k1, sameButTests_iff (s := { s with
      options := { s.options with enableRegularisation := true, numRegularisationSteps := 1 } }).1 k2⟩

/-- A hotstart of SQProblem with new matrices may also switch on regularisation with one step, if the new Hessian is given and zero. -/
theorem C73_new_partial {sq : K → K} {fuel : Nat} {s : QPC K} {H : Option (Nat → K)} {gNew : Nat → K}
    {A lbNew ubNew lbANew ubANew : Option (Nat → K)} {nWSR : Int} {c : Option K} {gB gC : QPB.Guess} {o : OutC K} (hb : 0 ≤ nWSR)
    (h : QPC.hotstartNew sq fuel s H gNew A lbNew ubNew lbANew ubANew nWSR c gB gC = .ok o) :
    SameButTests o.s.options s.options ∨
    ((∃ h, H = some h ∧ ∀ i < s.nV, ∀ j < s.nV, |h (i * s.nV + j)| ≤ EPS) ∧ s.options.enableRegularisation = false ∧
      SameButTests o.s.options { s.options with enableRegularisation := true, numRegularisationSteps := 1 }) := by
  rcases QPC.hotstartNew_widened hb h with k | ⟨k0, k1, k2⟩
  · exact Or.inl (sameButTests_iff.1 k)
  · exact Or.inr ⟨k0, k1, sameButTests_iff (s := { s with
      options := { s.options with enableRegularisation := true, numRegularisationSteps := 1 } }).1 k2⟩

/-- What any sequence of cold starts, hotstarts, hotstarts with new matrices and resets makes of a QProblem or an SQProblem. -/
inductive Calls (sq : K → K) : QPC K → QPC K → Prop
  | nil (s : QPC K) : Calls sq s s
  | init {s s' : QPC K} (fuel : Nat) (H g A lb ub lbA ubA : Option (Nat → K)) (nWSR : Int) (c : Option K) (xOpt yOpt : Option (Nat → K))
      (gB gC : Option WS) (R : Option (Nat → K)) (o : OutC K) : Calls sq s s' → 0 ≤ nWSR →
      QPC.init sq fuel s' H g A lb ub lbA ubA nWSR c xOpt yOpt gB gC R = .ok o → Calls sq s o.s
  | hotstart {s s' : QPC K} (fuel : Nat) (g : Nat → K) (lb ub lbA ubA : Option (Nat → K)) (nWSR : Int) (c : Option K)
      (gB gC : QPB.Guess) (o : OutC K) : Calls sq s s' → 0 ≤ nWSR →
      QPC.hotstart sq fuel s' g lb ub lbA ubA nWSR c gB gC = .ok o → Calls sq s o.s
  | hotstartNew {s s' : QPC K} (fuel : Nat) (H : Option (Nat → K)) (g : Nat → K) (A lb ub lbA ubA : Option (Nat → K)) (nWSR : Int)
      (c : Option K) (gB gC : QPB.Guess) (o : OutC K) : Calls sq s s' → 0 ≤ nWSR →
      QPC.hotstartNew sq fuel s' H g A lb ub lbA ubA nWSR c gB gC = .ok o → Calls sq s o.s
  | reset {s s' : QPC K} : Calls sq s s' → Calls sq s s'.reset

/-- No sequence of calls of QProblem or SQProblem changes options other than those that control the regularisation and the full tests for linear
independence. -/
theorem C73_session_partial {sq : K → K} {s s' : QPC K} (h : Calls sq s s') :
    s'.options = { s.options with
      enableRegularisation := s'.options.enableRegularisation
      numRegularisationSteps := s'.options.numRegularisationSteps
      epsRegularisation := s'.options.epsRegularisation
      enableFullLITests := s'.options.enableFullLITests } := by
  induction h with
  | nil => rfl
  | init fuel H g A lb ub lbA ubA nWSR c xOpt yOpt gB gC R o _ hb e ih =>
    rcases C73_init_partial hb e with k | ⟨_, _, k⟩
    all_goals
      unfold SameButTests at k
      rw [Options.ext_iff] at k ih ⊢
      simp_all
  | hotstart fuel g lb ub lbA ubA nWSR c gB gC o _ hb e ih =>
    have k := C73_guessed_partial hb e
    unfold SameButTests at k
    rw [Options.ext_iff] at k ih ⊢
    simp_all
  | hotstartNew fuel H g A lb ub lbA ubA nWSR c gB gC o _ hb e ih =>
    rcases C73_new_partial hb e with k | ⟨_, _, k⟩
    all_goals
      unfold SameButTests at k
      rw [Options.ext_iff] at k ih ⊢
      simp_all
  | reset _ ih => exact ih

end General

/-! ### Runs -/
open QpOASES.Runs

/-- Options with regularisation switched off. -/
def regOff : QPB ℚ := start 2 HST_UNKNOWN { plain with epsRegularisation := 1 }

/-- A linear program, and after it a QP with a positive definite Hessian, with options that switch regularisation off. -/
def lpFirst : Res (Out ℚ) := cold regOff none [1, 0] [0, 0] [1, 1]
def lpThen : Res (Out ℚ) := do
  let o ← lpFirst
  cold o.s (some [4, 0, 0, 4]) [1, 0] [0, 0] [1, 1]

/-- The user has switched regularisation off; solving a linear program switches it on, and it stays on for the next QP. -/
theorem C73_violated : regOff.options.enableRegularisation = false ∧
    (∃ o, lpFirst = .ok o ∧ o.rv = SUCCESSFUL_RETURN ∧ o.s.options.enableRegularisation = true) ∧
    ∃ o, lpThen = .ok o ∧ o.rv = SUCCESSFUL_RETURN ∧ o.s.options.enableRegularisation = true := by
  have h1 : holds lpFirst (fun o => o.rv == SUCCESSFUL_RETURN && o.s.options.enableRegularisation) = true := by decide +kernel
  have h2 : holds lpThen (fun o => o.rv == SUCCESSFUL_RETURN && o.s.options.enableRegularisation) = true := by decide +kernel
  obtain ⟨o1, e1, p1⟩ := of_holds h1
  obtain ⟨o2, e2, p2⟩ := of_holds h2
  simp only [Bool.and_eq_true, beq_iff_eq] at p1 p2
  exact ⟨by decide +kernel, ⟨o1, e1, p1.1, p1.2⟩, o2, e2, p2.1, p2.2⟩

theorem Calls.cold {s s' : QPB ℚ} {H : Option (List ℚ)} {g l u : List ℚ} {o : Out ℚ} (c : Calls root s s')
    (e : Runs.cold s' H g l u = .ok o) : Calls root s o.s :=
  .init 5 _ _ _ _ 10 none none none none none o c (by decide) e

/-- The results apply to a session of two cold starts. -/
example : ∃ s', Calls root regOff s' ∧ SameButRegularisation s'.options regOff.options := by
  have h2 : holds lpThen (fun _ => true) = true := by decide +kernel
  obtain ⟨o2, e2, _⟩ := of_holds h2
  have e2' := e2
  unfold lpThen at e2'
  obtain ⟨o1, e1, e2'⟩ := Res.bind_eq_ok.1 e2'
  have c := ((Calls.nil (sq := root) regOff).cold e1).cold e2'
  exact ⟨_, c, (C73_session_partial c).1⟩

/-- The theorem for Hessians that are not zero applies to a run that succeeds. -/
example : ∃ o, cold regOff (some [4, 0, 0, 4]) [1, 0] [0, 0] [1, 1] = .ok o ∧ o.rv = SUCCESSFUL_RETURN ∧
    SameButSize o.s.options regOff.options := by
  have h : holds (cold regOff (some [4, 0, 0, 4]) [1, 0] [0, 0] [1, 1]) (fun o => o.rv == SUCCESSFUL_RETURN) = true := by decide +kernel
  obtain ⟨o, e, p⟩ := of_holds h
  have hn : regOff.nV = 2 := by decide +kernel
  refine ⟨o, e, by simpa using p, C73_nonzero_partial (i := 0) (j := 0) (h := vec [4, 0, 0, 4]) (nWSR := 10) (by decide) (by decide +kernel)
    (by rw [hn]; decide) (by rw [hn]; decide) (by rw [hn]; decide +kernel) e⟩

/-! ### Runs with general constraints -/

/-- A QP with a positive definite Hessian, all variables at their lower limits; full tests for linear independence are switched on. -/
def fullFirst : Res (OutC ℚ) :=
  coldC (startC 3 1 HST_POSDEF { plain with enableFullLITests := true }) (some [4, 0, 0, 0, 4, 0, 0, 0, 1/10000000000000000]) [1, 1, 10]
    [1, 1, 0] [0, 0, 0] [1, 1, 100000000000000000000] [-10] [10]

/-- A hotstart with the same data and the guess that the third variable is free. -/
def fullThen : Res (OutC ℚ) := do
  let o ← fullFirst
  QPC.hotstart rootC 5 o.s (vec [1, 1, 10]) (some (vec [0, 0, 0])) (some (vec [1, 1, 100000000000000000000])) (some (vec [-10]))
    (some (vec [10])) 10 none (.other (o.s.bounds.moveFixedToFree 2)) .null

/-- The guess cannot be installed, because the curvature is too small.  The hotstart succeeds, but the full tests for linear
independence, which the user has switched on, are off from now on. -/
theorem C73_violated_general : (∃ o, fullFirst = .ok o ∧ o.rv = SUCCESSFUL_RETURN ∧ o.s.options.enableFullLITests = true) ∧
    ∃ o, fullThen = .ok o ∧ o.rv = SUCCESSFUL_RETURN ∧ o.s.options.enableFullLITests = false := by
  have h1 : holds fullFirst (fun o => o.rv == SUCCESSFUL_RETURN && o.s.options.enableFullLITests) = true := by decide +kernel
  have h2 : holds fullThen (fun o => o.rv == SUCCESSFUL_RETURN && !o.s.options.enableFullLITests) = true := by decide +kernel
  obtain ⟨o1, e1, p1⟩ := of_holds h1
  obtain ⟨o2, e2, p2⟩ := of_holds h2
  simp only [Bool.and_eq_true, beq_iff_eq, Bool.not_eq_true'] at p1 p2
  exact ⟨⟨o1, e1, p1.1, p1.2⟩, o2, e2, p2.1, p2.2⟩

/-- The general results apply to this session. -/
example : ∃ o o', fullFirst = .ok o ∧ fullThen = .ok o' ∧ General.Calls rootC o.s o'.s ∧ o'.s.options.epsLITests = o.s.options.epsLITests := by
  obtain ⟨_, o', e', _⟩ := C73_violated_general
  have e2 := e'
  unfold fullThen at e2
  obtain ⟨o, e, e2⟩ := Res.bind_eq_ok.1 e2
  refine ⟨o, o', e, e', .hotstart _ _ _ _ _ _ _ _ _ _ o' (.nil _) (by decide) e2, ?_⟩
  have k := General.C73_guessed_partial (by decide) e2
  unfold SameButTests at k
  rw [k]

/-! ### A run with new matrices -/

/-- A QP with a positive definite Hessian; regularisation is switched off. -/
def newFirst : Res (OutC ℚ) :=
  coldC (startC 2 1 HST_UNKNOWN { plain with epsRegularisation := 1 }) (some [4, 0, 0, 4]) [1, 0] [1, 1] [0, 0] [1, 1] [-10] [10]

/-- A hotstart with a new Hessian and the same constraint. -/
def newThen (H : List ℚ) : Res (OutC ℚ) := do
  let o ← newFirst
  QPC.hotstartNew rootC 5 o.s (some (vec H)) (vec [1, 0]) (some (vec [1, 1])) (some (vec [0, 0])) (some (vec [1, 1])) (some (vec [-10]))
    (some (vec [10])) 10 none .null .null

/-- A hotstart with a new Hessian that is zero switches on the regularisation, which the user has switched off. -/
theorem C73_violated_new : (∃ o, newFirst = .ok o ∧ o.rv = SUCCESSFUL_RETURN ∧ o.s.options.enableRegularisation = false) ∧
    ∃ o, newThen [0, 0, 0, 0] = .ok o ∧ o.rv = SUCCESSFUL_RETURN ∧ o.s.options.enableRegularisation = true := by
  have h1 : holds newFirst (fun o => o.rv == SUCCESSFUL_RETURN && !o.s.options.enableRegularisation) = true := by decide +kernel
  have h2 : holds (newThen [0, 0, 0, 0]) (fun o => o.rv == SUCCESSFUL_RETURN && o.s.options.enableRegularisation) = true := by
    decide +kernel
  obtain ⟨o1, e1, p1⟩ := of_holds h1
  obtain ⟨o2, e2, p2⟩ := of_holds h2
  simp only [Bool.and_eq_true, beq_iff_eq, Bool.not_eq_true'] at p1 p2
  exact ⟨⟨o1, e1, p1.1, p1.2⟩, o2, e2, p2.1, p2.2⟩

/-- The result on new matrices applies to a hotstart with another positive definite Hessian. -/
example : ∃ o o', newFirst = .ok o ∧ newThen [1, 0, 0, 4] = .ok o' ∧ o'.rv = SUCCESSFUL_RETURN ∧ General.Calls rootC o.s o'.s ∧
    o'.s.options.epsLITests = o.s.options.epsLITests := by
  have h : holds (newThen [1, 0, 0, 4]) (fun o => o.rv == SUCCESSFUL_RETURN) = true := by decide +kernel
  obtain ⟨o', e', p⟩ := of_holds h
  have e2 := e'
  unfold newThen at e2
  obtain ⟨o, e, e2⟩ := Res.bind_eq_ok.1 e2
  have c : General.Calls rootC o.s o'.s := .hotstartNew _ _ _ _ _ _ _ _ _ _ _ _ o' (.nil _) (by decide) e2
  refine ⟨o, o', e, e', by simpa using p, c, ?_⟩
  rw [General.C73_session_partial c]

end QpOASES.Props
