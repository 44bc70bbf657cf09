import Verif.Proofs.QPCOpt

/-!
Changing the working set of the solver for general constraints keeps the iterate optimal.
-/
namespace QpOASES
open Finset Props SubjectToStatus SubjectToType ReturnValue HessianType
open QPB (sg DenOK sg_sub sg_ne nonneg_shorten ratioTest_spec)

set_option linter.unusedSectionVars false

variable {K : Type} [Field K] [LinearOrder K] [IsStrictOrderedRing K]

namespace SideOK
variable {w w' : WS} {obs : Nat → Prop} {v l u y : Nat → K} {n : Nat}

theorem congrW (h : SideOK w obs v l u y n) (h1 : w'.status = w.status) (h2 : w'.type = w.type) (h3 : w'.noLower = w.noLower)
    (h4 : w'.noUpper = w.noUpper) : SideOK w' obs v l u y n := by
  refine ⟨fun i hi hs => ?_, fun i hi hs => ?_, fun i hi hs => ?_, h.box, fun i hi ht => ?_⟩
  · rw [h1] at hs; rw [h2]; exact h.lower i hi hs
  · rw [h1] at hs; rw [h2]; exact h.upper i hi hs
  · rw [h1] at hs; rw [h3, h4]; exact h.inactive i hi hs
  · rw [h2] at ht; rw [h1]; exact h.eq i hi ht

/-- The multipliers of the active members change but keep their signs. -/
theorem dual (h : SideOK w obs v l u y n) (hw : w.OK) (hn : w.n = n) {y' : Nat → K} (hfree : ∀ i ∈ w.free, y' i = y i)
    (hsign : ∀ i ∈ w.fixed, w.type i ≠ ST_EQUALITY → 0 ≤ sg w i (y' i)) : SideOK w obs v l u y' n := by
  have hmemF : ∀ i < n, w.status i = ST_LOWER ∨ w.status i = ST_UPPER → i ∈ w.fixed :=
    fun i hi hst => hw.mem_fixed_iff.2 ⟨by rw [hn]; exact hi, hst⟩
  refine ⟨fun i hi hst => ⟨(h.lower i hi hst).1, fun hty => ?_⟩, fun i hi hst => ⟨(h.upper i hi hst).1, fun hty => ?_⟩, fun i hi hst => ?_, h.box, h.eq⟩
  · have := hsign i (hmemF i hi (Or.inl hst)) hty
    rwa [sg_ne (by rw [hst]; decide)] at this
  · have := hsign i (hmemF i hi (Or.inr hst)) hty
    unfold sg at this
    rw [if_pos hst] at this
    linarith
  · rw [hfree i (hw.mem_free_iff.2 ⟨by rw [hn]; exact hi, hst⟩)]
    exact h.inactive i hi hst

end SideOK

namespace QPC

/-- Same problem: sizes, matrices, types and options. -/
structure Same (s' s : QPC K) : Prop where
  nV : s'.nV = s.nV
  nC : s'.nC = s.nC
  A : s'.A = s.A
  H : s'.H = s.H
  hess : s'.Heff = s.Heff
  gen : s'.general = s.general
  typeB : s'.bounds.type = s.bounds.type
  typeC : s'.cons.type = s.cons.type
  options : s'.options = s.options
  noLowerB : s'.bounds.noLower = s.bounds.noLower
  noUpperB : s'.bounds.noUpper = s.bounds.noUpper
  noLowerC : s'.cons.noLower = s.cons.noLower
  noUpperC : s'.cons.noUpper = s.cons.noUpper
  reg : s'.regVal = s.regVal
  frame : (s'.ramp0, s'.ramp1, s'.haveCholesky) = (s.ramp0, s.ramp1, s.haveCholesky)

theorem Same.refl (s : QPC K) : Same s s := ⟨rfl, rfl, rfl, rfl, rfl, rfl, rfl, rfl, rfl, rfl, rfl, rfl, rfl, rfl, rfl⟩

theorem Same.trans {a b c : QPC K} (h1 : Same a b) (h2 : Same b c) : Same a c :=
  ⟨h1.nV.trans h2.nV, h1.nC.trans h2.nC, h1.A.trans h2.A, h1.H.trans h2.H, h1.hess.trans h2.hess, h1.gen.trans h2.gen, h1.typeB.trans h2.typeB,
    h1.typeC.trans h2.typeC, h1.options.trans h2.options, h1.noLowerB.trans h2.noLowerB, h1.noUpperB.trans h2.noUpperB,
    h1.noLowerC.trans h2.noLowerC, h1.noUpperC.trans h2.noUpperC, h1.reg.trans h2.reg, h1.frame.trans h2.frame⟩

theorem heff_semidef {s s' : QPC K} (hg : s.general = true) (h1 : s'.hessianType = HST_SEMIDEF) (h2 : s'.H = s.H) : s'.Heff = s.Heff := by
  have hz := general_iff.1 hg
  obtain ⟨g1, g2⟩ := QPB.not_scalar hz
  funext i j
  unfold QPB.Heff
  rw [h1, h2]
  dsimp only
  generalize s.hessianType = t at *
  cases t <;> first | rfl | exact absurd rfl g1 | exact absurd rfl g2

theorem general_semidef {s s' : QPC K} (hg : s.general = true) (h1 : s'.hessianType = HST_SEMIDEF) : s'.general = s.general := by
  rw [hg]
  unfold general
  rw [h1]; rfl

theorem updA_self {v : Nat → K} {k : Nat} {a : K} (h : v k = a) : updA v k a = v := by
  funext i
  by_cases e : i = k
  · subst e; rw [updA_same, h]
  · rw [updA_ne _ _ e]

/-! ### removals -/

theorem RemovedB.same {s s' : QPC K} {k : Nat} (h : RemovedB s k s') : Same s' s := by
  obtain ⟨T, Q, R, fl, rfl⟩ := h
  exact ⟨rfl, rfl, rfl, rfl, rfl, rfl, rfl, rfl, rfl, rfl, rfl, rfl, rfl, rfl, rfl⟩

theorem RemovedC.same {s s' : QPC K} {k : Nat} (h : RemovedC s k s') : Same s' s := by
  obtain ⟨T, Q, R, fl, rfl⟩ := h
  exact ⟨rfl, rfl, rfl, rfl, rfl, rfl, rfl, rfl, rfl, rfl, rfl, rfl, rfl, rfl, rfl⟩

theorem FlippedB.same {s s' : QPC K} {k : Nat} (h : FlippedB s k s') (hg : s.general = true) : Same s' s := by
  obtain ⟨f1, f2, f3, f4, f5, f6, f7⟩ := s.bounds.flipFixed_fields k
  obtain ⟨fl, ⟨_, rfl⟩ | ⟨_, rfl⟩⟩ := h <;>
    exact ⟨rfl, rfl, rfl, rfl, heff_semidef hg rfl rfl, general_semidef hg rfl, f4, rfl, rfl, f5, f6, rfl, rfl, rfl, rfl⟩

theorem FlippedC.same {s s' : QPC K} {k : Nat} (h : FlippedC s k s') (hg : s.general = true) : Same s' s := by
  obtain ⟨f1, f2, f3, f4, f5, f6, f7⟩ := s.cons.flipFixed_fields k
  obtain ⟨fl, ⟨_, rfl⟩ | ⟨_, rfl⟩⟩ := h <;>
    exact ⟨rfl, rfl, rfl, rfl, heff_semidef hg rfl rfl, general_semidef hg rfl, rfl, f4, rfl, rfl, rfl, f5, f6, rfl, rfl⟩

theorem RemovedB.opt {s s' : QPC K} {k : Nat} (h : RemovedB s k s') (ho : s.Opt) (hs : s.Shape) (hk : k ∈ s.bounds.fixed)
    (hty : s.bounds.type k ≠ ST_EQUALITY) (hy : s.y k = 0) : s'.Opt := by
  obtain ⟨T, Q, R, fl, rfl⟩ := h
  exact ⟨ho.stat, ho.bounds.remove hs.okB hs.nB hk hty hy (fun _ _ _ => rfl), ho.cons⟩

theorem RemovedC.opt {s s' : QPC K} {k : Nat} (h : RemovedC s k s') (ho : s.Opt) (hs : s.Shape) (hk : k ∈ s.cons.fixed)
    (hty : s.cons.type k ≠ ST_EQUALITY) (hy : s.y (s.nV + k) = 0) : s'.Opt := by
  obtain ⟨T, Q, R, fl, rfl⟩ := h
  exact ⟨ho.stat, ho.bounds, ho.cons.remove hs.okC hs.nC hk hty hy (fun _ _ _ => rfl)⟩

theorem FlippedB.opt {s s' : QPC K} {k : Nat} (h : FlippedB s k s') (ho : s.Opt) (hs : s.Shape) (hk : k ∈ s.bounds.fixed)
    (hty : s.bounds.type k ≠ ST_EQUALITY) (hy : s.y k = 0) (hg : s.general = true) : s'.Opt := by
  have hlt : k < s.nV := by rw [← hs.nB]; exact hs.okB.lt_fixed hk
  have hh := (h.same hg).hess
  obtain ⟨fl, ⟨h1, rfl⟩ | ⟨h1, rfl⟩⟩ := h
  · refine ⟨by rw [hh]; exact ho.stat, ho.bounds.flip hty hy ?_ (fun _ _ _ => rfl) ?_ ?_, ho.cons⟩
    · exact fun i _ hi => updA_ne _ _ hi
    · exact (updA_same _ _ _).trans (ho.bounds.upper k hlt h1).1.symm
    · exact (ho.bounds.upper k hlt h1).1.symm
  · refine ⟨by rw [hh]; exact ho.stat, ho.bounds.flip hty hy (fun _ _ _ => rfl) ?_ ?_ ?_, ho.cons⟩
    · exact fun i _ hi => updA_ne _ _ hi
    · exact (ho.bounds.lower k hlt h1).1.symm
    · exact (updA_same _ _ _).trans (ho.bounds.lower k hlt h1).1.symm

theorem FlippedC.opt {s s' : QPC K} {k : Nat} (h : FlippedC s k s') (ho : s.Opt) (hs : s.Shape) (hk : k ∈ s.cons.fixed)
    (hty : s.cons.type k ≠ ST_EQUALITY) (hy : s.y (s.nV + k) = 0) (hg : s.general = true) : s'.Opt := by
  have hlt : k < s.nC := by rw [← hs.nC]; exact hs.okC.lt_fixed hk
  have hh := (h.same hg).hess
  have ht := (h.same hg).typeC
  obtain ⟨fl, ⟨h1, rfl⟩ | ⟨h1, rfl⟩⟩ := h
  · refine ⟨by rw [hh]; exact ho.stat, ho.bounds, ?_⟩
    rw [ht]
    refine ho.cons.flip hty hy ?_ (fun _ _ _ => rfl) ?_ ?_
    · exact fun i _ hi => updA_ne _ _ hi
    · exact (updA_same _ _ _).trans (ho.cons.upper k hlt h1).1.symm
    · exact (ho.cons.upper k hlt h1).1.symm
  · refine ⟨by rw [hh]; exact ho.stat, ho.bounds, ?_⟩
    rw [ht]
    refine ho.cons.flip hty hy (fun _ _ _ => rfl) ?_ ?_ ?_
    · exact fun i _ hi => updA_ne _ _ hi
    · exact (ho.cons.lower k hlt h1).1.symm
    · exact (updA_same _ _ _).trans (ho.cons.lower k hlt h1).1.symm

theorem RemovedB.ax {s s' : QPC K} {k : Nat} (h : RemovedB s k s') (ha : s.AxOK) : s'.AxOK := by
  obtain ⟨T, Q, R, fl, rfl⟩ := h
  exact ha

theorem RemovedC.ax {s s' : QPC K} {k : Nat} (h : RemovedC s k s') (ha : s.AxOK) : s'.AxOK := by
  obtain ⟨T, Q, R, fl, rfl⟩ := h
  exact ha

theorem FlippedB.ax {s s' : QPC K} {k : Nat} (h : FlippedB s k s') (ha : s.AxOK) : s'.AxOK := by
  obtain ⟨fl, ⟨h1, rfl⟩ | ⟨h1, rfl⟩⟩ := h <;> exact ha

theorem FlippedC.ax {s s' : QPC K} {k : Nat} (h : FlippedC s k s') (ha : s.AxOK) (hg : s.general = true) : s'.AxOK := by
  have ht := (h.same hg).typeC
  obtain ⟨fl, ⟨h1, rfl⟩ | ⟨h1, rfl⟩⟩ := h
  · intro i hi hty
    rw [ht] at hty
    obtain ⟨a1, a2, a3⟩ := ha i hi hty
    refine ⟨a1, ?_, a3⟩
    by_cases e : i = k
    · subst e
      show updA s.Axl i (-s.Axu i) i = s.prodA s.x i - updA s.lbA i (s.ubA i) i
      rw [updA_same, updA_same, a3]; ring
    · show updA s.Axl k _ i = s.prodA s.x i - updA s.lbA k _ i
      rw [updA_ne _ _ e, updA_ne _ _ e]; exact a2
  · intro i hi hty
    rw [ht] at hty
    obtain ⟨a1, a2, a3⟩ := ha i hi hty
    refine ⟨a1, a2, ?_⟩
    by_cases e : i = k
    · subst e
      show updA s.Axu i (-s.Axl i) i = updA s.ubA i (s.lbA i) i - s.prodA s.x i
      rw [updA_same, updA_same, a2]; ring
    · show updA s.Axu k _ i = updA s.ubA k _ i - s.prodA s.x i
      rw [updA_ne _ _ e, updA_ne _ _ e]; exact a3

/-- A state between two changes: factors, optimality and stored constraint values are in order. -/
structure Good (s : QPC K) : Prop where
  facs : s.Facs
  opt : s.Opt
  ax : s.AxOK

/-- The direction whose curvature is tested before a member leaves -/
def curvatureDir (s : QPC K) (remBound : Bool) (remIdx : Nat) : Res (Except ReturnValue (Dir K)) :=
  if remBound then
    s.determineStepDirection (fun _ => 0) (fun _ => 0) (fun _ => 0) (updA (fun _ => 0) remIdx (if s.bounds.getStatus remIdx = ST_LOWER then 1 else -1))
      (updA (fun _ => 0) remIdx (if s.bounds.getStatus remIdx = ST_LOWER then 1 else -1)) false false
  else
    s.determineStepDirection (fun _ => 0) (updA (fun _ => 0) remIdx (if s.cons.getStatus remIdx = ST_LOWER then 1 else -1))
      (updA (fun _ => 0) remIdx (if s.cons.getStatus remIdx = ST_LOWER then 1 else -1)) (fun _ => 0) (fun _ => 0) false true

/-- The curvature along this direction is above the tolerance, so that the test does nothing. -/
def Curved (s : QPC K) (remBound : Bool) (remIdx : Nat) : Prop :=
  ∀ d, s.curvatureDir remBound remIdx = .ok (.ok d) → ¬ Dir.normY s d < s.options.epsNZCTests * Dir.normX s d

theorem Curved.stays {s s' : QPC K} {b : Bool} {k : Nat} (h : s.Curved b k) {r : ReturnValue} {c : Option Change}
    (e : s.ensureNonzeroCurvature b k = .ok (r, s', c)) : s' = s ∧ c = none := by
  unfold ensureNonzeroCurvature at e
  dsimp only at e
  have e' : (do
      let e ← s.curvatureDir b k
      match e with
      | .error _ => Res.ub .uninitialised
      | .ok d =>
        if Dir.normY s d < s.options.epsNZCTests * Dir.normX s d then do
          let (sigma, c) ← s.curvatureTests b k d
          if sigma ≥ s.options.maxPrimalJump then .ok (RET_HOTSTART_STOPPED_UNBOUNDEDNESS, { s with unbounded := true }, none)
          else .ok (SUCCESSFUL_RETURN, s.jump d sigma, c)
        else .ok (SUCCESSFUL_RETURN, s, none)) = Res.ok (r, s', c) := by
    rw [← e]
    unfold curvatureDir
    cases b <;> rfl
  rw [Res.bind_eq_ok] at e'
  obtain ⟨ed, e1, e'⟩ := e'
  cases ed with
  | error _ => cases e'
  | ok d =>
    dsimp only at e'
    rw [if_neg (h d e1)] at e'
    simp only [Res.ok.injEq, Prod.mk.injEq] at e'
    exact ⟨e'.2.1.symm, e'.2.2.symm⟩

/-- Removing a bound in `changeActiveSet` is exact: no jump along a direction without curvature, exact rotations and roots. -/
def CleanOutB (sq : K → K) (s : QPC K) (k : Nat) : Prop :=
  (s.options.enableNZCTests = true → s.Curved true k) ∧ s.CleanRemoveB sq k true

def CleanOutC (sq : K → K) (s : QPC K) (k : Nat) : Prop :=
  (s.options.enableNZCTests = true → s.Curved false k) ∧ s.CleanRemoveC sq k true

theorem removeBound_out {sq : K → K} {s s' : QPC K} (h : s.Good) {k : Nat} (hk : k ∈ s.bounds.fixed) (hty : s.bounds.type k ≠ ST_EQUALITY)
    (hy : s.y k = 0) (hc : CleanOutB sq s k)
    (heq : removeBound sq s k true true s.options.enableNZCTests = .ok (SUCCESSFUL_RETURN, s')) : s'.Good ∧ Same s' s ∧ s'.y = s.y := by
  have key : removeBoundUpdate sq s k true true none = .ok (SUCCESSFUL_RETURN, s') := by
    unfold removeBound at heq
    split at heq
    · simp only [Res.ok.injEq, Prod.mk.injEq] at heq; exact absurd heq.1 (by decide)
    split at heq
    · simp only [Res.ok.injEq, Prod.mk.injEq] at heq; exact absurd heq.1 (by decide)
    split at heq
    · next hz =>
      rw [Res.bind_eq_ok] at heq
      obtain ⟨⟨r, s1, c⟩, e1, heq⟩ := heq
      obtain ⟨rfl, rfl⟩ := (hc.1 hz).stays e1
      dsimp only at heq
      split at heq
      · next hr => simp only [Res.ok.injEq, Prod.mk.injEq] at heq; exact absurd heq.1 hr
      · exact heq
    · exact heq
  obtain ⟨f1, f2 | ⟨_, _, hg, f2⟩⟩ := removeBoundUpdate_spec h.facs hk hc.2 key
  · refine ⟨⟨f1, f2.opt h.opt h.facs.shape hk hty hy, f2.ax h.ax⟩, f2.same, ?_⟩
    obtain ⟨T, Q, R, fl, rfl⟩ := f2
    rfl
  · refine ⟨⟨f1, f2.opt h.opt h.facs.shape hk hty hy hg, f2.ax h.ax⟩, f2.same hg, ?_⟩
    obtain ⟨fl, ⟨_, rfl⟩ | ⟨_, rfl⟩⟩ := f2 <;> rfl

theorem removeConstraint_out {sq : K → K} {s s' : QPC K} (h : s.Good) {k : Nat} (hk : k ∈ s.cons.fixed) (hty : s.cons.type k ≠ ST_EQUALITY)
    (hy : s.y (s.nV + k) = 0) (hc : CleanOutC sq s k)
    (heq : removeConstraint sq s k true true s.options.enableNZCTests = .ok (SUCCESSFUL_RETURN, s')) : s'.Good ∧ Same s' s ∧ s'.y = s.y := by
  have key : removeConstraintUpdate sq s k true true none = .ok (SUCCESSFUL_RETURN, s') := by
    unfold removeConstraint at heq
    split at heq
    · simp only [Res.ok.injEq, Prod.mk.injEq] at heq; exact absurd heq.1 (by decide)
    split at heq
    · simp only [Res.ok.injEq, Prod.mk.injEq] at heq; exact absurd heq.1 (by decide)
    split at heq
    · simp only [Res.ok.injEq, Prod.mk.injEq] at heq; exact absurd heq.1 (by decide)
    split at heq
    · next hz =>
      rw [Res.bind_eq_ok] at heq
      obtain ⟨⟨r, s1, c⟩, e1, heq⟩ := heq
      obtain ⟨rfl, rfl⟩ := (hc.1 hz).stays e1
      dsimp only at heq
      split at heq
      · next hr => simp only [Res.ok.injEq, Prod.mk.injEq] at heq; exact absurd heq.1 hr
      · exact heq
    · exact heq
  obtain ⟨f1, f2 | ⟨_, _, hg, f2⟩⟩ := removeConstraintUpdate_spec h.facs hk hc.2 key
  · refine ⟨⟨f1, f2.opt h.opt h.facs.shape hk hty hy, f2.ax h.ax⟩, f2.same, ?_⟩
    obtain ⟨T, Q, R, fl, rfl⟩ := f2
    rfl
  · refine ⟨⟨f1, f2.opt h.opt h.facs.shape hk hty hy hg, f2.ax h.ax hg⟩, f2.same hg, ?_⟩
    obtain ⟨fl, ⟨_, rfl⟩ | ⟨_, rfl⟩⟩ := f2 <;> rfl

end QPC
end QpOASES
