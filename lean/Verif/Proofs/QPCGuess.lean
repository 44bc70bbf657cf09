import Verif.Proofs.SQRun
import Verif.Proofs.QPCAdopt

/-!
Hotstarts with a guessed working set: the auxiliary QP of the guess is solved by the former solution.
-/
namespace QpOASES
namespace QPC
open Finset Props Spec ReturnValue SubjectToStatus SubjectToType HessianType QProblemStatus
open QPB (lowerOf upperOf EqualitiesOK Proper)

set_option linter.unusedSectionVars false

variable {K : Type} [Field K] [LinearOrder K] [IsStrictOrderedRing K]

/-- Active members have multipliers of the right sign. -/
def ActiveFit (w : WS) (y : Nat → K) (n : Nat) : Prop :=
  ∀ i < n, w.type i ≠ ST_EQUALITY → (w.status i = ST_LOWER → 0 ≤ y i) ∧ (w.status i = ST_UPPER → y i ≤ 0)

/-- One side after its limits have been adapted to the iterate. -/
theorem side_adapted {w : WS} {obs : Nat → Prop} {o : Options K} {v l u l' u' y y' : Nat → K} {n : Nat}
    (hp : ∀ i < n, Proper (w.status i)) (hl : ∀ i < n, auxLimits o none (w.type i) (w.status i) (v i) (v i) (l i) (u i) = some (l' i, u' i))
    (hin : ∀ i < n, l i ≤ v i ∧ v i ≤ u i) (hy : ∀ i < n, w.status i ≠ ST_INACTIVE → y' i = y i) (hy0 : ∀ i < n, w.status i = ST_INACTIVE → y' i = 0)
    (hs : ActiveFit w y n) (he : ∀ i < n, w.type i = ST_EQUALITY → w.status i ≠ ST_INACTIVE) :
    SideOK w obs v l' u' y' n ∧ ∀ i < n, l' i ≤ v i ∧ v i ≤ u' i := by
  have key : ∀ i < n, (l' i ≤ v i ∧ v i ≤ u' i) ∧ (w.status i = ST_LOWER → v i = l' i) ∧ (w.status i = ST_UPPER → v i = u' i) ∧
      (w.type i = ST_EQUALITY → l' i = u' i) := by
    intro i hi
    have h1 := hl i hi
    obtain ⟨a, b⟩ := hin i hi
    have h2 := he i hi
    rcases hp i hi with h | h | h <;> rw [h] at h1 h2 ⊢
    · simp only [auxLimits, Option.some.injEq, Prod.mk.injEq] at h1
      rw [← h1.1, ← h1.2]
      exact ⟨⟨a, b⟩, fun h => (by cases h), fun h => (by cases h), fun h => absurd rfl (h2 h)⟩
    · simp only [auxLimits, Option.isSome_none, Option.some.injEq, Prod.mk.injEq] at h1
      obtain ⟨h3, h4⟩ := h1
      rw [← h3, ← h4]
      refine ⟨⟨le_refl _, ?_⟩, fun _ => rfl, fun h => (by cases h), fun h => by rw [if_pos h]⟩
      split
      · exact le_refl _
      · exact b
    · simp only [auxLimits, Option.isSome_none, Option.some.injEq, Prod.mk.injEq] at h1
      obtain ⟨h3, h4⟩ := h1
      rw [← h3, ← h4]
      refine ⟨⟨?_, le_refl _⟩, fun h => (by cases h), fun _ => rfl, fun h => by rw [if_pos h]⟩
      split
      · exact le_refl _
      · exact a
  refine ⟨⟨fun i hi h => ⟨(key i hi).2.1 h, fun ht => ?_⟩, fun i hi h => ⟨(key i hi).2.2.1 h, fun ht => ?_⟩, fun i hi h => ⟨hy0 i hi h, fun _ => ⟨fun _ => (key i hi).1.1, fun _ => (key i hi).1.2⟩⟩,
    fun i hi => (key i hi).1.1.trans (key i hi).1.2, fun i hi h => ⟨he i hi h, (key i hi).2.2.2 h⟩⟩, fun i hi => (key i hi).1⟩
  · rw [hy i hi (by rw [h]; decide)]
    exact (hs i hi ht).1 h
  · rw [hy i hi (by rw [h]; decide)]
    exact (hs i hi ht).2 h

/-- Adapting the data makes the iterate optimal. -/
theorem Good.of_data {t s' : QPC K} (hF : t.Facs) (hx : ∀ i < t.nV, t.lb i ≤ t.x i ∧ t.x i ≤ t.ub i)
    (hxA : ∀ k < t.nC, t.lbA k ≤ t.prodA t.x k ∧ t.prodA t.x k ≤ t.ubA k) (sB : ActiveFit t.bounds t.y t.nV)
    (sC : ActiveFit t.cons (fun k => t.y (t.nV + k)) t.nC) (eB : ∀ i < t.nV, t.bounds.type i = ST_EQUALITY → t.bounds.status i ≠ ST_INACTIVE)
    (eC : ∀ k < t.nC, t.cons.type k = ST_EQUALITY → t.cons.status k ≠ ST_INACTIVE) (e : setupAuxiliaryQPdata t = .ok s') :
    s'.Good ∧ (∀ i < t.nV, s'.lb i ≤ s'.x i ∧ s'.x i ≤ s'.ub i) ∧
      ∃ g l u lA uA y Ax al au, s' = { t with g := g, lb := l, ub := u, lbA := lA, ubA := uA, y := y, Ax := Ax, Axl := al, Axu := au } := by
  obtain ⟨k1, ⟨g, l, u, lA, uA, y, Ax, al, au, k2⟩, k3, k4, k5, k6⟩ := setupAuxiliaryQPdata_spec hF.shape e
  have pB : ∀ i < t.nV, Proper (t.bounds.status i) := fun i hi => hF.shape.okB.status_cases (by rw [hF.shape.nB]; exact hi)
  have pC : ∀ i < t.nC, Proper (t.cons.status i) := fun i hi => hF.shape.okC.status_cases (by rw [hF.shape.nC]; exact hi)
  subst k2
  obtain ⟨b1, b2⟩ := side_adapted (obs := fun _ => True) pB k5 hx k3 k1.inactiveB sB eB
  obtain ⟨c1, c2⟩ := side_adapted (obs := fun i => t.cons.type i ≠ ST_UNBOUNDED) (y := fun k => t.y (t.nV + k)) (y' := fun k => y (t.nV + k)) pC k6 hxA k4 k1.inactiveC sC eC
  have hpr : ∀ k, ({ t with g := g, lb := l, ub := u, lbA := lA, ubA := uA, y := y, Ax := Ax, Axl := al, Axu := au } : QPC K).prodA
      ({ t with g := g, lb := l, ub := u, lbA := lA, ubA := uA, y := y, Ax := Ax, Axl := al, Axu := au } : QPC K).x k = t.prodA t.x k := fun k => rfl
  refine ⟨⟨hF.congr rfl rfl rfl rfl rfl rfl rfl rfl rfl rfl id, ⟨k1.stat, b1, c1⟩, fun k hk _ => ?_⟩, b2, _, _, _, _, _, _, _, _, _, rfl⟩
  have hv : Ax k = t.prodA t.x k := by rw [prodA_eq]; exact k1.value k hk
  refine ⟨hv, ?_, ?_⟩
  · rw [hpr, ← hv]; exact k1.slackL k hk
  · rw [hpr, ← hv]; exact k1.slackU k hk

/-- The invariant holds for the auxiliary QP of a working set with valid factors; `l1`, `u1` are the limits by which the constraints have been
classified. -/
theorem Live.of_data {n m : Nat} {M A : Nat → Nat → K} {l0 u0 l1 u1 : Nat → K} {s t s' : QPC K} (h : Live n m M A l0 u0 s)
    (hfr : ∃ T Q R fl wB wC st, t = { s with T := T, Q := Q, R := R, flipC := fl, bounds := wB, cons := wC, status := st }) (hF : t.Facs)
    (hx : ∀ i < n, s.lb i ≤ s.x i ∧ s.x i ≤ s.ub i) (hxA : ∀ k < m, s.lbA k ≤ s.prodA s.x k ∧ s.prodA s.x k ≤ s.ubA k)
    (sB : ActiveFit t.bounds s.y n) (sC : ActiveFit t.cons (fun k => s.y (n + k)) m)
    (eB : ∀ i < n, t.bounds.type i = ST_EQUALITY → t.bounds.status i ≠ ST_INACTIVE)
    (eC : ∀ k < m, t.cons.type k = ST_EQUALITY → t.cons.status k ≠ ST_INACTIVE)
    (types : ∀ i < n, t.bounds.type i = ST_EQUALITY → s.options.enableEqualities = true)
    (unbounded : ∀ k < m, t.cons.type k = ST_UNBOUNDED → (l1 k < -INFTY + s.options.boundTolerance ∧ INFTY - s.options.boundTolerance < u1 k) ∧
      s.options.enableFarBounds = false)
    (equal : ∀ k < m, t.cons.type k = ST_EQUALITY → s.options.enableEqualities = true ∧ u1 k - s.options.boundTolerance < l1 k)
    (noLower : t.cons.noLower = true → ∀ k < m, l1 k ≤ -INFTY) (noUpper : t.cons.noUpper = true → ∀ k < m, INFTY ≤ u1 k)
    (e : setupAuxiliaryQPdata t = .ok s') :
    Live n m M A l1 u1 s' ∧ s'.options = s.options ∧ (∀ i < n, s'.lb i ≤ s'.x i ∧ s'.x i ≤ s'.ub i) := by
  obtain ⟨T, Q, R, fl, wB, wC, st, rfl⟩ := hfr
  have hn := h.nV
  have hm := h.nC
  subst hn hm
  obtain ⟨g1, g2, g, l, u, lA, uA, y, Ax, al, au, g3⟩ := Good.of_data hF hx hxA sB sC eB eC e
  subst g3
  exact ⟨⟨g1, rfl, rfl, h.mat, h.pos, h.chol, ⟨h.params.options, h.params.ramp⟩, h.relax, h.reg, h.hess, types, unbounded, equal, noLower, noUpper⟩, rfl, g2⟩

/-- The guess agrees with the signs of the multipliers; equalities may have any sign. -/
def GuessFits (w : WS) (ty : Nat → SubjectToType) (y : Nat → K) (n : Nat) : Prop :=
  ∀ i < n, ty i ≠ ST_EQUALITY → (w.getStatus i = ST_LOWER → 0 ≤ y i) ∧ (w.getStatus i = ST_UPPER → y i ≤ 0)

/-- A guess that can be installed: its statuses are proper, members without limits are not active, and the multipliers the object holds have
the signs the guess requires. -/
structure GuessOK (s : QPC K) (wB wC : WS) : Prop where
  properB : ∀ i < s.nV, Proper (wB.getStatus i)
  properC : ∀ k < s.nC, Proper (wC.getStatus k)
  limitB : ∀ i < s.nV, kindOf s.options (s.lb i) (s.ub i) = ST_UNBOUNDED → wB.getStatus i = ST_INACTIVE
  limitC : ∀ k < s.nC, kindOf s.options (s.lbA k) (s.ubA k) = ST_UNBOUNDED → wC.getStatus k = ST_INACTIVE
  signB : GuessFits wB (fun i => kindOf s.options (s.lb i) (s.ub i)) s.y s.nV
  signC : GuessFits wC (fun k => kindOf s.options (s.lbA k) (s.ubA k)) (fun k => s.y (s.nV + k)) s.nC

/-- Exact arithmetic while the guess is installed from scratch: no pivot is rejected, and an equality constraint left out as dependent is not
added later. -/
def AfreshClean (sq : K → K) (s : QPC K) (wB wC : WS) : Prop :=
  (s.cleared.isTrivial (some wB) (some wC) = false → LoopsClean sq s.emptied wB wC) ∧
  ∀ t, setupAuxiliaryWorkingSet sq s.cleared (some wB) (some wC) true = .ok (SUCCESSFUL_RETURN, t) →
    (∀ k < s.nC, kindOf s.options (s.lbA k) (s.ubA k) = ST_EQUALITY → t.cons.type k = ST_EQUALITY ∨ t.cons.status k = ST_INACTIVE) ∧
    (t.general = true → ∀ H, t.H = some H → PivotsOK sq t.nZ t.nV t.nZ 0 (fun q => t.cholInput H (q % t.nV) (q / t.nV)))

theorem guessOK_iff (s : QPC K) (wB wC : WS) : GuessOK s wB wC ↔
    (∀ i < s.nV, Proper (wB.getStatus i)) ∧ (∀ k < s.nC, Proper (wC.getStatus k)) ∧
    (∀ i < s.nV, kindOf s.options (s.lb i) (s.ub i) = ST_UNBOUNDED → wB.getStatus i = ST_INACTIVE) ∧
    (∀ k < s.nC, kindOf s.options (s.lbA k) (s.ubA k) = ST_UNBOUNDED → wC.getStatus k = ST_INACTIVE) ∧
    GuessFits wB (fun i => kindOf s.options (s.lb i) (s.ub i)) s.y s.nV ∧
    GuessFits wC (fun k => kindOf s.options (s.lbA k) (s.ubA k)) (fun k => s.y (s.nV + k)) s.nC :=
  ⟨fun ⟨a, b, c, d, e, f⟩ => ⟨a, b, c, d, e, f⟩, fun ⟨a, b, c, d, e, f⟩ => ⟨a, b, c, d, e, f⟩⟩

theorem equalitiesOK_iff (s : QPB K) (lbNew ubNew : Option (Nat → K)) : EqualitiesOK s lbNew ubNew ↔
    (∀ i < s.nV, s.typeOf lbNew ubNew i = ST_EQUALITY → s.bounds.status i ≠ ST_INACTIVE ∧ s.lb i = s.ub i ∧ lowerOf lbNew i = upperOf ubNew i) ∧
    ∀ i < s.nV, s.typeOf lbNew ubNew i ≠ ST_EQUALITY → s.bounds.type i = ST_EQUALITY →
      (s.bounds.status i = ST_LOWER → 0 ≤ s.y i) ∧ (s.bounds.status i = ST_UPPER → s.y i ≤ 0) :=
  ⟨fun ⟨a, b⟩ => ⟨a, b⟩, fun ⟨a, b⟩ => ⟨a, b⟩⟩

instance (st : SubjectToStatus) : Decidable (Proper st) := by unfold Proper; infer_instance
instance (w : WS) (ty : Nat → SubjectToType) (y : Nat → K) (n : Nat) : Decidable (GuessFits w ty y n) := by unfold GuessFits; infer_instance
instance (s : QPC K) (wB wC : WS) : Decidable (GuessOK s wB wC) := decidable_of_iff' _ (guessOK_iff s wB wC)
instance (s : QPB K) (lbNew ubNew : Option (Nat → K)) : Decidable (EqualitiesOK s lbNew ubNew) :=
  haveI : DecidableEq K := LinearOrder.toDecidableEq
  haveI : ∀ i, Decidable (s.bounds.status i ≠ ST_INACTIVE ∧ s.lb i = s.ub i ∧ lowerOf lbNew i = upperOf ubNew i) := fun i => inferInstance
  haveI : Decidable (∀ i < s.nV, s.typeOf lbNew ubNew i = ST_EQUALITY →
      s.bounds.status i ≠ ST_INACTIVE ∧ s.lb i = s.ub i ∧ lowerOf lbNew i = upperOf ubNew i) := inferInstance
  decidable_of_iff' _ (equalitiesOK_iff s lbNew ubNew)
instance (sq : K → K) (s : QPC K) (wB wC : WS) : Decidable (AfreshClean sq s wB wC) := by unfold AfreshClean; infer_instance

theorem cleared_typeB (s : QPC K) {i : Nat} (hi : i < s.nV) : s.cleared.bounds.type i = kindOf s.options (s.lb i) (s.ub i) := by
  show (if i < s.nV then QPB.typeOf _ _ _ i else _) = _
  rw [if_pos hi]
  unfold QPB.typeOf kindOf
  dsimp only
  split
  · rfl
  · by_cases h : s.options.enableEqualities = true ∧ s.lb i > s.ub i - s.options.boundTolerance
    · rw [if_pos h, if_pos ⟨h.1, h.2, h.2⟩]
    · rw [if_neg h, if_neg (fun h' => h ⟨h'.1, h'.2.1⟩)]

theorem cleared_typeC (s : QPC K) {i : Nat} (hi : i < s.nC) : s.cleared.cons.type i = kindOf s.options (s.lbA i) (s.ubA i) := by
  show (if i < s.nC then typeOfC _ _ _ i else _) = _
  rw [if_pos hi]
  unfold typeOfC kindOf
  dsimp only
  rw [if_neg (show ¬ ((WS.init s.nC).type i = ST_DISABLED) by intro h; cases h)]
  split
  · rfl
  · by_cases h : s.options.enableEqualities = true ∧ s.lbA i > s.ubA i - s.options.boundTolerance
    · rw [if_pos h, if_pos ⟨h.1, h.2, h.2⟩]
    · rw [if_neg h, if_neg (fun h' => h ⟨h'.1, h'.2.1⟩)]

theorem kindOf_eq {o : Options K} {l u : K} (h : kindOf o l u = ST_EQUALITY) : o.enableEqualities = true ∧ u - o.boundTolerance < l := by
  unfold kindOf at h
  split at h
  · cases h
  · split at h
    · assumption
    · cases h

theorem kindOf_unbounded {o : Options K} {l u : K} (h : kindOf o l u = ST_UNBOUNDED) :
    (l < -INFTY + o.boundTolerance ∧ INFTY - o.boundTolerance < u) ∧ o.enableFarBounds = false := by
  unfold kindOf at h
  split at h
  · next hh => exact ⟨⟨hh.1, hh.2.1⟩, hh.2.2⟩
  · split at h <;> cases h

/-- A guess installed from scratch keeps the invariant; the constraints are classified anew by the limits the object holds. -/
theorem Live.afresh {sq : K → K} {n m : Nat} {M A : Nat → Nat → K} {l0 u0 : Nat → K} {s : QPC K} (h : Live n m M A l0 u0 s) {wB wC : WS}
    (hg : GuessOK s wB wC) (hr : s.shallRefactorise wB wC = true) (hx : ∀ i < n, s.lb i ≤ s.x i ∧ s.x i ≤ s.ub i)
    (hxA : ∀ k < m, s.lbA k ≤ s.prodA s.x k ∧ s.prodA s.x k ≤ s.ubA k) (hc : AfreshClean sq s wB wC) {s' : QPC K}
    (e : setupAuxiliaryQP sq s (some wB) (some wC) = .ok (SUCCESSFUL_RETURN, s')) :
    Live n m M A s.lbA s.ubA s' ∧ s'.options = s.options ∧ (∀ i < n, s'.lb i ≤ s'.x i ∧ s'.x i ≤ s'.ub i) := by
  have hn := h.nV
  have hm := h.nC
  subst hn hm
  unfold setupAuxiliaryQP at e
  dsimp only [Option.isNone_some, Bool.and_self, Option.getD_some] at e
  rw [if_neg (by decide)] at e
  have hr' : ({ s with status := QPS_PREPARINGAUXILIARYQP } : QPC K).shallRefactorise wB wC = true := hr
  rw [if_pos hr'] at e
  obtain ⟨⟨r0, t⟩, e0, e⟩ := Res.bind_eq_ok.1 e
  have e0 : setupAuxiliaryWorkingSet sq s.cleared (some wB) (some wC) true = .ok (r0, t) := e0
  dsimp only at e
  have hs := h.good.facs.shape
  have hb : s.cleared.Base := setupTQfactorisation_base ⟨WS.setupAllFree_ok rfl rfl, WS.setupAllFree_ok rfl rfl, rfl, rfl, hs.size⟩ h.good.facs.sym rfl
  have r0s : r0 = SUCCESSFUL_RETURN := by
    refine setupAuxiliaryWorkingSet_success (s := s.cleared) ⟨hb.shape, rfl, fun _ _ _ => rfl, fun _ _ _ => rfl⟩ hg.properB hg.properC ?_ ?_ e0
    · intro i hi h; rw [cleared_typeB s hi] at h; exact hg.limitB i hi h
    · intro i hi h; rw [cleared_typeC s hi] at h; exact hg.limitC i hi h
  subst r0s
  obtain ⟨c1, c2⟩ := hc
  obtain ⟨c3, c5⟩ := c2 t e0
  obtain ⟨k1, k2, k3, k4⟩ := setupAuxiliaryWorkingSet_spec hb rfl (fun i _ => rfl) hg.properB hg.properC c1 e0
  obtain ⟨ad, _, _⟩ := setupAuxiliaryWorkingSet_guess hb.shape hg.properB hg.properC (fun _ => ⟨fun i _ => rfl, fun i _ => rfl⟩) (fun h => by cases h) e0
  obtain ⟨T, Q, R, wB', wC', ef⟩ := k2.frame
  have hgen : t.general = true → s.general = true := by rw [ef]; exact id
  have hplain : t.general = true → t.nFX + t.nAC = 0 → ∀ j < t.nFR, ∀ i ∈ t.F, t.Q i j = if i = t.fr j then 1 else 0 := by
    intro _ h0 j hj i hi
    rcases k2.plain h0 with h1 | ⟨h1, h2⟩
    · rw [h1] at hj; omega
    · have hfr : t.fr j = s.cleared.fr j := by show t.bounds.fr j = _; rw [h2]; rfl
      have hnr : t.nFR = s.cleared.nFR := by show t.bounds.nFR = _; rw [h2]; rfl
      rw [h1, hfr]
      rw [hnr] at hj
      show (if j < s.cleared.nFR ∧ i = s.cleared.fr j then (1:K) else 0) = _
      by_cases hh : i = s.cleared.fr j
      · rw [if_pos ⟨hj, hh⟩, if_pos hh]
      · rw [if_neg (fun h => hh h.2), if_neg hh]
  obtain ⟨⟨r1, t1⟩, e1, e⟩ := Res.bind_eq_ok.1 e
  dsimp only at e
  split at e
  · simp only [Res.ok.injEq, Prod.mk.injEq] at e
    exact absurd e.1 (by decide)
  next hr1 =>
  rw [not_not] at hr1
  subst hr1
  obtain ⟨⟨R4, Q4, e6⟩, hF⟩ := computeProjectedCholesky_spec k1.shape k1.tq k1.sym ⟨hplain, c5⟩
    (fun hg' => by
      obtain ⟨H, hH, _⟩ := h.good.facs.chol (hgen hg')
      exact ⟨H, by rw [ef]; exact hH⟩) e1
  obtain ⟨t2, e2, e⟩ := Res.bind_eq_ok.1 e
  cases e
  have tn : t.nV = s.nV := by rw [ef]; rfl
  have tm : t.nC = s.nC := by rw [ef]; rfl
  have b1 : t1.bounds = t.bounds := by rw [e6]
  have c1' : t1.cons = t.cons := by rw [e6]
  have tyB : ∀ i < s.nV, t.bounds.type i = kindOf s.options (s.lb i) (s.ub i) := by
    intro i hi
    rw [k2.typeB]
    exact cleared_typeB s hi
  have tyC : ∀ k < s.nC, t.cons.type k = kindOf s.options (s.lbA k) (s.ubA k) ∨
      kindOf s.options (s.lbA k) (s.ubA k) = ST_EQUALITY ∧ t.cons.type k = ST_BOUNDED := by
    intro k hk
    rcases k2.typeC k with h1 | h1 <;> rw [cleared_typeC s hk] at h1
    · exact Or.inl h1
    · exact Or.inr h1
  refine h.of_data (t := t1) ⟨T, Q4, R4, s.flipC, wB', wC', QPS_PREPARINGAUXILIARYQP, by rw [e6, ef]; rfl⟩ hF hx hxA ?_ ?_ ?_ ?_ ?_ ?_ ?_ ?_ ?_ e2
  · intro i hi hty
    rw [b1] at hty ⊢
    have hi' : i < t.nV := by rw [tn]; exact hi
    have hk : kindOf s.options (s.lb i) (s.ub i) ≠ ST_EQUALITY := by rw [← tyB i hi]; exact hty
    obtain ⟨g1, g2⟩ := hg.signB i hi hk
    have on := ad.onlyB i hi'
    rw [cleared_typeB s hi] at on
    exact ⟨fun h1 => g1 (((on (by rw [h1]; decide)).resolve_right hk).symm.trans h1), fun h1 => g2 (((on (by rw [h1]; decide)).resolve_right hk).symm.trans h1)⟩
  · intro k hk hty
    rw [c1'] at hty ⊢
    have hk' : k < t.nC := by rw [tm]; exact hk
    by_cases hkind : kindOf s.options (s.lbA k) (s.ubA k) = ST_EQUALITY
    · have := (c3 k hk hkind).resolve_left hty
      rw [this]
      exact ⟨fun h => (by cases h), fun h => (by cases h)⟩
    · obtain ⟨g1, g2⟩ := hg.signC k hk hkind
      have on := ad.onlyC k hk'
      rw [cleared_typeC s hk] at on
      exact ⟨fun h1 => g1 (((on (by rw [h1]; decide)).resolve_right hkind).symm.trans h1), fun h1 => g2 (((on (by rw [h1]; decide)).resolve_right hkind).symm.trans h1)⟩
  · intro i hi; rw [b1]; exact k3 i hi
  · intro k hk; rw [c1']; exact k4 k hk
  · intro i hi hty
    rw [b1, tyB i hi] at hty
    exact (kindOf_eq hty).1
  · intro k hk hty
    rw [c1'] at hty
    rcases tyC k hk with h1 | ⟨_, h1⟩ <;> rw [h1] at hty
    · exact kindOf_unbounded hty
    · cases hty
  · intro k hk hty
    rw [c1'] at hty
    rcases tyC k hk with h1 | ⟨_, h1⟩ <;> rw [h1] at hty
    · exact kindOf_eq hty
    · cases hty
  · intro hl k hk
    rw [c1', k2.noLowerC] at hl
    have hl : ((List.range s.nC).all fun i => !decide (s.lbA i > -INFTY)) = true := hl
    rw [List.all_eq_true] at hl
    simpa using hl k (List.mem_range.2 hk)
  · intro hl k hk
    rw [c1', k2.noUpperC] at hl
    have hl : ((List.range s.nC).all fun i => !decide (s.ubA i < INFTY)) = true := hl
    rw [List.all_eq_true] at hl
    simpa using hl k (List.mem_range.2 hk)

/-- The auxiliary QP is set up at the time the clock shows. -/
def guessStart (s : QPC K) (cputime : Option K) : QPC K := { s with toQPB := (s.toQPB.startClock cputime).2 }

/-- The state in which the homotopy begins, and the time left. -/
def guessReady (s s1 : QPC K) (cputime : Option K) : QPC K :=
  { s1 with toQPB := (({ s1 with status := QPS_AUXILIARYQPSOLVED } : QPC K).toQPB.stopClock cputime (s.toQPB.startClock cputime).1).2 }

def guessTime (s s1 : QPC K) (cputime : Option K) : K :=
  (({ s1 with status := QPS_AUXILIARYQPSOLVED } : QPC K).toQPB.stopClock cputime (s.toQPB.startClock cputime).1).1.getD 0

theorem hotstart_guessed {sq : K → K} {fuel : Nat} {s : QPC K} {gNew : Nat → K} {lbNew ubNew lbANew ubANew : Option (Nat → K)} {nWSR : Int}
    {cputime : Option K} {wB wC : WS} {o : OutC K} (e : hotstart sq fuel s gNew lbNew ubNew lbANew ubANew nWSR cputime (.other wB) (.other wC) = .ok o)
    (hr : o.rv ≠ RET_QPOBJECT_NOT_SETUP ∧ o.rv ≠ RET_SETUP_AUXILIARYQP_FAILED) :
    ∃ s1, setupAuxiliaryQP sq (s.guessStart cputime) (some wB) (some wC) = .ok (SUCCESSFUL_RETURN, s1) ∧
      hotstartMain sq fuel (s.guessReady s1 cputime) gNew lbNew ubNew lbANew ubANew nWSR (cputime.map fun c => c - s.guessTime s1 cputime)
        (s.guessTime s1 cputime) = .ok o := by
  unfold hotstart at e
  split at e
  · simp only [Res.ok.injEq] at e
    subst e
    simp at hr
  · dsimp only [QPB.Guess.toOption] at e
    rw [Res.bind_eq_ok] at e
    obtain ⟨⟨r, s1⟩, e1, e⟩ := e
    dsimp only at e
    split at e
    · simp only [Res.ok.injEq] at e
      subst e
      simp at hr
    · next hne =>
      obtain rfl : r = SUCCESSFUL_RETURN := not_not.1 hne
      exact ⟨s1, e1, e⟩

/-- The hypotheses on exact arithmetic for a hotstart whose guess is installed from scratch, and on equalities among the new limits. -/
def GuessRunClean (sq : K → K) (s : QPC K) (wB wC : WS) (gNew : Nat → K) (lbNew ubNew lbANew ubANew : Option (Nat → K)) (nWSR : Int) (cputime : Option K) : Prop :=
  AfreshClean sq (s.guessStart cputime) wB wC ∧
  ∀ s1, setupAuxiliaryQP sq (s.guessStart cputime) (some wB) (some wC) = .ok (SUCCESSFUL_RETURN, s1) →
    EqualitiesOK s1.toQPB lbNew ubNew ∧
    RunClean sq { (s.guessReady s1 cputime) with count := (s.guessReady s1 cputime).count + 1 } gNew lbNew ubNew lbANew ubANew nWSR
      (cputime.map fun c => c - s.guessTime s1 cputime) 0

instance (sq : K → K) (s : QPC K) (wB wC : WS) (gNew : Nat → K) (lbNew ubNew lbANew ubANew : Option (Nat → K)) (nWSR : Int) (cputime : Option K) :
    Decidable (GuessRunClean sq s wB wC gNew lbNew ubNew lbANew ubANew nWSR cputime) := by unfold GuessRunClean; infer_instance

/-- A guess that has been installed, and what follows: the homotopy is that of a hotstart without a guess, from the auxiliary QP. -/
theorem Live.resume {sq : K → K} (fuel : Nat) {n m : Nat} {M A : Nat → Nat → K} {l0 u0 : Nat → K} {s s1 : QPC K} (l1 : Live n m M A l0 u0 s1)
    (l2 : s1.options = s.options) (l3 : ∀ i < n, s1.lb i ≤ s1.x i ∧ s1.x i ≤ s1.ub i) (hfar : s.options.enableFarBounds = false)
    {g : Nat → K} {lb ub lbA ubA : Option (Nat → K)} {nWSR : Int} {cputime : Option K}
    (hbox : ∀ i < n, lowerOf lb i ≤ upperOf ub i) (hboxA : ∀ k < m, lowerOf lbA k ≤ upperOf ubA k) (c3 : EqualitiesOK s1.toQPB lb ub)
    (c4 : RunClean sq { (s.guessReady s1 cputime) with count := (s.guessReady s1 cputime).count + 1 } g lb ub lbA ubA nWSR
      (cputime.map fun c => c - s.guessTime s1 cputime) 0) {o : OutC K}
    (e2 : hotstartMain sq fuel (s.guessReady s1 cputime) g lb ub lbA ubA nWSR (cputime.map fun c => c - s.guessTime s1 cputime)
      (s.guessTime s1 cputime) = .ok o) :
    ∃ s2, Live n m M A l0 u0 s2 ∧ s2.options = s.options ∧ (∀ i < n, s2.lb i ≤ s2.x i ∧ s2.x i ≤ s2.ub i) ∧ EqualitiesOK s2.toQPB lb ub ∧
      ∃ c, RunClean sq { s2 with count := s2.count + 1 } g lb ub lbA ubA nWSR c 0 ∧ QPC.hotstart sq fuel s2 g lb ub lbA ubA nWSR c .null .null = .ok o := by
  obtain ⟨k2, ek2⟩ := QPB.stopClock_frame ({ s1 with status := QPS_AUXILIARYQPSOLVED } : QPC K).toQPB cputime (s.toQPB.startClock cputime).1
  have er : s.guessReady s1 cputime = { s1 with status := QPS_AUXILIARYQPSOLVED, now := k2 } := by unfold guessReady; rw [ek2]
  rw [er] at c4 e2
  have lv : Live n m M A _ _ ({ s1 with status := QPS_AUXILIARYQPSOLVED, now := k2 } : QPC K) :=
    ⟨l1.good.frame s1.tau s1.infeasible s1.unbounded QPS_AUXILIARYQPSOLVED s1.count s1.rampOffset k2 s1.haveCholesky rfl, l1.nV, l1.nC, l1.mat, l1.pos, l1.chol,
      ⟨l1.params.options, l1.params.ramp⟩, l1.relax, l1.reg, l1.hess, l1.types, l1.unbounded, l1.equal, l1.noLower, l1.noUpper⟩
  refine ⟨_, lv, l2, l3, ⟨c3.1, c3.2⟩, _, c4, ?_⟩
  unfold QPC.hotstart
  rw [if_neg (show ¬ s1.nV = 0 by rw [l1.nV]; exact l1.pos)]
  dsimp only
  have hb : ({ s1 with status := QPS_AUXILIARYQPSOLVED, now := k2 } : QPC K).areBoundsConsistent lb ub lbA ubA = true :=
    consistent_of_target (s := { s1 with status := QPS_AUXILIARYQPSOLVED, now := k2 }) (fun i hi => hbox i (by rw [← l1.nV]; exact hi))
      (fun i hi => hboxA i (by rw [← l1.nC]; exact hi))
  have hf : ({ s1 with status := QPS_AUXILIARYQPSOLVED, now := k2 } : QPC K).options.enableFarBounds = false := by
    show s1.options.enableFarBounds = false
    rw [l2]; exact hfar
  rw [hotstartMain_plain hb lv.chol hf lv.reg] at e2 ⊢
  exact e2

theorem Live.guessed {sq : K → K} (fuel : Nat) {n m : Nat} {M A : Nat → Nat → K} {l0 u0 : Nat → K} {s : QPC K} (h : Live n m M A l0 u0 s) {wB wC : WS}
    (hg : GuessOK s wB wC) (hr : s.shallRefactorise wB wC = true) (hx : ∀ i < n, s.lb i ≤ s.x i ∧ s.x i ≤ s.ub i)
    (hxA : ∀ k < m, s.lbA k ≤ s.prodA s.x k ∧ s.prodA s.x k ≤ s.ubA k) (hfar : s.options.enableFarBounds = false)
    {g : Nat → K} {lb ub lbA ubA : Option (Nat → K)} {nWSR : Int} {cputime : Option K}
    (hbox : ∀ i < n, lowerOf lb i ≤ upperOf ub i) (hboxA : ∀ k < m, lowerOf lbA k ≤ upperOf ubA k)
    (hc : GuessRunClean sq s wB wC g lb ub lbA ubA nWSR cputime) {o : OutC K}
    (e : QPC.hotstart sq fuel s g lb ub lbA ubA nWSR cputime (.other wB) (.other wC) = .ok o) (hrv : o.rv ≠ RET_QPOBJECT_NOT_SETUP ∧ o.rv ≠ RET_SETUP_AUXILIARYQP_FAILED) :
    ∃ s2, Live n m M A s.lbA s.ubA s2 ∧ s2.options = s.options ∧ (∀ i < n, s2.lb i ≤ s2.x i ∧ s2.x i ≤ s2.ub i) ∧ EqualitiesOK s2.toQPB lb ub ∧
      ∃ c, RunClean sq { s2 with count := s2.count + 1 } g lb ub lbA ubA nWSR c 0 ∧ QPC.hotstart sq fuel s2 g lb ub lbA ubA nWSR c .null .null = .ok o := by
  obtain ⟨s1, e1, e2⟩ := hotstart_guessed e hrv
  obtain ⟨c1, c2⟩ := hc
  obtain ⟨c3, c4⟩ := c2 s1 e1
  obtain ⟨k, ek⟩ := startClock_frame s.toQPB cputime
  have es : s.guessStart cputime = { s with now := k } := by unfold guessStart; rw [ek]
  rw [es] at c1 e1
  have hg' : GuessOK ({ s with now := k } : QPC K) wB wC := ⟨hg.properB, hg.properC, hg.limitB, hg.limitC, hg.signB, hg.signC⟩
  obtain ⟨l1, l2, l3⟩ := (h.clock k).afresh hg' hr hx hxA c1 e1
  exact l1.resume (s := s) fuel l2 l3 hfar hbox hboxA c3 c4 e2

end QPC
end QpOASES
