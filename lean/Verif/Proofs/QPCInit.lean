import Verif.Proofs.QPCStart

/-!
The auxiliary QP of a cold start of the general solver.
-/
namespace QpOASES
open Finset Props SubjectToStatus SubjectToType ReturnValue HessianType QProblemStatus
open QPB (Proper)

set_option linter.unusedSectionVars false

variable {K : Type} [Field K] [LinearOrder K] [IsStrictOrderedRing K]

/-- Multipliers that agree in sign with the working set -/
def SignFit (w : WS) (y : Nat → K) (n : Nat) : Prop :=
  ∀ i < n, (w.status i = ST_LOWER → w.type i ≠ ST_EQUALITY → 0 ≤ y i) ∧ (w.status i = ST_UPPER → w.type i ≠ ST_EQUALITY → y i ≤ 0) ∧
    (w.status i = ST_INACTIVE → y i = 0)

theorem SignFit.zero (w : WS) (n : Nat) : SignFit w (fun _ => (0:K)) n :=
  fun _ _ => ⟨fun _ _ => le_refl _, fun _ _ => le_refl _, fun _ => rfl⟩

theorem auxLimits_side {o : Options K} {w : WS} {obs : Nat → Prop} {v l0 u0 l u y : Nat → K} {n : Nat} {want : Nat → SubjectToStatus} (hw : w.OK)
    (hn : w.n = n) (hrel : 0 ≤ o.boundRelaxation) (heq : ∀ i < n, w.type i = ST_EQUALITY → w.status i ≠ ST_INACTIVE) (hs : SignFit w y n)
    (hl : ∀ i < n, QPC.auxLimits o (some (want i)) (w.type i) (w.getStatus i) (v i) (v i) (l0 i) (u0 i) = some (l i, u i)) :
    SideOK w obs v l u y n := by
  have key : ∀ i < n, (w.status i = ST_LOWER → v i = l i) ∧ (w.status i = ST_UPPER → v i = u i) ∧ l i ≤ v i ∧ v i ≤ u i ∧
      (w.type i = ST_EQUALITY → l i = u i) := by
    intro i hi
    have h := hl i hi
    have hlt : i < w.n := by rw [hn]; exact hi
    rw [WS.getStatus_of_lt hlt] at h
    rcases hw.status_cases hlt with hc | hc | hc
    · have hty : w.type i ≠ ST_EQUALITY := fun e => heq i hi e hc
      rw [hc] at h
      simp only [QPC.auxLimits, if_neg hty, Option.some.injEq, Prod.mk.injEq] at h
      obtain ⟨rfl', rfl''⟩ := h
      rw [← rfl', ← rfl'', hc]
      refine ⟨fun h => (by cases h), fun h => (by cases h), ?_, ?_, fun h => absurd h hty⟩
      · split
        · exact le_refl _
        · linarith
      · split
        · exact le_refl _
        · linarith
    · rw [hc] at h
      simp only [QPC.auxLimits, Option.isSome_some, if_true, Option.some.injEq, Prod.mk.injEq] at h
      obtain ⟨h1, h2⟩ := h
      rw [← h1, ← h2, hc]
      refine ⟨fun _ => rfl, fun h => (by cases h), le_refl _, ?_, fun h => ?_⟩
      · split
        · exact le_refl _
        · linarith
      · rw [if_pos h]
    · rw [hc] at h
      simp only [QPC.auxLimits, Option.isSome_some, if_true, Option.some.injEq, Prod.mk.injEq] at h
      obtain ⟨h1, h2⟩ := h
      rw [← h1, ← h2, hc]
      refine ⟨fun h => (by cases h), fun _ => rfl, ?_, le_refl _, fun h => ?_⟩
      · split
        · exact le_refl _
        · linarith
      · rw [if_pos h]
  refine ⟨fun i hi h => ⟨(key i hi).1 h, (hs i hi).1 h⟩, fun i hi h => ⟨(key i hi).2.1 h, (hs i hi).2.1 h⟩, fun i hi h => ⟨(hs i hi).2.2 h, fun _ => ⟨fun _ => (key i hi).2.2.1, fun _ => (key i hi).2.2.2.1⟩⟩,
    fun i hi => le_trans (key i hi).2.2.1 (key i hi).2.2.2.1, fun i hi h => ⟨heq i hi h, (key i hi).2.2.2.2 h⟩⟩

namespace QPC

theorem auxLimits_some {o : Options K} {want : Option SubjectToStatus} {t : SubjectToType} {st : SubjectToStatus} (h : Proper st) (vl vu l u : K) :
    ∃ l' u', auxLimits o want t st vl vu l u = some (l', u') := by
  rcases h with h | h | h <;> subst h <;> exact ⟨_, _, rfl⟩

theorem auxBoundsB_spec (aux : Option WS) : ∀ (m i : Nat) (s : QPC K), (∀ j, i ≤ j → j < i + m → Proper (s.bounds.getStatus j)) →
    ∃ l u, auxBoundsB aux m i s = (SUCCESSFUL_RETURN, { s with lb := l, ub := u }) ∧
      (∀ j, i ≤ j → j < i + m → auxLimits s.options (aux.map fun w => w.getStatus j) (s.bounds.type j) (s.bounds.getStatus j) (s.x j) (s.x j)
        (s.lb j) (s.ub j) = some (l j, u j)) ∧
      (∀ j, (j < i ∨ i + m ≤ j) → l j = s.lb j ∧ u j = s.ub j) := by
  intro m
  induction m with
  | zero => intro i s _; exact ⟨s.lb, s.ub, rfl, fun j h1 h2 => absurd h2 (by omega), fun _ _ => ⟨rfl, rfl⟩⟩
  | succ m ih =>
    intro i s h
    obtain ⟨a, b, hab⟩ := auxLimits_some (o := s.options) (want := aux.map fun w => w.getStatus i) (t := s.bounds.type i) (h i (le_refl _) (by omega))
      (s.x i) (s.x i) (s.lb i) (s.ub i)
    rw [auxBoundsB, hab]
    dsimp only
    obtain ⟨l, u, e, h1, h2⟩ := ih (i+1) { s with lb := updA s.lb i a, ub := updA s.ub i b } (fun j hj hj' => h j (by omega) (by omega))
    refine ⟨l, u, e, fun j hj hj' => ?_, fun j hj => ?_⟩
    · by_cases hji : j = i
      · subst hji
        obtain ⟨k1, k2⟩ := h2 j (Or.inl (by omega))
        rw [k1, k2]
        dsimp only
        rw [updA_same, updA_same]
        exact hab
      · have := h1 j (by omega) (by omega)
        dsimp only at this
        rw [updA_ne _ _ hji, updA_ne _ _ hji] at this
        exact this
    · obtain ⟨k1, k2⟩ := h2 j (by omega)
      have hji : j ≠ i := by omega
      dsimp only at k1 k2
      rw [updA_ne _ _ hji] at k1 k2
      exact ⟨k1, k2⟩

theorem auxBoundsC_spec (aux : Option WS) : ∀ (m i : Nat) (s : QPC K), (∀ j, i ≤ j → j < i + m → Proper (s.cons.getStatus j)) →
    ∃ l u al au, auxBoundsC aux m i s = (SUCCESSFUL_RETURN, { s with lbA := l, ubA := u, Axl := al, Axu := au }) ∧
      (∀ j, i ≤ j → j < i + m → auxLimits s.options (aux.map fun w => w.getStatus j) (s.cons.type j) (s.cons.getStatus j) (s.Axl j) (s.Axu j)
        (s.lbA j) (s.ubA j) = some (l j, u j) ∧ al j = s.Axl j - l j ∧ au j = u j - s.Axu j) ∧
      (∀ j, (j < i ∨ i + m ≤ j) → l j = s.lbA j ∧ u j = s.ubA j ∧ al j = s.Axl j ∧ au j = s.Axu j) := by
  intro m
  induction m with
  | zero => intro i s _; exact ⟨s.lbA, s.ubA, s.Axl, s.Axu, rfl, fun j h1 h2 => absurd h2 (by omega), fun _ _ => ⟨rfl, rfl, rfl, rfl⟩⟩
  | succ m ih =>
    intro i s h
    obtain ⟨a, b, hab⟩ := auxLimits_some (o := s.options) (want := aux.map fun w => w.getStatus i) (t := s.cons.type i) (h i (le_refl _) (by omega))
      (s.Axl i) (s.Axu i) (s.lbA i) (s.ubA i)
    rw [auxBoundsC, hab]
    dsimp only
    obtain ⟨l, u, al, au, e, h1, h2⟩ := ih (i+1) { s with lbA := updA s.lbA i a, ubA := updA s.ubA i b, Axl := updA s.Axl i (s.Axl i - a), Axu := updA s.Axu i (b - s.Axu i) }
      (fun j hj hj' => h j (by omega) (by omega))
    refine ⟨l, u, al, au, e, fun j hj hj' => ?_, fun j hj => ?_⟩
    · by_cases hji : j = i
      · subst hji
        obtain ⟨k1, k2, k3, k4⟩ := h2 j (Or.inl (by omega))
        rw [k1, k2, k3, k4]
        dsimp only
        rw [updA_same, updA_same, updA_same, updA_same]
        exact ⟨hab, rfl, rfl⟩
      · have := h1 j (by omega) (by omega)
        dsimp only at this
        rw [updA_ne _ _ hji, updA_ne _ _ hji, updA_ne _ _ hji, updA_ne _ _ hji] at this
        exact this
    · obtain ⟨k1, k2, k3, k4⟩ := h2 j (by omega)
      have hji : j ≠ i := by omega
      dsimp only at k1 k2 k3 k4
      rw [updA_ne _ _ hji] at k1 k2 k3 k4
      exact ⟨k1, k2, k3, k4⟩

theorem Shape.properB {s : QPC K} (h : s.Shape) {j : Nat} (hj : j < s.nV) : Proper (s.bounds.getStatus j) := by
  have hlt : j < s.bounds.n := by rw [h.nB]; exact hj
  rw [WS.getStatus_of_lt hlt]
  exact h.okB.status_cases hlt

theorem Shape.properC {s : QPC K} (h : s.Shape) {j : Nat} (hj : j < s.nC) : Proper (s.cons.getStatus j) := by
  have hlt : j < s.cons.n := by rw [h.nC]; exact hj
  rw [WS.getStatus_of_lt hlt]
  exact h.okC.status_cases hlt

/-- The limits of the auxiliary QP -/
theorem setupAuxiliaryQPbounds_spec {s : QPC K} (hs : s.Shape) (hrel : 0 ≤ s.options.boundRelaxation) (auxB auxC : WS)
    (heB : ∀ i < s.nV, s.bounds.type i = ST_EQUALITY → s.bounds.status i ≠ ST_INACTIVE)
    (heC : ∀ i < s.nC, s.cons.type i = ST_EQUALITY → s.cons.status i ≠ ST_INACTIVE)
    (hsB : SignFit s.bounds s.y s.nV) (hsC : SignFit s.cons (fun k => s.y (s.nV + k)) s.nC)
    (hAx : ∀ i < s.nC, s.Ax i = s.prodA s.x i ∧ s.Axl i = s.prodA s.x i ∧ s.Axu i = s.prodA s.x i) :
    ∃ l u lA uA al au, setupAuxiliaryQPbounds s (some (auxB, auxC)) =
        (SUCCESSFUL_RETURN, { s with lb := l, ub := u, lbA := lA, ubA := uA, Axl := al, Axu := au }) ∧
      SideOK s.bounds (fun _ => True) s.x l u s.y s.nV ∧
      SideOK s.cons (fun i => s.cons.type i ≠ ST_UNBOUNDED) (s.prodA s.x) lA uA (fun k => s.y (s.nV + k)) s.nC ∧
      (∀ i < s.nC, al i = s.prodA s.x i - lA i ∧ au i = uA i - s.prodA s.x i) := by
  unfold setupAuxiliaryQPbounds
  obtain ⟨l, u, e1, h1, _⟩ := auxBoundsB_spec (some auxB) s.nV 0 s (fun j _ hj => hs.properB (by omega))
  rw [show (Option.map (fun x : WS × WS => x.1) (some (auxB, auxC))) = some auxB from rfl, e1]
  dsimp only
  rw [if_neg (by simp)]
  obtain ⟨lA, uA, al, au, e2, h2, _⟩ := auxBoundsC_spec (some auxC) s.nC 0 { s with lb := l, ub := u } (fun j _ hj => hs.properC (s := s) (by omega))
  rw [show (Option.map (fun x : WS × WS => x.2) (some (auxB, auxC))) = some auxC from rfl, e2]
  refine ⟨l, u, lA, uA, al, au, rfl, ?_, ?_, ?_⟩
  · exact auxLimits_side hs.okB hs.nB hrel heB hsB (want := fun i => auxB.getStatus i) (fun i hi => h1 i (Nat.zero_le _) (by omega))
  · refine auxLimits_side (l0 := s.lbA) (u0 := s.ubA) hs.okC hs.nC hrel heC hsC (want := fun i => auxC.getStatus i) (fun i hi => ?_)
    have := (h2 i (Nat.zero_le _) (by omega)).1
    dsimp only at this
    rw [(hAx i hi).2.1, (hAx i hi).2.2] at this
    exact this
  · intro i hi
    have := (h2 i (Nat.zero_le _) (by omega)).2
    dsimp only at this
    rw [(hAx i hi).2.1, (hAx i hi).2.2] at this
    exact this

/-- Setting up the working set of a cold start is exact, and the multipliers given agree with it. -/
def AuxClean (sq : K → K) (s : QPC K) (xOpt yOpt : Option (Nat → K)) (gB gC : Option WS) : Prop :=
  ∀ auxB auxC, QPB.obtainAux (s.toQPB.auxStatus xOpt yOpt gB) s.nV 0 (WS.init s.nV) = some auxB →
    QPB.obtainAux (s.auxStatusC xOpt yOpt gC) s.nC 0 (WS.init s.nC) = some auxC →
    (s.setupTQfactorisation.isTrivial (some auxB) (some auxC) = false → LoopsClean sq s.setupTQfactorisation.plainLI auxB auxC) ∧
    ∀ s1, setupAuxiliaryWorkingSet sq s.setupTQfactorisation (some auxB) (some auxC) true = .ok (SUCCESSFUL_RETURN, s1) →
      SignFit s1.bounds s1.y s1.nV ∧ SignFit s1.cons (fun k => s1.y (s1.nV + k)) s1.nC

/-- The auxiliary QP of a cold start is solved. -/
structure Aux (s' s : QPC K) : Prop where
  base : s'.Base
  opt : s'.Opt
  ax : s'.AxOK
  noChol : s'.haveCholesky = false
  status : s'.status = QPS_AUXILIARYQPSOLVED
  nV : s'.nV = s.nV
  nC : s'.nC = s.nC
  A : s'.A = s.A
  H : s'.H = s.H
  htype : s'.hessianType = s.hessianType
  options : s'.options = s.options
  reg : s'.regVal = s.regVal
  ramps : s'.ramp0 = s.ramp0 ∧ s'.ramp1 = s.ramp1
  typeB : s'.bounds.type = s.bounds.type
  noLowerB : s'.bounds.noLower = s.bounds.noLower
  noUpperB : s'.bounds.noUpper = s.bounds.noUpper
  typeC : ∀ i, s'.cons.type i = s.cons.type i ∨ (s.cons.type i = ST_EQUALITY ∧ s'.cons.type i = ST_BOUNDED)
  noLowerC : s'.cons.noLower = s.cons.noLower
  noUpperC : s'.cons.noUpper = s.cons.noUpper
  plain : s'.nFX + s'.nAC = 0 → ∀ j < s'.nFR, ∀ i ∈ s'.F, s'.Q i j = if i = s'.fr j then 1 else 0
  x : s'.x = s.x
  y : s.options.enableRamping = false → s'.y = s.y

theorem regulariseHessian_off {sq : K → K} {s : QPC K} (h : s.options.enableRegularisation = false) :
    regulariseHessian sq s = .ok (SUCCESSFUL_RETURN, s) := by
  unfold regulariseHessian
  rw [QPB.regulariseHessian_off h]
  rfl

/-- Regularisation has no effect: it is disabled or has already taken place. -/
def _root_.QpOASES.QPB.Idle (s : QPB K) : Prop :=
  s.options.enableRegularisation = false ∨ s.usingRegularisation = true ∧ s.hessianType ≠ HST_IDENTITY

theorem regulariseHessian_idle {sq : K → K} {s : QPC K} (h : s.toQPB.Idle) : regulariseHessian sq s = .ok (SUCCESSFUL_RETURN, s) := by
  by_cases he : s.options.enableRegularisation = false
  · exact regulariseHessian_off he
  · obtain ⟨h1, h2⟩ := h.resolve_left he
    unfold regulariseHessian QPB.regulariseHessian
    rw [if_neg he, if_neg h2, if_pos h1]
    rfl

theorem prepareAuxiliary_spec {sq : K → K} {s : QPC K} (hs : s.Shape) (hsym : s.SymH) (hac : s.nAC = 0)
    (hin : ∀ i < s.nC, s.cons.status i = ST_INACTIVE) (hH : ¬ s.scalarH → s.H ≠ none) (hreg : s.hessianType = HST_ZERO ∨ s.hessianType = HST_SEMIDEF → s.toQPB.Idle)
    (hrel : 0 ≤ s.options.boundRelaxation) (hramp : s.options.enableRamping = true → 0 ≤ s.ramp0 ∧ 0 ≤ s.ramp1)
    (hAx : ∀ i < s.nC, s.Ax i = s.prodA s.x i ∧ s.Axl i = s.prodA s.x i ∧ s.Axu i = s.prodA s.x i)
    {xOpt yOpt : Option (Nat → K)} {gB gC : Option WS} {nWSR : Int} {cputime : Option K} (hc : AuxClean sq s xOpt yOpt gB gC)
    {e : Except (OutC K) (QPC K)} (he : prepareAuxiliary sq s xOpt yOpt gB gC none nWSR cputime = .ok e) :
    (∀ o, e = .error o → o.rv = RET_INIT_FAILED) ∧ ∀ s', e = .ok s' → Aux s' s := by
  unfold prepareAuxiliary at he
  have hobB := QPB.obtainAux_spec (s.toQPB.auxStatus xOpt yOpt gB) s.nV 0 (WS.init s.nV) (Nat.le_of_eq (Nat.zero_add _))
  have hobC := QPB.obtainAux_spec (s.auxStatusC xOpt yOpt gC) s.nC 0 (WS.init s.nC) (Nat.le_of_eq (Nat.zero_add _))
  unfold AuxClean at hc
  generalize hoB : QPB.obtainAux (s.toQPB.auxStatus xOpt yOpt gB) s.nV 0 (WS.init s.nV) = oB at *
  generalize hoC : QPB.obtainAux (s.auxStatusC xOpt yOpt gC) s.nC 0 (WS.init s.nC) = oC at *
  cases oB with
  | none =>
    simp only [Res.ok.injEq] at he
    subst he
    exact ⟨fun o ho => (by cases ho; rfl), fun s' hs' => (by cases hs')⟩
  | some auxB =>
  cases oC with
  | none =>
    simp only [Res.ok.injEq] at he
    subst he
    exact ⟨fun o ho => (by cases ho; rfl), fun s' hs' => (by cases hs')⟩
  | some auxC =>
  obtain ⟨c1, c2⟩ := hc auxB auxC rfl rfl
  have hpB : ∀ i < s.nV, Proper (auxB.getStatus i) := fun i hi => by
    obtain ⟨x1, x2, _⟩ := hobB.1 auxB rfl
    obtain ⟨y1, y2⟩ := x2 i (Nat.zero_le _) (by omega)
    rw [WS.getStatus_of_lt (by rw [x1]; exact hi), y2]; exact y1
  have hpC : ∀ i < s.nC, Proper (auxC.getStatus i) := fun i hi => by
    obtain ⟨x1, x2, _⟩ := hobC.1 auxC rfl
    obtain ⟨y1, y2⟩ := x2 i (Nat.zero_le _) (by omega)
    rw [WS.getStatus_of_lt (by rw [x1]; exact hi), y2]; exact y1
  dsimp only at he
  have hskip : ∀ {β : Type} (k : ReturnValue × QPC K → Res β), (if s.hessianType = HST_ZERO ∨ s.hessianType = HST_SEMIDEF then
      regulariseHessian sq s >>= k else Res.ok (SUCCESSFUL_RETURN, s) >>= k) = k (SUCCESSFUL_RETURN, s) := by
    intro β k
    split
    · next h => rw [regulariseHessian_idle (hreg h), Res.bind_ok]
    · exact Res.bind_ok _ _
  rw [hskip] at he
  dsimp only at he
  rw [if_neg (by simp), Res.bind_eq_ok] at he
  obtain ⟨⟨r, s1⟩, e1, he⟩ := he
  dsimp only at he
  split at he
  · simp only [Res.ok.injEq] at he
    subst he
    exact ⟨fun o ho => (by cases ho; rfl), fun s' hs' => (by cases hs')⟩
  next hr =>
  rw [not_not] at hr
  subst hr
  have hbase := setupTQfactorisation_base hs hsym hac
  obtain ⟨k1, k2, k3, k4⟩ := setupAuxiliaryWorkingSet_spec hbase (show s.setupTQfactorisation.nAC = 0 from hac) hin hpB hpC c1 e1
  obtain ⟨f1, f2⟩ := c2 s1 e1
  have hgrown := k2
  obtain ⟨T, Q, R, wB, wC, ef⟩ := k2.frame
  unfold QPB.takeFactor at he
  dsimp only at he
  rw [Res.bind_eq_ok] at he
  obtain ⟨s2, e2, he⟩ := he
  have hnV : s1.nV = s.nV := by rw [ef]; rfl
  have hnC : s1.nC = s.nC := by rw [ef]; rfl
  have hH1 : ¬ ({ s1 with haveCholesky := false } : QPC K).scalarH → ({ s1 with haveCholesky := false } : QPC K).H ≠ none := by rw [ef]; exact hH
  obtain ⟨g', e2', hg⟩ := setupAuxiliaryQPgradient_spec hH1
  have e2 : setupAuxiliaryQPgradient { s1 with haveCholesky := false } = .ok s2 := e2
  rw [e2'] at e2
  simp only [Res.ok.injEq] at e2
  subst e2
  have hAx1 : ∀ i < s1.nC, s1.Ax i = s1.prodA s1.x i ∧ s1.Axl i = s1.prodA s1.x i ∧ s1.Axu i = s1.prodA s1.x i := by rw [ef]; exact hAx
  obtain ⟨l, u, lA, uA, al, au, e3, g1, g2, g3⟩ := setupAuxiliaryQPbounds_spec (s := { s1 with haveCholesky := false, g := g' })
    ⟨k1.shape.okB, k1.shape.okC, k1.shape.nB, k1.shape.nC, k1.shape.size⟩ (by rw [ef]; exact hrel) auxB auxC
    (fun i hi => k3 i (hnV ▸ hi)) (fun i hi => k4 i (hnC ▸ hi)) f1 f2 hAx1
  rw [e3] at he
  dsimp only at he
  rw [if_neg (by simp)] at he
  have hplain : s1.nFX + s1.nAC = 0 → ∀ j < s1.nFR, ∀ i ∈ s1.F, s1.Q i j = if i = s1.fr j then 1 else 0 := by
    intro h0 j hj i hi
    rcases hgrown.plain h0 with h1 | ⟨h1, h2⟩
    · rw [h1] at hj; omega
    · have hfr : s1.fr j = s.fr j := by show s1.bounds.fr j = _; rw [h2]; rfl
      have hj' : j < s.nFR := by have : s1.nFR = s.nFR := by { show s1.bounds.nFR = _; rw [h2]; rfl }
                                 omega
      rw [h1, hfr]
      show (if j < s.nFR ∧ i = s.fr j then (1:K) else 0) = _
      by_cases hh : i = s.fr j
      · rw [if_pos ⟨hj', hh⟩, if_pos hh]
      · rw [if_neg (fun h => hh h.2), if_neg hh]
  have haux : ∀ (l u y lA uA al au g : Nat → K) (off : Nat), (s.options.enableRamping = false → y = s1.y) → ({ s1 with haveCholesky := false, lb := l, ub := u, y := y, lbA := lA, ubA := uA, Axl := al, Axu := au, g := g, rampOffset := off, status := QPS_AUXILIARYQPSOLVED } : QPC K).Opt →
      ({ s1 with haveCholesky := false, lb := l, ub := u, y := y, lbA := lA, ubA := uA, Axl := al, Axu := au, g := g, rampOffset := off, status := QPS_AUXILIARYQPSOLVED } : QPC K).AxOK →
      Aux { s1 with haveCholesky := false, lb := l, ub := u, y := y, lbA := lA, ubA := uA, Axl := al, Axu := au, g := g, rampOffset := off, status := QPS_AUXILIARYQPSOLVED } s := by
    intro l u y lA uA al au g off hy ho ha
    refine ⟨⟨⟨k1.shape.okB, k1.shape.okC, k1.shape.nB, k1.shape.nC, k1.shape.size⟩, ⟨k1.tq.le, k1.tq.tq⟩, k1.sym⟩, ho, ha, rfl, rfl, hnV, hnC, ?_, ?_, ?_, ?_, ?_, ?_,
      hgrown.typeB, hgrown.noLowerB, hgrown.noUpperB, hgrown.typeC, hgrown.noLowerC, hgrown.noUpperC, hplain, ?_, fun hr => (hy hr).trans ?_⟩
    all_goals rw [ef]
    all_goals first | rfl | exact ⟨rfl, rfl⟩
  have hopt : ({ s1 with haveCholesky := false, lb := l, ub := u, lbA := lA, ubA := uA, Axl := al, Axu := au, g := g', status := QPS_AUXILIARYQPSOLVED } : QPC K).Opt := ⟨hg, g1, g2⟩
  have haxok : ({ s1 with haveCholesky := false, lb := l, ub := u, lbA := lA, ubA := uA, Axl := al, Axu := au, g := g', status := QPS_AUXILIARYQPSOLVED } : QPC K).AxOK :=
    fun i hi _ => ⟨(hAx1 i hi).1, (g3 i hi).1, (g3 i hi).2⟩
  split at he
  · next hrp =>
    rw [Res.bind_eq_ok] at he
    obtain ⟨s4, e4, he⟩ := he
    simp only [Res.ok.injEq] at he
    subst he
    refine ⟨fun o ho => (by cases ho), fun s' hs' => ?_⟩
    cases hs'
    have hrp : s.options.enableRamping = true := by
      have h : s1.options.enableRamping = true := hrp
      rw [ef] at h; exact h
    obtain ⟨r0, r1⟩ := hramp hrp
    obtain ⟨m1, m2, l', u', y', lA', uA', al', au', g'', off, m3⟩ := performRamping_pre
      (s := { s1 with haveCholesky := false, lb := l, ub := u, lbA := lA, ubA := uA, Axl := al, Axu := au, g := g', status := QPS_AUXILIARYQPSOLVED })
      ⟨k1.shape.okB, k1.shape.okC, k1.shape.nB, k1.shape.nC, k1.shape.size⟩ hH1 hopt haxok (by rw [ef]; exact r0) (by rw [ef]; exact r1) e4
    subst m3
    exact haux _ _ _ _ _ _ _ _ _ (fun hf => by rw [hrp] at hf; cases hf) m1 m2
  · simp only [Res.ok.injEq] at he
    subst he
    refine ⟨fun o ho => (by cases ho), fun s' hs' => ?_⟩
    cases hs'
    exact haux _ _ _ _ _ _ _ _ _ (fun _ => rfl) hopt haxok

end QPC
end QpOASES
