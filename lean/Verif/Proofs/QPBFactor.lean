import Verif.Proofs.WS
import Verif.Proofs.Factor
import Verif.Spec.QP

/-!
The Cholesky factor of the bound-constrained solver belongs to the current free variables.
-/
namespace QpOASES
open Finset Props SubjectToStatus SubjectToType ReturnValue HessianType QProblemStatus

variable {K : Type} [Field K] [LinearOrder K] [IsStrictOrderedRing K]

namespace QPB

/-- The Hessian the solver works with. -/
def Heff (s : QPB K) (i j : Nat) : K :=
  match s.hessianType with
  | HST_ZERO => if i = j then (if s.usingRegularisation then s.regVal else 0) else 0
  | HST_IDENTITY => if i = j then 1 else 0
  | _ => match s.H with
    | some H => H i j
    | none => 0

/-- Zero and identity Hessians are not stored. -/
def scalarH (s : QPB K) : Prop := s.hessianType = HST_ZERO ∨ s.hessianType = HST_IDENTITY

instance (s : QPB K) : Decidable s.scalarH := by unfold scalarH; infer_instance

theorem not_scalar {s : QPB K} (h : ¬ s.scalarH) : s.hessianType ≠ HST_ZERO ∧ s.hessianType ≠ HST_IDENTITY :=
  ⟨fun e => h (Or.inl e), fun e => h (Or.inr e)⟩

theorem Heff_of_H {s : QPB K} (h : ¬ s.scalarH) {H : Nat → Nat → K} (hH : s.H = some H) (i j : Nat) : s.Heff i j = H i j := by
  obtain ⟨h1, h2⟩ := not_scalar h
  unfold Heff
  split
  · exact absurd ‹_› h1
  · exact absurd ‹_› h2
  · rw [hH]

/-- For zero and identity Hessians: the multiple of the identity. -/
def scal (s : QPB K) : K :=
  if s.hessianType = HST_ZERO then (if s.usingRegularisation then s.regVal else 0) else 1

theorem Heff_scalar {s : QPB K} (h : s.scalarH) (i j : Nat) : s.Heff i j = if i = j then s.scal else 0 := by
  unfold Heff scal
  rcases h with h | h
  · rw [h, if_pos rfl]
  · rw [h, if_neg (show ¬ HST_IDENTITY = HST_ZERO by decide)]

/-- `sq` computes square roots.  For identity Hessians there are none to compute, for zero Hessians only that of the regularisation
parameter. -/
def SqrtFor (s : QPB K) (sq : K → K) : Prop :=
  (¬ s.scalarH → IsSqrt sq) ∧ (s.hessianType = HST_ZERO → s.usingRegularisation = true → 0 ≤ sq s.regVal ∧ sq s.regVal * sq s.regVal = s.regVal)

theorem SqrtFor.ident {s : QPB K} (h : s.hessianType = HST_IDENTITY) (sq : K → K) : s.SqrtFor sq :=
  ⟨fun h' => absurd (Or.inr h) h', fun h' => by rw [h] at h'; cases h'⟩

/-- Zero and identity Hessians remain such, and so does the regularisation. -/
def SameScalar (s' s : QPB K) : Prop :=
  (s'.hessianType = HST_IDENTITY ↔ s.hessianType = HST_IDENTITY) ∧ (s'.hessianType = HST_ZERO ↔ s.hessianType = HST_ZERO) ∧
  s'.regVal = s.regVal

theorem SameScalar.ident {s' s : QPB K} (h : SameScalar s' s) : s'.hessianType = HST_IDENTITY ↔ s.hessianType = HST_IDENTITY := h.1
theorem SameScalar.zero {s' s : QPB K} (h : SameScalar s' s) : s'.hessianType = HST_ZERO ↔ s.hessianType = HST_ZERO := h.2.1
theorem SameScalar.reg {s' s : QPB K} (h : SameScalar s' s) : s'.regVal = s.regVal := h.2.2

theorem SameScalar.refl (s : QPB K) : SameScalar s s := ⟨Iff.rfl, Iff.rfl, rfl⟩
theorem SameScalar.trans {a b c : QPB K} (h : SameScalar a b) (h' : SameScalar b c) : SameScalar a c :=
  ⟨h.ident.trans h'.ident, h.zero.trans h'.zero, h.reg.trans h'.reg⟩

theorem SameScalar.sqrt {s' s : QPB K} (h : SameScalar s' s) {sq : K → K} (hs : s.SqrtFor sq) : s'.SqrtFor sq := by
  refine ⟨fun hn => hs.1 fun h' => hn ?_, fun hz hr => ?_⟩
  · rcases h' with h' | h'
    · exact Or.inl (h.zero.2 h')
    · exact Or.inr (h.ident.2 h')
  · unfold usingRegularisation at hr
    rw [h.reg] at hr ⊢
    exact hs.2 (h.zero.1 hz) hr

/-- The factor belongs to the free variables. -/
structure Factor (s : QPB K) : Prop where
  scalar : s.scalarH → ∃ c : K, c * c = s.scal ∧ ZERO < |c| ∧
    ∀ i < s.nV, ∀ j < s.nV, s.R i j = if i = j then c else 0
  stored : ¬ s.scalarH → s.H ≠ none ∧
    UpperGram s.bounds.nFR s.R (fun r c => s.Heff (s.bounds.fr r) (s.bounds.fr c)) ∧ DiagOK s.bounds.nFR s.R

theorem Factor.gram {s : QPB K} (h : s.Factor) (hw : s.bounds.OK) (hn : s.bounds.n = s.nV) :
    UpperGram s.bounds.nFR s.R (fun r c => s.Heff (s.bounds.fr r) (s.bounds.fr c)) ∧ DiagOK s.bounds.nFR s.R := by
  by_cases hs : s.scalarH
  · obtain ⟨c, h1, h2, h3⟩ := h.scalar hs
    have hle := hw.nFR_le
    rw [hn] at hle
    refine ⟨fun r d hrd hd => ?_, fun r hr => ?_⟩
    · beta_reduce
      rw [Heff_scalar hs]
      rw [sum_range_succ, sum_eq_zero (fun q hq => ?_), zero_add, h3 r (by omega) r (by omega), h3 r (by omega) d (by omega),
        if_pos rfl]
      · by_cases e : r = d
        · subst e; rw [if_pos rfl, if_pos rfl, h1]
        · rw [if_neg e, if_neg (fun e' => e (hw.fr_inj (by omega) hd e')), mul_zero]
      · have hq := mem_range.1 hq
        rw [h3 q (by omega) r (by omega), if_neg (by omega), zero_mul]
    · rw [h3 r (by omega) r (by omega), if_pos rfl]; exact h2
  · exact (h.stored hs).2

/-! ### adding a bound -/

theorem erase_getD {l : List Nat} {i r : Nat} (hi : i ∈ l) (hr : r + 1 < l.length) :
    (l.erase i).getD r 0 = l.getD (if r < l.idxOf i then r else r + 1) 0 := by
  have hk := List.idxOf_lt_length_iff.2 hi
  rw [List.erase_eq_eraseIdx_of_idxOf (i := l.idxOf i) rfl]
  have hlen : (l.eraseIdx (l.idxOf i)).length = l.length - 1 := List.length_eraseIdx_of_lt hk
  rw [List.getD_eq_getElem _ _ (by omega), List.getElem_eraseIdx]
  split
  · rw [List.getD_eq_getElem _ _ (by omega)]
  · rw [List.getD_eq_getElem _ _ (by omega)]

theorem nFR_moveFreeToFixed {w : WS} {i : Nat} (hi : i ∈ w.free) (st : SubjectToStatus) :
    (w.moveFreeToFixed i st).nFR = w.nFR - 1 := List.length_erase_of_mem hi

theorem fr_moveFreeToFixed {w : WS} {i : Nat} (hi : i ∈ w.free) (st : SubjectToStatus) {r : Nat} (hr : r + 1 < w.nFR) :
    (w.moveFreeToFixed i st).fr r = w.fr (if r < w.free.idxOf i then r else r + 1) := erase_getD hi hr

/-- What `addBound` does outside of the set-up phase. -/
theorem addBound_eq (sq : K → K) {s : QPB K} (hst : s.status = QPS_PERFORMINGHOMOTOPY) (k : Nat) (st : SubjectToStatus) :
    addBound sq s k st true = (SUCCESSFUL_RETURN, { s with
      R := if s.hessianType ≠ HST_ZERO ∧ s.hessianType ≠ HST_IDENTITY then
        cholRemoveColumn sq s.bounds.nFR (s.bounds.free.idxOf k) s.R else s.R
      bounds := s.bounds.moveFreeToFixed k st }) := by
  unfold addBound
  rw [hst, if_neg (by decide), if_neg (by decide)]
  simp only [true_and]

theorem Factor.addBound {sq : K → K} {s : QPB K} (hsq : s.SqrtFor sq) (h : s.Factor) (hw : s.bounds.OK)
    (hst : s.status = QPS_PERFORMINGHOMOTOPY) {k : Nat} (hk : k ∈ s.bounds.free) (st : SubjectToStatus) :
    (addBound sq s k st true).2.Factor := by
  rw [addBound_eq sq hst]
  refine ⟨fun hs => ?_, fun hs => ?_⟩
  · obtain ⟨c, h1, h2, h3⟩ := h.scalar hs
    refine ⟨c, h1, h2, ?_⟩
    have : ¬ (s.hessianType ≠ HST_ZERO ∧ s.hessianType ≠ HST_IDENTITY) := by
      rcases hs with hs | hs
      · exact fun h => h.1 hs
      · exact fun h => h.2 hs
    dsimp only
    rw [if_neg this]
    exact h3
  · have hs' : ¬ s.scalarH := hs
    obtain ⟨g1, g2, g3⟩ := h.stored hs'
    dsimp only
    rw [if_pos (not_scalar hs'), nFR_moveFreeToFixed hk]
    obtain ⟨r1, r2⟩ := UpperGram.remove (hsq.1 hs') (WS.idxOf_fr_lt hk) g2 g3
    refine ⟨g1, fun r c hrc hc => ?_, r2⟩
    rw [r1 r c hrc hc]
    show _ = s.Heff ((s.bounds.moveFreeToFixed k st).fr r) ((s.bounds.moveFreeToFixed k st).fr c)
    rw [fr_moveFreeToFixed hk st (by omega), fr_moveFreeToFixed hk st (by omega)]

/-! ### removing a bound -/

theorem fr_moveFixedToFree_lt (w : WS) (i : Nat) {r : Nat} (hr : r < w.nFR) : (w.moveFixedToFree i).fr r = w.fr r := by
  show (w.free ++ [i]).getD r 0 = w.free.getD r 0
  exact List.getD_append _ _ _ _ hr

theorem fr_moveFixedToFree_eq (w : WS) (i : Nat) : (w.moveFixedToFree i).fr w.nFR = i := by
  show (w.free ++ [i]).getD w.free.length 0 = i
  rw [List.getD_append_right _ _ _ _ (Nat.le_refl _), Nat.sub_self]
  rfl

theorem nFR_moveFixedToFree (w : WS) (i : Nat) : (w.moveFixedToFree i).nFR = w.nFR + 1 := by
  show (w.free ++ [i]).length = _
  rw [List.length_append]
  rfl

/-- State after flipping bound `k` of `s` instead of removing it. -/
def flipped (s : QPB K) (k : Nat) : QPB K :=
  { s with
    bounds := s.bounds.flipFixed k
    lb := if s.bounds.status k = ST_UPPER then updA s.lb k (s.ub k) else s.lb
    ub := if s.bounds.status k = ST_LOWER then updA s.ub k (s.lb k) else s.ub }

/-- State after removing bound `k` of `s`, with factor `R`. -/
def removed (s : QPB K) (k : Nat) (R : Nat → Nat → K) : QPB K :=
  { s with bounds := s.bounds.moveFixedToFree k, R := R }

/-- `s'` is `s`, except that a flipping state may have been saved and the Hessian may have been recognised as not
positive definite. -/
structure SameData (s' s : QPB K) : Prop where
  nV : s'.nV = s.nV
  H : s'.H = s.H
  g : s'.g = s.g
  lb : s'.lb = s.lb
  ub : s'.ub = s.ub
  x : s'.x = s.x
  y : s'.y = s.y
  tau : s'.tau = s.tau
  hess : s'.Heff = s.Heff
  scal : (s'.scalarH ↔ s.scalarH) ∧ s'.scal = s.scal
  regVal : s'.regVal = s.regVal
  status : s'.status = s.status
  options : s'.options = s.options
  infeasible : s'.infeasible = s.infeasible
  unbounded : s'.unbounded = s.unbounded
  ramp : s'.ramp0 = s.ramp0 ∧ s'.ramp1 = s.ramp1
  clock : s'.clk = s.clk ∧ s'.now = s.now
  chol : s'.haveCholesky = s.haveCholesky
  ident : SameScalar s' s

theorem SameData.refl (s : QPB K) : SameData s s :=
  ⟨rfl, rfl, rfl, rfl, rfl, rfl, rfl, rfl, rfl, ⟨Iff.rfl, rfl⟩, rfl, rfl, rfl, rfl, rfl, ⟨rfl, rfl⟩, ⟨rfl, rfl⟩, rfl, ⟨Iff.rfl, Iff.rfl, rfl⟩⟩

theorem SameData.withFlip (s : QPB K) (f : Option (WS × (Nat → Nat → K))) : SameData { s with flip := f } s :=
  ⟨rfl, rfl, rfl, rfl, rfl, rfl, rfl, rfl, rfl, ⟨Iff.rfl, rfl⟩, rfl, rfl, rfl, rfl, rfl, ⟨rfl, rfl⟩, ⟨rfl, rfl⟩, rfl, ⟨Iff.rfl, Iff.rfl, rfl⟩⟩

theorem SameData.semidef {s : QPB K} (hs : ¬ s.scalarH) (f : Option (WS × (Nat → Nat → K))) :
    SameData { s with flip := f, hessianType := HST_SEMIDEF } s := by
  refine ⟨rfl, rfl, rfl, rfl, rfl, rfl, rfl, rfl, ?_, ⟨?_, ?_⟩, rfl, rfl, rfl, rfl, rfl, ⟨rfl, rfl⟩, ⟨rfl, rfl⟩, rfl, ?_⟩
  · obtain ⟨h1, h2⟩ := not_scalar hs
    funext i j
    show (match s.H with | some H => H i j | none => 0) = s.Heff i j
    unfold Heff
    split <;> split <;> first | rfl | exact absurd ‹_› h1 | exact absurd ‹_› h2
  · constructor
    · rintro (h | h) <;> exact absurd h (fun h => HessianType.noConfusion h)
    · exact fun h => absurd h hs
  · obtain ⟨h1, h2⟩ := not_scalar hs
    unfold QPB.scal
    dsimp only
    rw [if_neg (show ¬ HST_SEMIDEF = HST_ZERO by decide), if_neg h1]
  · exact ⟨⟨fun h => (by cases h), fun h => absurd h (not_scalar hs).2⟩, ⟨fun h => (by cases h), fun h => absurd h (not_scalar hs).1⟩, rfl⟩

theorem gt_ZERO_of_mul_self {a r : K} (h1 : 0 ≤ a) (h2 : a * a = r) (h : ZERO * ZERO < r) : ZERO < a := by
  by_contra h'
  have h' := not_lt.1 h'
  have := mul_self_le_mul_self h1 h'
  linarith

theorem sqrt_gt_ZERO {sq : K → K} (hsq : IsSqrt sq) {r : K} (h : ZERO * ZERO < r) : ZERO < |sq r| := by
  have h0 : (0 : K) < ZERO := ZERO_pos
  have hr : 0 ≤ r := (mul_pos h0 h0).le.trans h.le
  obtain ⟨h1, h2⟩ := hsq r hr
  rw [abs_of_nonneg h1]
  by_contra h'
  have h' := not_lt.1 h'
  have := mul_self_le_mul_self h1 h'
  linarith

theorem ZERO_lt_one : (ZERO : K) < 1 := by unfold ZERO; norm_num

theorem ZERO_mul_lt : (ZERO : K) * ZERO < ZERO := by
  have := mul_lt_mul_of_pos_left (ZERO_lt_one (K := K)) ZERO_pos
  rwa [mul_one] at this

/-- Outcomes of removing a bound during the homotopy: the bound is removed and the factor extended, it is flipped, or the
call fails. -/
inductive Removed (sq : K → K) (s : QPB K) (k : Nat) : ReturnValue → QPB K → Prop
  | removed (s1 : QPB K) (R : Nat → Nat → K) (hd : SameData s1 s) (hb : s1.bounds = s.bounds)
      (hf : (s1.removed k R).Factor) : Removed sq s k SUCCESSFUL_RETURN (s1.removed k R)
  | flipped (s1 : QPB K) (hd : SameData s1 s) (hb : s1.bounds = s.bounds) (hf : (s1.flipped k).Factor)
      (he : s.options.enableFlippingBounds = true) : Removed sq s k SUCCESSFUL_RETURN (s1.flipped k)
  | failed (r : ReturnValue) (s' : QPB K) (h : r = RET_REMOVEBOUND_FAILED ∨ r = RET_HESSIAN_NOT_SPD) : Removed sq s k r s'

theorem flipBack_eq {s : QPB K} {k : Nat} (hw : s.bounds.OK) (hk : k ∈ s.bounds.fixed) (b : WS) (R : Nat → Nat → K) (h) :
    flipBack { s with bounds := b, R := R, flip := some (s.bounds, s.R), hessianType := h } k =
      (SUCCESSFUL_RETURN, ({ s with flip := some (s.bounds, s.R), hessianType := h } : QPB K).flipped k) := by
  unfold flipBack
  dsimp only
  have hkn := hw.lt_fixed hk
  have hn : (s.bounds.flipFixed k).n = s.bounds.n := (s.bounds.flipFixed_fields k).1
  rw [WS.getStatus_of_lt (by rw [hn]; exact hkn)]
  rcases s.bounds.flipFixed_status (hw.fixed k hk) with ⟨h1, h2⟩ | ⟨h1, h2⟩
  · rw [h2]
    dsimp only
    unfold flipped
    dsimp only
    rw [h1, if_pos rfl, if_neg (by decide)]
  · rw [h2]
    dsimp only
    unfold flipped
    dsimp only
    rw [h1, if_pos rfl, if_neg (by decide)]

theorem Factor.flipped {s : QPB K} (h : s.Factor) (k : Nat) : (s.flipped k).Factor := by
  obtain ⟨_, e2, _⟩ := s.bounds.flipFixed_fields k
  refine ⟨h.scalar, fun hs => ?_⟩
  obtain ⟨g1, g2, g3⟩ := h.stored hs
  have e1 : (s.bounds.flipFixed k).nFR = s.bounds.nFR := by unfold WS.nFR; rw [e2]
  have e3 : ∀ r, (s.bounds.flipFixed k).fr r = s.bounds.fr r := by intro r; unfold WS.fr; rw [e2]
  refine ⟨g1, fun r c hrc hc => ?_, fun r hr => ?_⟩
  · show _ = s.Heff ((s.bounds.flipFixed k).fr r) ((s.bounds.flipFixed k).fr c)
    rw [e3, e3]
    exact g2 r c hrc (by rw [← e1]; exact hc)
  · exact g3 r (by rw [← e1]; exact hr)

theorem Factor.congr {s s' : QPB K} (h : s.Factor) (hd : SameData s' s) (hb : s'.bounds = s.bounds) (hR : s'.R = s.R) :
    s'.Factor := by
  refine ⟨fun hs => ?_, fun hs => ?_⟩
  · rw [hd.scal.2, hd.nV, hR]
    exact h.scalar (hd.scal.1.1 hs)
  · rw [hd.H, hb, hR, hd.hess]
    exact h.stored (fun h' => hs (hd.scal.1.2 h'))

theorem removeBound_spec {sq : K → K} {s : QPB K} (hsq : s.SqrtFor sq) (h : s.Factor) (hw : s.bounds.OK) (hn : s.bounds.n = s.nV)
    (hsym : Spec.QP.Symmetric s.nV s.Heff)
    (hst : s.status = QPS_PERFORMINGHOMOTOPY) {k : Nat} (hk : k ∈ s.bounds.fixed) (heps : ZERO * ZERO ≤ s.options.epsFlipping) :
    ∃ r s', removeBound sq s k true = .ok (r, s') ∧ Removed sq s k r s' := by
  unfold removeBound
  rw [if_neg (show ¬ (s.status = QPS_NOTINITIALISED ∨ s.status = QPS_AUXILIARYQPSOLVED ∨ s.status = QPS_HOMOTOPYQPSOLVED ∨
    s.status = QPS_SOLVED) by rw [hst]; decide)]
  set f := if s.options.enableFlippingBounds then some (s.bounds, s.R) else s.flip with hf
  have e0 : (if s.options.enableFlippingBounds then { s with flip := some (s.bounds, s.R) } else s) = { s with flip := f } := by
    rw [hf]; split <;> rfl
  dsimp only
  rw [e0]
  dsimp only
  rw [if_neg (show ¬ s.status = QPS_PREPARINGAUXILIARYQP by rw [hst]; decide)]
  by_cases hs : s.scalarH
  · have hns : ¬ (true = true ∧ s.hessianType ≠ HST_ZERO ∧ s.hessianType ≠ HST_IDENTITY) := by
      rcases hs with hs | hs
      · exact fun h => h.2.1 hs
      · exact fun h => h.2.2 hs
    rw [if_neg hns]
    by_cases hz : s.hessianType = HST_ZERO ∧ s.options.enableFlippingBounds = true
    · rw [if_pos hz]
      have hf' : f = some (s.bounds, s.R) := by rw [hf, if_pos hz.2]
      have e := flipBack_eq hw hk (s.bounds.moveFixedToFree k) s.R s.hessianType
      rw [show ({ s with flip := f, bounds := s.bounds.moveFixedToFree k } : QPB K) =
        { s with bounds := s.bounds.moveFixedToFree k, R := s.R, flip := some (s.bounds, s.R), hessianType := s.hessianType } by rw [hf']]
      rw [e]
      refine ⟨_, _, rfl, ?_⟩
      have hd : SameData ({ s with flip := some (s.bounds, s.R) } : QPB K) s := SameData.withFlip s _
      exact .flipped _ hd rfl ((h.congr hd rfl rfl).flipped k) hz.2
    · rw [if_neg hz]
      refine ⟨_, _, rfl, ?_⟩
      refine Removed.removed { s with flip := f } s.R (SameData.withFlip s f) rfl ⟨h.scalar, fun h' => absurd hs h'⟩
  · replace hsq := hsq.1 hs
    rw [if_pos ⟨rfl, not_scalar hs⟩]
    obtain ⟨g1, g2, g3⟩ := h.stored hs
    obtain ⟨H, hH⟩ := Option.ne_none_iff_exists'.1 g1
    have hHe : ∀ i j, s.Heff i j = H i j := Heff_of_H hs hH
    have hg : ({ s with flip := f, bounds := s.bounds.moveFixedToFree k } : QPB K).getH = .ok H := by
      unfold getH; dsimp only; rw [hH]
    rw [hg]
    simp only [Res.bind_ok]
    have hkn : k < s.nV := by rw [← hn]; exact hw.lt_fixed hk
    rcases C24_solve_transposed_partial g3.ne_zero (some fun i => H k ((s.bounds.moveFixedToFree k).fr i)) (fun _ => 0) with
      ⟨v, h1, h2, h3⟩ | ⟨a', k', h1, _⟩
    · rw [h1]
      simp only [Res.bind_ok]
      rw [if_neg (by simp)]
      set r0 := subUp (fun i => v i * v i) 0 s.bounds.nFR (H k k) with hr0
      have hr0' : r0 = s.Heff k k - ∑ q ∈ range s.bounds.nFR, v q * v q := by rw [hr0, subUp_eq, range_eq_Ico, hHe]
      -- the extended factor
      have hext : ZERO * ZERO < r0 → (({ s with flip := f } : QPB K).removed k (fun i j =>
          if i = s.bounds.nFR ∧ j = s.bounds.nFR then sq r0 else if i < s.bounds.nFR ∧ j = s.bounds.nFR then v i else s.R i j)).Factor := by
        intro hpos
        have hnn : 0 ≤ r0 := (mul_pos (ZERO_pos (K := K)) ZERO_pos).le.trans hpos.le
        refine ⟨fun h' => absurd h' hs, fun _ => ⟨g1, ?_, ?_⟩⟩
        · show UpperGram (s.bounds.moveFixedToFree k).nFR _ (fun r c => s.Heff ((s.bounds.moveFixedToFree k).fr r) ((s.bounds.moveFixedToFree k).fr c))
          rw [nFR_moveFixedToFree]
          refine UpperGram.append (A := fun r c => s.Heff ((s.bounds.moveFixedToFree k).fr r) ((s.bounds.moveFixedToFree k).fr c)) ?_ ?_ ?_
          · intro r c hrc hc
            rw [g2 r c hrc hc]
            beta_reduce
            rw [fr_moveFixedToFree_lt _ _ (by omega), fr_moveFixedToFree_lt _ _ (by omega)]
          · intro r hr
            rw [h2 r hr]
            show H k ((s.bounds.moveFixedToFree k).fr r) = _
            beta_reduce
            rw [fr_moveFixedToFree_eq, ← hHe]
            refine hsym _ hkn _ ?_
            rw [fr_moveFixedToFree_lt _ _ hr, ← hn]
            exact hw.fr_lt hr
          · rw [(hsq r0 hnn).2, hr0']
            beta_reduce
            rw [fr_moveFixedToFree_eq]
        · show DiagOK (s.bounds.moveFixedToFree k).nFR _
          rw [nFR_moveFixedToFree]
          intro r hr
          show ZERO < |if r = s.bounds.nFR ∧ r = s.bounds.nFR then sq r0 else if r < s.bounds.nFR ∧ r = s.bounds.nFR then v r else s.R r r|
          by_cases e : r = s.bounds.nFR
          · rw [if_pos ⟨e, e⟩]; exact sqrt_gt_ZERO hsq hpos
          · rw [if_neg (fun h => e h.1), if_neg (fun h => e h.2)]; exact g3 r (by omega)
      by_cases hfl : s.options.enableFlippingBounds = true
      · rw [if_pos hfl]
        by_cases hr : r0 > s.options.epsFlipping
        · rw [if_pos hr]
          exact ⟨_, _, rfl, .removed { s with flip := f } _ (SameData.withFlip s f) rfl (hext (lt_of_le_of_lt heps hr))⟩
        · rw [if_neg hr]
          have hf' : f = some (s.bounds, s.R) := by rw [hf, if_pos hfl]
          rw [hf']
          rw [flipBack_eq hw hk (s.bounds.moveFixedToFree k) _ HST_SEMIDEF]
          refine ⟨_, _, rfl, ?_⟩
          have hd : SameData ({ s with flip := some (s.bounds, s.R), hessianType := HST_SEMIDEF } : QPB K) s := SameData.semidef hs _
          exact .flipped _ hd rfl ((h.congr hd rfl rfl).flipped k) hfl
      · rw [if_neg hfl]
        by_cases hr : r0 > ZERO
        · rw [if_pos hr]
          exact ⟨_, _, rfl, .removed { s with flip := f } _ (SameData.withFlip s f) rfl (hext (lt_trans ZERO_mul_lt hr))⟩
        · rw [if_neg hr]
          exact ⟨_, _, rfl, .failed _ _ (Or.inr rfl)⟩
    · rw [h1]
      simp only [Res.bind_ok]
      rw [if_pos (by simp)]
      exact ⟨_, _, rfl, .failed _ _ (Or.inl rfl)⟩

/-! ### computing the factor afresh -/

theorem scal_pos {s : QPB K} (hr : s.hessianType = HST_ZERO → s.usingRegularisation = true) : ZERO < s.scal := by
  unfold scal
  split
  · rename_i h
    have h1 := hr h
    rw [if_pos h1]
    exact of_decide_eq_true h1
  · exact ZERO_lt_one

theorem computeCholesky_spec {sq : K → K} {s : QPB K} (hsq : s.SqrtFor sq) (hw : s.bounds.OK) (hn : s.bounds.n = s.nV)
    (hH : ¬ s.scalarH → s.H ≠ none) :
    ∃ r s', computeCholesky sq s = .ok (r, s') ∧ s'.bounds = s.bounds ∧ (r = SUCCESSFUL_RETURN →
      (∃ R, s' = { s with R := R }) ∧
      UpperGram s'.bounds.nFR s'.R (fun r c => s'.Heff (s'.bounds.fr r) (s'.bounds.fr c)) ∧
      (∀ r < s'.bounds.nFR, 0 < s'.R r r) ∧
      (s.scalarH ∨ DiagOK s'.bounds.nFR s'.R → s'.Factor)) ∧
      (r ≠ SUCCESSFUL_RETURN → r = RET_CHOLESKY_OF_ZERO_HESSIAN ∨ r = RET_HESSIAN_NOT_SPD) := by
  have hle := hw.nFR_le
  rw [hn] at hle
  have scalarCase : ∀ (c : K), s.scalarH → c * c = s.scal → ZERO < c →
      ∃ r s', Res.ok (SUCCESSFUL_RETURN, ({ s with R := fun i j => if i = j ∧ i < s.nV then c else 0 } : QPB K)) =
          Res.ok (r, s') ∧ s'.bounds = s.bounds ∧ (r = SUCCESSFUL_RETURN →
      (∃ R, s' = { s with R := R }) ∧
      UpperGram s'.bounds.nFR s'.R (fun r c => s'.Heff (s'.bounds.fr r) (s'.bounds.fr c)) ∧
      (∀ r < s'.bounds.nFR, 0 < s'.R r r) ∧
      (s.scalarH ∨ DiagOK s'.bounds.nFR s'.R → s'.Factor)) ∧
      (r ≠ SUCCESSFUL_RETURN → r = RET_CHOLESKY_OF_ZERO_HESSIAN ∨ r = RET_HESSIAN_NOT_SPD) := by
    intro c hs h1 h2
    refine ⟨_, _, rfl, rfl, fun _ => ?_, fun h => absurd rfl h⟩
    have hF : ({ s with R := fun i j => if i = j ∧ i < s.nV then c else 0 } : QPB K).Factor := by
      refine ⟨fun _ => ⟨c, h1, lt_of_lt_of_le h2 (le_abs_self c), fun i hi j hj => ?_⟩, fun h => absurd hs h⟩
      dsimp only
      by_cases e : i = j
      · rw [if_pos ⟨e, hi⟩, if_pos e]
      · rw [if_neg (fun h => e h.1), if_neg e]
    refine ⟨⟨_, rfl⟩, (hF.gram hw hn).1, fun r hr => ?_, fun _ => hF⟩
    have hr : r < s.bounds.nFR := hr
    dsimp only
    rw [if_pos ⟨rfl, by omega⟩]
    exact ZERO_pos.trans h2
  unfold computeCholesky
  dsimp only
  split
  · rename_i hs
    have hs : s.hessianType = HST_ZERO := hs
    by_cases hr : s.usingRegularisation = true
    · have hr' : ({ s with R := fun _ _ => 0 } : QPB K).usingRegularisation = true := hr
      rw [if_pos hr']
      have hreg : ZERO < s.regVal := of_decide_eq_true hr
      have hsc : s.scal = s.regVal := by unfold scal; rw [if_pos hs, if_pos hr]
      have h0 : 0 ≤ s.regVal := ZERO_pos.le.trans hreg.le
      obtain ⟨q1, q2⟩ := hsq.2 hs hr
      have h1 := gt_ZERO_of_mul_self q1 q2 (lt_trans ZERO_mul_lt hreg)
      exact scalarCase (sq s.regVal) (Or.inl hs) (by rw [hsc]; exact q2) h1
    · have hr' : ¬ ({ s with R := fun _ _ => 0 } : QPB K).usingRegularisation = true := hr
      rw [if_neg hr']
      exact ⟨_, _, rfl, rfl, fun h => absurd h (by decide), fun _ => Or.inl rfl⟩
  · rename_i hs
    have hs : s.hessianType = HST_IDENTITY := hs
    have hsc : s.scal = 1 := by unfold scal; rw [hs, if_neg (by decide)]
    exact scalarCase 1 (Or.inr hs) (by rw [hsc, mul_one]) ZERO_lt_one
  · rename_i hz hi
    have hs : ¬ s.scalarH := by
      rintro (h | h)
      · exact hz h
      · exact hi h
    obtain ⟨H, hH⟩ := Option.ne_none_iff_exists'.1 (hH hs)
    have hHe : ∀ i j, s.Heff i j = H i j := Heff_of_H hs hH
    by_cases hp : s.bounds.nFR > 0
    · rw [if_pos hp]
      have hg : ({ s with R := fun _ _ => 0 } : QPB K).getH = .ok H := by unfold getH; dsimp only; rw [hH]
      rw [hg]
      simp only [Res.bind_ok]
      set A : Nat → K := fun q => if q % s.nV < s.bounds.nFR ∧ q / s.nV < s.bounds.nFR then
        H (s.bounds.fr (q % s.nV)) (s.bounds.fr (q / s.nV)) else 0 with hA
      by_cases hinfo : (potrf sq s.bounds.nFR A s.nV).1 > 0
      · rw [if_pos hinfo]
        refine ⟨_, _, rfl, ?_, fun h => absurd h (by decide), fun _ => Or.inr rfl⟩
        dsimp only
        split <;> rfl
      · rw [if_neg hinfo]
        obtain ⟨c1, c2⟩ := C23_factor hle (hsq.1 hs) A (by omega)
        have hgram : UpperGram s.bounds.nFR (fun i j => if i = j + 1 ∧ j + 1 < s.bounds.nFR then 0 else
            (potrf sq s.bounds.nFR A s.nV).2 (i + s.nV * j)) (fun r c => s.Heff (s.bounds.fr r) (s.bounds.fr c)) := by
          intro r c hrc hc
          have h1 := (c1 r (by omega)).2 c hrc hc
          have hAe : A (r + s.nV * c) = s.Heff (s.bounds.fr r) (s.bounds.fr c) := by
            rw [hA]
            beta_reduce
            have e1 : (r + s.nV * c) % s.nV = r := by rw [Nat.add_mul_mod_self_left, Nat.mod_eq_of_lt (by omega)]
            have e2 : (r + s.nV * c) / s.nV = c := by
              rw [Nat.add_mul_div_left _ _ (by omega : 0 < s.nV), Nat.div_eq_of_lt (by omega), Nat.zero_add]
            rw [e1, e2, if_pos ⟨by omega, hc⟩, hHe]
          beta_reduce at h1 ⊢
          rw [hAe] at h1
          rw [← h1]
          refine sum_congr rfl fun q hq => ?_
          have hq := mem_range.1 hq
          rw [if_neg (by omega), if_neg (by omega)]
        have hdiag : ∀ r < s.bounds.nFR, (0 : K) < (fun i j => if i = j + 1 ∧ j + 1 < s.bounds.nFR then 0 else
            (potrf sq s.bounds.nFR A s.nV).2 (i + s.nV * j)) r r := by
          intro r hr
          beta_reduce
          rw [if_neg (by omega)]
          exact (c1 r hr).1
        refine ⟨_, _, rfl, rfl, fun _ => ⟨⟨_, rfl⟩, hgram, hdiag, fun h => ?_⟩, fun h => absurd rfl h⟩
        refine ⟨fun h' => absurd h' hs, fun _ => ⟨?_, hgram, h.resolve_left hs⟩⟩
        show s.H ≠ none
        rw [hH]
        exact Option.some_ne_none _
    · rw [if_neg hp]
      refine ⟨_, _, rfl, rfl, fun _ => ⟨⟨_, rfl⟩, fun r c _ hc => ?_, fun r hr => ?_, fun _ =>
        ⟨fun h' => absurd h' hs, fun _ => ⟨?_, fun r c _ hc => ?_, fun r hr => ?_⟩⟩⟩, fun h => absurd rfl h⟩
      · have hc : c < s.bounds.nFR := hc
        omega
      · have hr : r < s.bounds.nFR := hr
        omega
      · show s.H ≠ none
        rw [hH]
        exact Option.some_ne_none _
      · have hc : c < s.bounds.nFR := hc
        omega
      · have hr : r < s.bounds.nFR := hr
        omega

end QPB
end QpOASES
