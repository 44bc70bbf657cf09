import Verif.Proofs.QPBRatio

/-!
A homotopy step and a change of the working set keep the iterate optimal for the current data.
-/
namespace QpOASES
open Finset Props SubjectToStatus SubjectToType ReturnValue HessianType QProblemStatus

variable {K : Type} [Field K] [LinearOrder K] [IsStrictOrderedRing K]

namespace QPB

/-- The iterate is optimal for the current data, with the current working set.  Limits on a side on which all new limits
are infinite are not observed. -/
structure Opt (s : QPB K) : Prop where
  stat : ∀ i < s.nV, ∑ j ∈ range s.nV, s.Heff i j * s.x j + s.g i = s.y i
  lower : ∀ i < s.nV, s.bounds.status i = ST_LOWER → s.x i = s.lb i ∧ (s.bounds.type i ≠ ST_EQUALITY → 0 ≤ s.y i)
  upper : ∀ i < s.nV, s.bounds.status i = ST_UPPER → s.x i = s.ub i ∧ (s.bounds.type i ≠ ST_EQUALITY → s.y i ≤ 0)
  inactive : ∀ i < s.nV, s.bounds.status i = ST_INACTIVE → s.y i = 0 ∧ (s.bounds.noLower = false → s.lb i ≤ s.x i) ∧
    (s.bounds.noUpper = false → s.x i ≤ s.ub i)
  box : ∀ i < s.nV, s.lb i ≤ s.ub i
  eq : ∀ i < s.nV, s.bounds.type i = ST_EQUALITY → s.bounds.status i ≠ ST_INACTIVE ∧ s.lb i = s.ub i

/-- Options for which the solver is meant to be used. -/
structure OptionsOK (o : Options K) : Prop where
  epsNum : o.epsNum ≤ 0
  epsDen : 0 ≤ o.epsDen
  flip : ZERO * ZERO ≤ o.epsFlipping
  refSteps : 0 ≤ o.numRefinementSteps
  iterRef : 0 < o.epsIterRef ∨ o.numRefinementSteps ≤ 0

/-- Invariant of the main loop. -/
structure Inv (s : QPB K) : Prop where
  ws : s.bounds.OK
  n : s.bounds.n = s.nV
  factor : s.Factor
  sym : Spec.QP.Symmetric s.nV s.Heff
  opt : s.Opt
  options : OptionsOK s.options
  ramp : s.options.enableRamping = true → 2 ≤ s.nV ∧ 0 ≤ s.ramp0 ∧ 0 ≤ s.ramp1

/-- Same problem: size, Hessian, types and options. -/
structure SameProblem (s' s : QPB K) : Prop where
  nV : s'.nV = s.nV
  hess : s'.Heff = s.Heff
  type : s'.bounds.type = s.bounds.type
  options : s'.options = s.options
  chol : s'.haveCholesky = s.haveCholesky
  reg : s'.regVal = s.regVal
  noLower : s'.bounds.noLower = s.bounds.noLower
  noUpper : s'.bounds.noUpper = s.bounds.noUpper
  ident : SameScalar s' s

theorem SameProblem.sqrt {s' s : QPB K} (h : SameProblem s' s) {sq : K → K} (hs : s.SqrtFor sq) : s'.SqrtFor sq :=
  h.ident.sqrt hs

theorem SameProblem.refl (s : QPB K) : SameProblem s s := ⟨rfl, rfl, rfl, rfl, rfl, rfl, rfl, rfl, ⟨Iff.rfl, Iff.rfl, rfl⟩⟩
theorem SameProblem.trans {a b c : QPB K} (h : SameProblem a b) (h' : SameProblem b c) : SameProblem a c :=
  ⟨h.nV.trans h'.nV, h.hess.trans h'.hess, h.type.trans h'.type, h.options.trans h'.options, h.chol.trans h'.chol, h.reg.trans h'.reg,
    h.noLower.trans h'.noLower, h.noUpper.trans h'.noUpper, h.ident.trans h'.ident⟩
theorem SameProblem.frame {a s : QPB K} {k : Nat} (h : SameProblem a { s with now := k }) : SameProblem a s :=
  ⟨h.nV, h.hess, h.type, h.options, h.chol, h.reg, h.noLower, h.noUpper, h.ident⟩

/-! ### the step -/

theorem addAt_apply (tau : K) (d : Nat → K) : ∀ (idx : List Nat) (i : Nat) (v : Nat → K), idx.Nodup → ∀ j,
    addAt tau d idx i v j = if j ∈ idx then v j + tau * d (i + idx.idxOf j) else v j := by
  intro idx
  induction idx with
  | nil => intro i v _ j; rw [if_neg (by simp)]; rfl
  | cons a idx ih =>
    intro i v hnd j
    obtain ⟨h1, h2⟩ := List.nodup_cons.1 hnd
    rw [addAt, ih _ _ h2]
    by_cases e : j = a
    · subst e
      rw [if_neg h1, updA_same, if_pos (by simp), List.idxOf_cons_self, Nat.add_zero]
    · rw [updA_ne _ _ e]
      by_cases hm : j ∈ idx
      · rw [if_pos hm, if_pos (by simp [hm]), List.idxOf_cons_ne _ (Ne.symm e), show i + 1 + idx.idxOf j = i + (idx.idxOf j).succ by omega]
      · rw [if_neg hm, if_neg (by simp [e, hm])]

theorem takeStep_fields (s : QPB K) (dg dlb dub : Nat → K) (d : Dir K) (tau : K) :
    (takeStep s dg dlb dub d tau) = { s with
      tau := tau
      x := (takeStep s dg dlb dub d tau).x
      y := (takeStep s dg dlb dub d tau).y
      g := (takeStep s dg dlb dub d tau).g
      lb := (takeStep s dg dlb dub d tau).lb
      ub := (takeStep s dg dlb dub d tau).ub } := by
  unfold takeStep
  dsimp only
  split <;> rfl

theorem takeStep_data {s : QPB K} (hw : s.bounds.OK) (hn : s.bounds.n = s.nV) (dg dlb dub : Nat → K) (d : Dir K) {tau : K}
    (ht : tau = 0 ∨ ZERO < tau) :
    (∀ i < s.nV, (takeStep s dg dlb dub d tau).x i = s.x i + tau * s.dirX d i) ∧
    (∀ i < s.nV, (takeStep s dg dlb dub d tau).y i = s.y i + tau * s.dirY d i) ∧
    (∀ i, (takeStep s dg dlb dub d tau).g i = s.g i + tau * dg i) ∧
    (∀ i, (takeStep s dg dlb dub d tau).lb i = s.lb i + tau * dlb i) ∧
    (∀ i, (takeStep s dg dlb dub d tau).ub i = s.ub i + tau * dub i) := by
  unfold takeStep
  dsimp only
  rcases ht with ht | ht
  · subst ht
    rw [if_neg (not_lt.2 ZERO_pos.le)]
    refine ⟨fun i _ => ?_, fun i _ => ?_, fun i => ?_, fun i => ?_, fun i => ?_⟩ <;> simp
  · rw [if_pos ht]
    refine ⟨fun i hi => ?_, fun i hi => ?_, fun i => rfl, fun i => rfl, fun i => rfl⟩
    · dsimp only
      rw [addAt_apply _ _ _ _ _ hw.nodup_fixed, addAt_apply _ _ _ _ _ hw.nodup_free]
      unfold dirX WS.scatter
      rw [← hn] at hi
      rcases hw.mem_iff.1 hi with h | h
      · rw [if_neg (fun h' => hw.disjoint h h'), if_pos h, if_pos h, Nat.zero_add]
      · rw [if_pos h, if_neg (fun h' => hw.disjoint h' h), if_neg (fun h' => hw.disjoint h' h), Nat.zero_add]
    · dsimp only
      rw [addAt_apply _ _ _ _ _ hw.nodup_fixed]
      unfold dirY WS.scatter
      rw [← hn] at hi
      rcases hw.mem_iff.1 hi with h | h
      · rw [if_neg (fun h' => hw.disjoint h h'), if_pos h, mul_zero, add_zero]
      · rw [if_pos h, if_neg (fun h' => hw.disjoint h' h), Nat.zero_add]

/-- What is known of the limit that stopped the step. -/
def AtLimit (s : QPB K) : Option (Nat × SubjectToStatus) → Prop
  | none => True
  | some (i, ST_INACTIVE) => i ∈ s.bounds.fixed ∧ s.bounds.type i ≠ ST_EQUALITY ∧ s.y i = 0
  | some (i, ST_LOWER) => i ∈ s.bounds.free ∧ s.bounds.type i ≠ ST_EQUALITY ∧ s.x i = s.lb i
  | some (i, ST_UPPER) => i ∈ s.bounds.free ∧ s.bounds.type i ≠ ST_EQUALITY ∧ s.x i = s.ub i
  | _ => False

/-- No denominator of the ratio test is positive but too small to be noticed. -/
structure NoTiny (s : QPB K) (dlb dub : Nat → K) (d : Dir K) : Prop where
  dual : ∀ k < s.bounds.nFX, s.bounds.type (s.bounds.fx k) ≠ ST_EQUALITY →
    DenOK s.options.epsDen (sg s.bounds (s.bounds.fx k) (-d.yFX k))
  lower : s.bounds.noLower = false → ∀ k < s.bounds.nFR, DenOK s.options.epsDen (dlb (s.bounds.fr k) - d.xFR k)
  upper : s.bounds.noUpper = false → ∀ k < s.bounds.nFR, DenOK s.options.epsDen (d.xFR k - dub (s.bounds.fr k))

theorem Opt.sign {s : QPB K} (h : s.Opt) (hw : s.bounds.OK) (hn : s.bounds.n = s.nV) :
    ∀ k < s.bounds.nFX, s.bounds.type (s.bounds.fx k) ≠ ST_EQUALITY → 0 ≤ sg s.bounds (s.bounds.fx k) (s.y (s.bounds.fx k)) := by
  intro k hk hty
  have hlt : s.bounds.fx k < s.nV := by rw [← hn]; exact hw.fx_lt hk
  rcases hw.fixed _ (WS.fx_mem hk) with h1 | h1
  · rw [sg_ne (by rw [h1]; decide)]
    exact (h.lower _ hlt h1).2 hty
  · unfold sg
    rw [if_pos h1]
    exact neg_nonneg.2 ((h.upper _ hlt h1).2 hty)

/-- A step along a direction that satisfies the working set's optimality conditions keeps the iterate optimal. -/
theorem Opt.takeStep {s : QPB K} (h : s.Opt) (hw : s.bounds.OK) (hn : s.bounds.n = s.nV) {dg : Nat → K} {lbN ubN : Nat → K}
    {isZero : Bool} {d : Dir K} {tau : K} {bc : Option (Nat × SubjectToStatus)}
    (hd : DirOK s dg (fun i => lbN i - s.lb i) (fun i => ubN i - s.ub i) isZero d)
    (hz : isZero = true → ∀ i ∈ s.bounds.fixed, (if s.bounds.status i = ST_LOWER then lbN i - s.lb i else ubN i - s.ub i) = 0)
    (hs : StepOK s (fun i => lbN i - s.lb i) (fun i => ubN i - s.ub i) d tau bc)
    (hnt : NoTiny s (fun i => lbN i - s.lb i) (fun i => ubN i - s.ub i) d)
    (ht : tau = 0 ∨ ZERO < tau)
    (hbox : ∀ i < s.nV, lbN i ≤ ubN i) (heq : ∀ i < s.nV, s.bounds.type i = ST_EQUALITY → lbN i = ubN i) :
    (takeStep s dg (fun i => lbN i - s.lb i) (fun i => ubN i - s.ub i) d tau).Opt ∧
    AtLimit (takeStep s dg (fun i => lbN i - s.lb i) (fun i => ubN i - s.ub i) d tau) bc := by
  obtain ⟨ex, ey, eg, el, eu⟩ := takeStep_data hw hn dg (fun i => lbN i - s.lb i) (fun i => ubN i - s.ub i) d ht
  have ef := takeStep_fields s dg (fun i => lbN i - s.lb i) (fun i => ubN i - s.ub i) d tau
  generalize QPB.takeStep s dg (fun i => lbN i - s.lb i) (fun i => ubN i - s.ub i) d tau = s1 at *
  have enV : s1.nV = s.nV := by rw [ef]
  have eb : s1.bounds = s.bounds := by rw [ef]
  have eH : s1.Heff = s.Heff := by rw [ef]; rfl
  -- directions of active variables
  have hact : ∀ i ∈ s.bounds.fixed, s.dirX d i = if s.bounds.status i = ST_LOWER then lbN i - s.lb i else ubN i - s.ub i := by
    intro i hi
    have hk := WS.idxOf_fx_lt hi
    have e := hw.scatter_fx d.xFR d.xFX hk
    rw [WS.fx_idxOf hi] at e
    have e' := hd.active _ hk
    rw [WS.fx_idxOf hi] at e'
    show s.bounds.scatter d.xFR d.xFX i = _
    rw [e, e']
    by_cases hzz : isZero = true
    · rw [if_pos hzz, hz hzz i hi]
    · rw [if_neg hzz]
  have hfreeX : ∀ k < s.bounds.nFR, s.dirX d (s.bounds.fr k) = d.xFR k := fun k hk => hw.scatter_fr d.xFR d.xFX hk
  have hfreeY : ∀ i ∈ s.bounds.free, s.dirY d i = 0 := fun i hi => if_pos hi
  have hfixY : ∀ k < s.bounds.nFX, s.dirY d (s.bounds.fx k) = d.yFX k := fun k hk => hw.scatter_fx (fun _ => 0) d.yFX hk
  have hmemF : ∀ i < s.nV, s.bounds.status i = ST_LOWER ∨ s.bounds.status i = ST_UPPER → i ∈ s.bounds.fixed :=
    fun i hi hst => hw.mem_fixed_iff.2 ⟨by rw [hn]; exact hi, hst⟩
  have hsign : ∀ i ∈ s.bounds.fixed, s.bounds.type i ≠ ST_EQUALITY → 0 ≤ sg s.bounds i (s.y i + tau * s.dirY d i) := by
    intro i hi hty
    have hk := WS.idxOf_fx_lt hi
    have h1 := hs.dual _ hk (by rw [WS.fx_idxOf hi]; exact hty) (hnt.dual _ hk (by rw [WS.fx_idxOf hi]; exact hty))
    have h2 := hfixY _ hk
    rw [WS.fx_idxOf hi] at h1 h2
    rw [h2]
    exact h1
  have hlo : ∀ i < s.nV, i ∈ s.bounds.free → s.bounds.noLower = false → s1.lb i ≤ s1.x i := by
    intro i hi hf hl
    have hk := WS.idxOf_fr_lt hf
    have hst := hw.free i hf
    have hty : s.bounds.type i ≠ ST_EQUALITY := fun e => (h.eq i hi e).1 hst
    have h1 := hs.lower hl _ hk (by rw [WS.fr_idxOf hf]; exact hty) (hnt.lower hl _ hk)
    have h2 := hfreeX _ hk
    rw [WS.fr_idxOf hf] at h1 h2
    rw [getMax_of_nonneg (sub_nonneg.2 ((h.inactive i hi hst).2.1 hl))] at h1
    rw [el, ex i hi, h2]
    linarith [mul_sub tau (lbN i - s.lb i) (d.xFR (s.bounds.free.idxOf i))]
  have hup : ∀ i < s.nV, i ∈ s.bounds.free → s.bounds.noUpper = false → s1.x i ≤ s1.ub i := by
    intro i hi hf hl
    have hk := WS.idxOf_fr_lt hf
    have hst := hw.free i hf
    have hty : s.bounds.type i ≠ ST_EQUALITY := fun e => (h.eq i hi e).1 hst
    have h1 := hs.upper hl _ hk (by rw [WS.fr_idxOf hf]; exact hty) (hnt.upper hl _ hk)
    have h2 := hfreeX _ hk
    rw [WS.fr_idxOf hf] at h1 h2
    rw [getMax_of_nonneg (sub_nonneg.2 ((h.inactive i hi hst).2.2 hl))] at h1
    rw [eu, ex i hi, h2]
    linarith [mul_sub tau (d.xFR (s.bounds.free.idxOf i)) (ubN i - s.ub i)]
  refine ⟨⟨?_, ?_, ?_, ?_, ?_, ?_⟩, ?_⟩
  · intro i hi
    rw [enV] at hi
    rw [enV, eH, eg, ey i hi, ← h.stat i hi, ← hd.stat i hi]
    have : ∑ j ∈ range s.nV, s.Heff i j * s1.x j = ∑ j ∈ range s.nV, s.Heff i j * s.x j +
        tau * ∑ j ∈ range s.nV, s.Heff i j * s.dirX d j := by
      rw [mul_sum, ← sum_add_distrib]
      refine sum_congr rfl fun j hj => ?_
      rw [ex j (mem_range.1 hj)]
      ring
    rw [this]
    ring
  · intro i hi hst
    rw [enV] at hi
    rw [eb] at hst ⊢
    have hm := hmemF i hi (Or.inl hst)
    refine ⟨?_, fun hty => ?_⟩
    · rw [ex i hi, el, hact i hm, if_pos hst, (h.lower i hi hst).1]
    · have h1 := hsign i hm hty
      rw [sg_ne (by rw [hst]; decide)] at h1
      rw [ey i hi]; exact h1
  · intro i hi hst
    rw [enV] at hi
    rw [eb] at hst ⊢
    have hm := hmemF i hi (Or.inr hst)
    refine ⟨?_, fun hty => ?_⟩
    · rw [ex i hi, eu, hact i hm, if_neg (by rw [hst]; decide), (h.upper i hi hst).1]
    · have h1 := hsign i hm hty
      unfold sg at h1
      rw [if_pos hst] at h1
      rw [ey i hi]; linarith
  · intro i hi hst
    rw [enV] at hi
    rw [eb] at hst ⊢
    have hm : i ∈ s.bounds.free := hw.mem_free_iff.2 ⟨by rw [hn]; exact hi, hst⟩
    refine ⟨?_, hlo i hi hm, hup i hi hm⟩
    rw [ey i hi, hfreeY i hm, (h.inactive i hi hst).1]; ring
  · intro i hi
    rw [enV] at hi
    rw [el, eu]
    have h1 := mul_le_mul_of_nonneg_left (hbox i hi) hs.nonneg
    have h2 := mul_le_mul_of_nonneg_left (h.box i hi) (sub_nonneg.2 hs.le_one)
    linarith [mul_sub tau (lbN i) (s.lb i), mul_sub tau (ubN i) (s.ub i), sub_mul 1 tau (s.lb i), sub_mul 1 tau (s.ub i)]
  · intro i hi hty
    rw [enV] at hi
    rw [eb] at hty ⊢
    refine ⟨(h.eq i hi hty).1, ?_⟩
    rw [el, eu, (h.eq i hi hty).2, heq i hi hty]
  · have hb := hs.blocks
    match bc, hb with
    | none, _ => trivial
    | some (i, ST_INACTIVE), hb =>
      obtain ⟨_, k, hk, e, hty, h0, _⟩ := hb
      have hlt : i < s.nV := by rw [e, ← hn]; exact hw.fx_lt hk
      refine ⟨?_, ?_, ?_⟩
      · rw [eb, e]; exact WS.fx_mem hk
      · rw [eb]; exact hty
      · rw [ey i hlt, e, hfixY k hk, ← e]; exact h0
    | some (i, ST_LOWER), hb =>
      obtain ⟨_, hl, k, hk, e, hty, h0, _⟩ := hb
      have hm : i ∈ s.bounds.free := by rw [e]; exact WS.fr_mem hk
      have hlt : i < s.nV := by rw [← hn]; exact hw.lt_free hm
      refine ⟨by rw [eb]; exact hm, by rw [eb]; exact hty, ?_⟩
      rw [getMax_of_nonneg (sub_nonneg.2 ((h.inactive i hlt (hw.free i hm)).2.1 hl))] at h0
      have h2 := hfreeX k hk
      rw [← e] at h2
      rw [ex i hlt, el, h2]
      linarith [mul_sub tau (lbN i - s.lb i) (d.xFR k)]
    | some (i, ST_UPPER), hb =>
      obtain ⟨_, hl, k, hk, e, hty, h0, _⟩ := hb
      have hm : i ∈ s.bounds.free := by rw [e]; exact WS.fr_mem hk
      have hlt : i < s.nV := by rw [← hn]; exact hw.lt_free hm
      refine ⟨by rw [eb]; exact hm, by rw [eb]; exact hty, ?_⟩
      rw [getMax_of_nonneg (sub_nonneg.2 ((h.inactive i hlt (hw.free i hm)).2.2 hl))] at h0
      have h2 := hfreeX k hk
      rw [← e] at h2
      rw [ex i hlt, eu, h2]
      linarith [mul_sub tau (d.xFR k) (ubN i - s.ub i)]

/-! ### changing the working set -/

theorem Inv.congrNow {s s' : QPB K} (h : s.Inv) (hd : SameData s' s) (hb : s'.bounds = s.bounds) (hR : s'.R = s.R) : s'.Inv := by
  refine ⟨by rw [hb]; exact h.ws, by rw [hb, hd.nV]; exact h.n, h.factor.congr hd hb hR, by rw [hd.nV, hd.hess]; exact h.sym, ?_,
    by rw [hd.options]; exact h.options, by rw [hd.options, hd.nV, hd.ramp.1, hd.ramp.2]; exact h.ramp⟩
  have o := h.opt
  refine ⟨?_, ?_, ?_, ?_, ?_, ?_⟩
  · rw [hd.nV, hd.hess, hd.x, hd.g, hd.y]; exact o.stat
  · rw [hd.nV, hb, hd.x, hd.lb, hd.y]; exact o.lower
  · rw [hd.nV, hb, hd.x, hd.ub, hd.y]; exact o.upper
  · rw [hd.nV, hb, hd.x, hd.lb, hd.ub, hd.y]; exact o.inactive
  · rw [hd.nV, hd.lb, hd.ub]; exact o.box
  · rw [hd.nV, hb, hd.lb, hd.ub]; exact o.eq

theorem changeActiveSet_add {sq : K → K} {s : QPB K} (hsq : s.SqrtFor sq) (h : s.Inv) (hst : s.status = QPS_PERFORMINGHOMOTOPY)
    {k : Nat} {st : SubjectToStatus} (hk : k ∈ s.bounds.free) (hst' : st = ST_LOWER ∨ st = ST_UPPER)
    (hc : changeActiveSet sq s (some (k, st)) = match QPB.addBound sq s k st true with
      | (r, s) => .ok (if r ≠ SUCCESSFUL_RETURN then RET_ADD_TO_ACTIVESET_FAILED else SUCCESSFUL_RETURN, s))
    (hty : s.bounds.type k ≠ ST_EQUALITY) (hl : st = ST_LOWER → s.x k = s.lb k) (hu : st = ST_UPPER → s.x k = s.ub k) :
    ∃ r s', changeActiveSet sq s (some (k, st)) = .ok (r, s') ∧ (r = SUCCESSFUL_RETURN → s'.Inv ∧ SameProblem s' s ∧
      s'.tau = s.tau ∧ s'.status = s.status) := by
  rw [hc]
  have hF := h.factor.addBound hsq h.ws hst hk st
  rw [addBound_eq sq hst] at hF ⊢
  dsimp only
  refine ⟨_, _, rfl, fun _ => ?_⟩
  generalize (if s.hessianType ≠ HST_ZERO ∧ s.hessianType ≠ HST_IDENTITY then
        cholRemoveColumn sq s.bounds.nFR (s.bounds.free.idxOf k) s.R else s.R) = R at *
  have h1 := h.opt
  have hkn : k < s.nV := by rw [← h.n]; exact h.ws.lt_free hk
  have hy : s.y k = 0 := (h1.inactive k hkn (h.ws.free k hk)).1
  have hstatk : (s.bounds.moveFreeToFixed k st).status k = st := updA_same _ _ _
  have hstatne : ∀ i, i ≠ k → (s.bounds.moveFreeToFixed k st).status i = s.bounds.status i := fun i hi => updA_ne _ _ hi
  refine ⟨⟨h.ws.moveFreeToFixed hk hst', h.n, hF, h.sym, ⟨h1.stat, ?_, ?_, ?_, h1.box, ?_⟩, h.options, h.ramp⟩, ⟨rfl, rfl, rfl, rfl, rfl, rfl, rfl, rfl, ⟨Iff.rfl, Iff.rfl, rfl⟩⟩, rfl, rfl⟩
  · intro i hi hs
    replace hs : (s.bounds.moveFreeToFixed k st).status i = _ := hs
    by_cases hik : i = k
    · subst hik
      rw [hstatk] at hs
      exact ⟨hl hs, fun _ => hy.ge⟩
    · rw [hstatne i hik] at hs
      exact h1.lower i hi hs
  · intro i hi hs
    replace hs : (s.bounds.moveFreeToFixed k st).status i = _ := hs
    by_cases hik : i = k
    · subst hik
      rw [hstatk] at hs
      exact ⟨hu hs, fun _ => hy.le⟩
    · rw [hstatne i hik] at hs
      exact h1.upper i hi hs
  · intro i hi hs
    replace hs : (s.bounds.moveFreeToFixed k st).status i = _ := hs
    by_cases hik : i = k
    · subst hik
      rw [hstatk] at hs
      rcases hst' with e | e <;> rw [e] at hs <;> cases hs
    · rw [hstatne i hik] at hs
      exact h1.inactive i hi hs
  · intro i hi hs
    replace hs : s.bounds.type i = _ := hs
    have hik : i ≠ k := by rintro rfl; exact hty hs
    show (s.bounds.moveFreeToFixed k st).status i ≠ _ ∧ _
    rw [hstatne i hik]
    exact h1.eq i hi hs

/-- Changing the working set at the limit that stopped the step. -/
theorem changeActiveSet_spec {sq : K → K} {s : QPB K} (hsq : s.SqrtFor sq) (h : s.Inv) (hst : s.status = QPS_PERFORMINGHOMOTOPY)
    {bc : Option (Nat × SubjectToStatus)} (hbc : AtLimit s bc) :
    ∃ r s', changeActiveSet sq s bc = .ok (r, s') ∧ (r = SUCCESSFUL_RETURN → s'.Inv ∧ SameProblem s' s ∧
      s'.tau = s.tau ∧ s'.status = s.status) := by
  match bc, hbc with
  | none, _ => exact ⟨_, _, rfl, fun h => absurd h (by decide)⟩
  | some (k, ST_INACTIVE), hb =>
    obtain ⟨hk, hty, hy⟩ := hb
    obtain ⟨r, s', e, hr⟩ := removeBound_spec hsq h.factor h.ws h.n h.sym hst hk h.options.flip
    unfold changeActiveSet
    dsimp only
    rw [e]
    simp only [Res.bind_ok]
    have hkn : k < s.nV := by rw [← h.n]; exact h.ws.lt_fixed hk
    have hupd : updA s.y k 0 = s.y := by 
      funext j
      by_cases e : j = k
      · subst e; rw [updA_same, hy]
      · exact updA_ne _ _ e
    cases hr with
    | failed r s' hr =>
      rw [if_pos (by rcases hr with hr | hr <;> rw [hr] <;> decide)]
      exact ⟨_, _, rfl, fun h => absurd h (by decide)⟩
    | removed s1 R hd hbb hf =>
      rw [if_neg (by simp)]
      refine ⟨_, _, rfl, fun _ => ?_⟩
      have hy' : updA s1.y k 0 = s.y := by rw [hd.y]; exact hupd
      have e : ({ s1.removed k R with y := updA (s1.removed k R).y k 0 } : QPB K) = { s1.removed k R with y := s.y } := by
        show ({ s1.removed k R with y := updA s1.y k 0 } : QPB K) = _
        rw [hy']
      rw [e]
      have h1 := h.opt
      refine ⟨⟨?_, ?_, ?_, ?_, ?_, ?_, ?_⟩, ⟨hd.nV, hd.hess, ?_, hd.options, hd.chol, hd.regVal, ?_, ?_, hd.ident⟩, hd.tau, hd.status⟩
      · show (s1.bounds.moveFixedToFree k).OK
        rw [hbb]; exact h.ws.moveFixedToFree hk
      · show s1.bounds.n = s1.nV
        rw [hbb, hd.nV]; exact h.n
      · exact ⟨hf.scalar, hf.stored⟩
      · show Spec.QP.Symmetric s1.nV s1.Heff
        rw [hd.nV, hd.hess]; exact h.sym
      · have hstat : ∀ i, ((s1.removed k R).bounds.status i) = updA s.bounds.status k ST_INACTIVE i := by
          intro i; show (s1.bounds.moveFixedToFree k).status i = _; rw [hbb]; rfl
        have htype : (s1.removed k R).bounds.type = s.bounds.type := by
          show s1.bounds.type = _; rw [hbb]
        have hnl : (s1.removed k R).bounds.noLower = s.bounds.noLower := by show s1.bounds.noLower = _; rw [hbb]
        have hnu : (s1.removed k R).bounds.noUpper = s.bounds.noUpper := by show s1.bounds.noUpper = _; rw [hbb]
        refine ⟨?_, ?_, ?_, ?_, ?_, ?_⟩
        · show ∀ i < s1.nV, ∑ j ∈ range s1.nV, s1.Heff i j * s1.x j + s1.g i = s.y i
          rw [hd.nV, hd.hess, hd.x, hd.g]; exact h1.stat
        · intro i hi hs
          replace hi : i < s.nV := by rw [← hd.nV]; exact hi
          replace hs : (s1.removed k R).bounds.status i = _ := hs
          rw [hstat] at hs
          have hik : i ≠ k := by rintro rfl; rw [updA_same] at hs; cases hs
          rw [updA_ne _ _ hik] at hs
          show s1.x i = s1.lb i ∧ ((s1.removed k R).bounds.type i ≠ _ → 0 ≤ s.y i)
          rw [hd.x, hd.lb, htype]; exact h1.lower i hi hs
        · intro i hi hs
          replace hi : i < s.nV := by rw [← hd.nV]; exact hi
          replace hs : (s1.removed k R).bounds.status i = _ := hs
          rw [hstat] at hs
          have hik : i ≠ k := by rintro rfl; rw [updA_same] at hs; cases hs
          rw [updA_ne _ _ hik] at hs
          show s1.x i = s1.ub i ∧ ((s1.removed k R).bounds.type i ≠ _ → s.y i ≤ 0)
          rw [hd.x, hd.ub, htype]; exact h1.upper i hi hs
        · intro i hi hs
          replace hi : i < s.nV := by rw [← hd.nV]; exact hi
          replace hs : (s1.removed k R).bounds.status i = _ := hs
          rw [hstat] at hs
          show s.y i = 0 ∧ ((s1.removed k R).bounds.noLower = false → s1.lb i ≤ s1.x i) ∧
            ((s1.removed k R).bounds.noUpper = false → s1.x i ≤ s1.ub i)
          rw [hd.x, hd.ub, hd.lb, hnl, hnu]
          by_cases hik : i = k
          · subst hik
            have hbx := h1.box i hi
            refine ⟨hy, ?_⟩
            rcases h.ws.fixed _ hk with hq | hq
            · have := (h1.lower i hi hq).1
              exact ⟨fun _ => this.ge, fun _ => this.le.trans hbx⟩
            · have := (h1.upper i hi hq).1
              exact ⟨fun _ => hbx.trans this.ge, fun _ => this.le⟩
          · rw [updA_ne _ _ hik] at hs
            exact h1.inactive i hi hs
        · show ∀ i < s1.nV, s1.lb i ≤ s1.ub i
          rw [hd.nV, hd.lb, hd.ub]; exact h1.box
        · intro i hi hs
          replace hi : i < s.nV := by rw [← hd.nV]; exact hi
          replace hs : (s1.removed k R).bounds.type i = _ := hs
          rw [htype] at hs
          show (s1.removed k R).bounds.status i ≠ _ ∧ s1.lb i = s1.ub i
          have hik : i ≠ k := by rintro rfl; exact hty hs
          rw [hstat, updA_ne _ _ hik, hd.lb, hd.ub]
          exact h1.eq i hi hs
      · show OptionsOK s1.options
        rw [hd.options]; exact h.options
      · show s1.options.enableRamping = true → 2 ≤ s1.nV ∧ 0 ≤ s1.ramp0 ∧ 0 ≤ s1.ramp1
        rw [hd.options, hd.nV, hd.ramp.1, hd.ramp.2]; exact h.ramp
      · show s1.bounds.type = _; rw [hbb]
      · show s1.bounds.noLower = _; rw [hbb]
      · show s1.bounds.noUpper = _; rw [hbb]
    | flipped s1 hd hbb hf _ =>
      rw [if_neg (by simp)]
      refine ⟨_, _, rfl, fun _ => ?_⟩
      have hy' : updA s1.y k 0 = s.y := by rw [hd.y]; exact hupd
      have e : ({ s1.flipped k with y := updA (s1.flipped k).y k 0 } : QPB K) = { s1.flipped k with y := s.y } := by
        show ({ s1.flipped k with y := updA s1.y k 0 } : QPB K) = _
        rw [hy']
      rw [e]
      have h1 := h.opt
      obtain ⟨f1, f2, f3, f4, f5, f6, f7⟩ := s.bounds.flipFixed_fields k
      have hbnd : (s1.flipped k).bounds = s.bounds.flipFixed k := by show s1.bounds.flipFixed k = _; rw [hbb]
      have hlb : (s1.flipped k).lb = if s.bounds.status k = ST_UPPER then updA s.lb k (s.ub k) else s.lb := by
        show (if s1.bounds.status k = _ then updA s1.lb k (s1.ub k) else s1.lb) = _
        rw [hbb, hd.lb, hd.ub]
      have hub : (s1.flipped k).ub = if s.bounds.status k = ST_LOWER then updA s.ub k (s.lb k) else s.ub := by
        show (if s1.bounds.status k = _ then updA s1.ub k (s1.lb k) else s1.ub) = _
        rw [hbb, hd.lb, hd.ub]
      have hlbne : ∀ i, i ≠ k → (s1.flipped k).lb i = s.lb i := by
        intro i hik; rw [hlb]; split
        · exact updA_ne _ _ hik
        · rfl
      have hubne : ∀ i, i ≠ k → (s1.flipped k).ub i = s.ub i := by
        intro i hik; rw [hub]; split
        · exact updA_ne _ _ hik
        · rfl
      -- at `k` both limits equal `x`
      have hatk : (s1.flipped k).lb k = s.x k ∧ (s1.flipped k).ub k = s.x k := by
        rw [hlb, hub]
        rcases h.ws.fixed _ hk with hq | hq
        · have := (h1.lower k hkn hq).1
          rw [if_neg (by rw [hq]; decide), if_pos hq, updA_same, this]
          exact ⟨rfl, rfl⟩
        · have := (h1.upper k hkn hq).1
          rw [if_pos hq, if_neg (by rw [hq]; decide), updA_same, this]
          exact ⟨rfl, rfl⟩
      refine ⟨⟨?_, ?_, ?_, ?_, ?_, ?_, ?_⟩, ⟨hd.nV, hd.hess, ?_, hd.options, hd.chol, hd.regVal, ?_, ?_, hd.ident⟩, hd.tau, hd.status⟩
      · show (s1.flipped k).bounds.OK
        rw [hbnd]; exact h.ws.flipFixed hk
      · show (s1.flipped k).bounds.n = s1.nV
        rw [hbnd, f1, hd.nV]; exact h.n
      · exact ⟨hf.scalar, hf.stored⟩
      · show Spec.QP.Symmetric s1.nV s1.Heff
        rw [hd.nV, hd.hess]; exact h.sym
      · refine ⟨?_, ?_, ?_, ?_, ?_, ?_⟩
        · show ∀ i < s1.nV, ∑ j ∈ range s1.nV, s1.Heff i j * s1.x j + s1.g i = s.y i
          rw [hd.nV, hd.hess, hd.x, hd.g]; exact h1.stat
        · intro i hi hs
          replace hi : i < s.nV := by rw [← hd.nV]; exact hi
          replace hs : (s1.flipped k).bounds.status i = _ := hs
          rw [hbnd] at hs
          show s1.x i = (s1.flipped k).lb i ∧ ((s1.flipped k).bounds.type i ≠ _ → 0 ≤ s.y i)
          rw [hd.x, hbnd, f4]
          by_cases hik : i = k
          · subst hik; exact ⟨hatk.1.symm, fun _ => hy.ge⟩
          · rw [f7 i hik] at hs
            rw [hlbne i hik]; exact h1.lower i hi hs
        · intro i hi hs
          replace hi : i < s.nV := by rw [← hd.nV]; exact hi
          replace hs : (s1.flipped k).bounds.status i = _ := hs
          rw [hbnd] at hs
          show s1.x i = (s1.flipped k).ub i ∧ ((s1.flipped k).bounds.type i ≠ _ → s.y i ≤ 0)
          rw [hd.x, hbnd, f4]
          by_cases hik : i = k
          · subst hik; exact ⟨hatk.2.symm, fun _ => hy.le⟩
          · rw [f7 i hik] at hs
            rw [hubne i hik]; exact h1.upper i hi hs
        · intro i hi hs
          replace hi : i < s.nV := by rw [← hd.nV]; exact hi
          replace hs : (s1.flipped k).bounds.status i = _ := hs
          rw [hbnd] at hs
          show s.y i = 0 ∧ ((s1.flipped k).bounds.noLower = false → (s1.flipped k).lb i ≤ s1.x i) ∧
            ((s1.flipped k).bounds.noUpper = false → s1.x i ≤ (s1.flipped k).ub i)
          rw [hd.x, hbnd, f5, f6]
          by_cases hik : i = k
          · subst hik
            exact ⟨hy, fun _ => hatk.1.le, fun _ => hatk.2.ge⟩
          · rw [f7 i hik] at hs
            rw [hlbne i hik, hubne i hik]; exact h1.inactive i hi hs
        · intro i hi
          replace hi : i < s.nV := by rw [← hd.nV]; exact hi
          show (s1.flipped k).lb i ≤ (s1.flipped k).ub i
          by_cases hik : i = k
          · subst hik; rw [hatk.1, hatk.2]
          · rw [hlbne i hik, hubne i hik]; exact h1.box i hi
        · intro i hi hs
          replace hi : i < s.nV := by rw [← hd.nV]; exact hi
          replace hs : (s1.flipped k).bounds.type i = _ := hs
          rw [hbnd, f4] at hs
          show (s1.flipped k).bounds.status i ≠ _ ∧ (s1.flipped k).lb i = (s1.flipped k).ub i
          have hik : i ≠ k := by rintro rfl; exact hty hs
          rw [hbnd, f7 i hik, hlbne i hik, hubne i hik]
          exact h1.eq i hi hs
      · show OptionsOK s1.options
        rw [hd.options]; exact h.options
      · show s1.options.enableRamping = true → 2 ≤ s1.nV ∧ 0 ≤ s1.ramp0 ∧ 0 ≤ s1.ramp1
        rw [hd.options, hd.nV, hd.ramp.1, hd.ramp.2]; exact h.ramp
      · show (s1.flipped k).bounds.type = _; rw [hbnd, f4]
      · show (s1.flipped k).bounds.noLower = _; rw [hbnd, f5]
      · show (s1.flipped k).bounds.noUpper = _; rw [hbnd, f6]
  | some (k, ST_LOWER), hb =>
    obtain ⟨hk, hty, hx⟩ := hb
    exact changeActiveSet_add hsq h hst hk (Or.inl rfl) rfl hty (fun _ => hx) (fun e => by cases e)
  | some (k, ST_UPPER), hb =>
    obtain ⟨hk, hty, hx⟩ := hb
    exact changeActiveSet_add hsq h hst hk (Or.inr rfl) rfl hty (fun e => by cases e) (fun _ => hx)

end QPB
end QpOASES
