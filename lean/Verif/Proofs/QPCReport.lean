import Verif.Proofs.QPCSession
import Verif.Proofs.QPCOutcome
import Verif.Spec.Report

/-!
What a report of infeasibility or unboundedness means: where the homotopy would have gone with the working set of its last step.
-/
namespace QpOASES
open Finset Props Spec SubjectToStatus SubjectToType ReturnValue HessianType QProblemStatus
open QPB (lowerOf upperOf sg DenOK sg_sub sg_ne ratioTest_spec)

set_option linter.unusedSectionVars false

variable {K : Type} [Field K] [LinearOrder K] [IsStrictOrderedRing K]

namespace QPC

/-- What is wrong with the point the step was aimed at. -/
def Wrong (s : QPC K) (lbN ubN lbAN ubAN p qB qC : Nat → K) : Change → Prop
  | ⟨true, i, ST_INACTIVE⟩ => sg s.bounds i (qB i) < 0
  | ⟨false, i, ST_INACTIVE⟩ => sg s.cons i (qC i) < 0
  | ⟨true, i, ST_LOWER⟩ => p i < lbN i
  | ⟨true, i, ST_UPPER⟩ => ubN i < p i
  | ⟨false, i, ST_LOWER⟩ => s.prodA p i < lbAN i
  | ⟨false, i, ST_UPPER⟩ => ubAN i < s.prodA p i
  | _ => False

/-- The primal point `p` with the multipliers `qB`, `qC` is stationary for the requested data and the current working set, and the member
that stopped the step is in its way. -/
structure Aim (s : QPC K) (gN lbN ubN lbAN ubAN p qB qC : Nat → K) (c : Change) : Prop where
  stat : ∀ i < s.nV, ∑ j ∈ range s.nV, s.Heff i j * p j + gN i = qB i + ∑ k ∈ range s.nC, s.A k i * qC k
  freeB : ∀ i ∈ s.bounds.free, qB i = 0
  freeC : ∀ i ∈ s.cons.free, qC i = 0
  actB : ∀ i ∈ s.bounds.fixed, p i = if s.bounds.status i = ST_LOWER then lbN i else ubN i
  actC : ∀ i ∈ s.cons.fixed, s.prodA p i = if s.cons.status i = ST_LOWER then lbAN i else ubAN i
  wrong : Wrong s lbN ubN lbAN ubAN p qB qC c

theorem sg_scale {w : WS} {i : Nat} {y dy t : K} (h0 : y + t * dy = 0) (ht : t < 1) (hd : 0 < sg w i (-dy)) : sg w i (y + dy) < 0 := by
  have hp := mul_pos (sub_pos.2 ht) hd
  have e : y + dy = -((1 - t) * -dy) := by linear_combination h0
  have e' : sg w i (-((1 - t) * -dy)) = -((1 - t) * sg w i (-dy)) := by
    unfold sg; split <;> ring
  rw [e, e']
  linarith

/-- Active members are at their limits. -/
theorem active_at {w : WS} {obs : Nat → Prop} {v l u y : Nat → K} {n : Nat} (h : SideOK w obs v l u y n) (hw : w.OK) (hn : w.n = n) :
    ∀ i ∈ w.fixed, v i = if w.status i = ST_LOWER then l i else u i := by
  intro i hi
  have hlt : i < n := by rw [← hn]; exact hw.lt_fixed hi
  rcases hw.fixed i hi with e | e
  · rw [if_pos e]; exact (h.lower i hlt e).1
  · rw [if_neg (by rw [e]; decide)]; exact (h.upper i hlt e).1

theorem performStep_aim {s s1 : QPC K} (h : s.Good) (hp : s.Params) (hden : 0 < s.options.epsDen) {gN lbN ubN lbAN ubAN : Nat → K} (hT : Target s lbN ubN lbAN ubAN)
    {bC bB : Bool} {d : Dir K} {c : Change} (hd : DirOK s (s.shiftTo gN lbN ubN lbAN ubAN) bC bB d)
    (hzB : bB = true → ∀ i ∈ s.bounds.fixed, (if s.bounds.status i = ST_LOWER then lbN i - s.lb i else ubN i - s.ub i) = 0)
    (hzC : bC = true → ∀ i ∈ s.cons.fixed, (if s.cons.status i = ST_LOWER then lbAN i - s.lbA i else ubAN i - s.ubA i) = 0)
    (hnt : NoTiny s (s.shiftTo gN lbN ubN lbAN ubAN) d)
    (hl : ∀ tau bc, stepLength s (s.shiftTo gN lbN ubN lbAN ubAN) d = .ok (tau, bc) → (tau = 0 ∨ ZERO < tau) ∧ HasLimit s bc)
    (he : performStep s (s.shiftTo gN lbN ubN lbAN ubAN) d = .ok (s1, some c)) :
    ∃ p qB qC, Aim s1 gN lbN ubN lbAN ubAN p qB qC c := by
  obtain ⟨_, _, _, hL, _, _, _⟩ := performStep_spec h hp hT hd hzB hzC hnt hl he
  have hs := h.facs.shape
  have hwB := hs.okB
  have hwC := hs.okC
  obtain ⟨tau, bc', e, t0, t1, hst, hbl⟩ := stepLength_spec hs.okB hs.okC hp.options.epsNum hp.options.epsDen
    (h.opt.cons.sign hs.okC hs.nC) (h.opt.bounds.sign hs.okB hs.nB) (s.shiftTo gN lbN ubN lbAN ubAN) d
  obtain ⟨ht, hlim⟩ := hl tau bc' e
  unfold performStep at he
  rw [e] at he
  simp only [Res.bind_ok, Res.ok.injEq, Prod.mk.injEq] at he
  obtain ⟨he, rfl⟩ := he
  obtain ⟨ex, ey, eyc, eg, el, eu, elA, euA, eA⟩ := takeStep_data hs (s.shiftTo gN lbN ubN lbAN ubAN) d ht
  have ef := takeStep_fields s (s.shiftTo gN lbN ubN lbAN ubAN) d tau
  rw [he] at ex el eu elA euA ef
  have enV : s1.nV = s.nV := by rw [ef]
  have enC : s1.nC = s.nC := by rw [ef]
  have eb : s1.bounds = s.bounds := by rw [ef]
  have ec : s1.cons = s.cons := by rw [ef]
  have eH : s1.Heff = s.Heff := by rw [ef]; rfl
  have eAm : s1.A = s.A := by rw [ef]
  have eP : ∀ x, s1.prodA x = s.prodA x := fun x => by rw [ef]; rfl
  have exA : ∀ i, s1.prodA s1.x i = s.prodA s.x i + tau * s.dirAx d i := fun i => by rw [eP]; exact prodA_add s ex i
  have hpA : ∀ i, s.prodA (fun j => s.x j + s.dirX d j) i = s.prodA s.x i + 1 * s.dirAx d i := fun i =>
    prodA_add s (fun j _ => by rw [one_mul]) i
  have hactB : ∀ i ∈ s.bounds.fixed, s.dirX d i = if s.bounds.status i = ST_LOWER then lbN i - s.lb i else ubN i - s.ub i := by
    intro i hi
    have hk := WS.idxOf_fx_lt hi
    have e := dirX_fx hwB d hk
    have e' := hd.bounds _ hk
    unfold dirFX at e'
    rw [show s.fx (s.bounds.fixed.idxOf i) = i from WS.fx_idxOf hi] at e e'
    rw [e, e']
    by_cases hzz : bB = true
    · rw [if_pos hzz, hzB hzz i hi]
    · rw [if_neg hzz, WS.getStatus_of_lt (w := s.bounds) (hwB.lt_fixed hi)]
      rfl
  have hactC : ∀ i ∈ s.cons.fixed, s.dirAx d i = if s.cons.status i = ST_LOWER then lbAN i - s.lbA i else ubAN i - s.ubA i := by
    intro i hi
    have hk := WS.idxOf_fx_lt hi
    have e' := hd.cons _ hk
    unfold shiftAC at e'
    rw [show s.ac (s.cons.fixed.idxOf i) = i from WS.fx_idxOf hi] at e'
    rw [e']
    by_cases hzz : bC = true
    · rw [if_pos hzz, hzC hzz i hi]
    · rw [if_neg hzz, WS.getStatus_of_lt (w := s.cons) (hwC.lt_fixed hi)]
      rfl
  refine ⟨fun i => s.x i + s.dirX d i, fun i => s.y i + s.dirY d i, fun k => s.y (s.nV + k) + s.dirYC d k, ?_, ?_, ?_, ?_, ?_, ?_⟩
  · rw [enV, enC, eH, eAm]
    intro i hi
    have g := hd.stat i hi
    have g0 := h.opt.stat i hi
    have g : ∑ j ∈ range s.nV, s.Heff i j * s.dirX d j + (gN i - s.g i) = s.dirY d i + ∑ k ∈ range s.nC, s.A k i * s.dirYC d k := g
    simp only [mul_add, sum_add_distrib]
    linear_combination g + g0
  · rw [eb]
    intro i hi
    have hlt : i < s.nV := by rw [← hs.nB]; exact hwB.lt_free hi
    have e1 := (h.opt.bounds.inactive i hlt (hwB.free i hi)).1
    have e2 : s.dirY d i = 0 := by
      unfold dirY WS.scatter; exact if_pos hi
    show s.y i + s.dirY d i = 0
    rw [e1, e2, add_zero]
  · rw [ec]
    intro i hi
    have hlt : i < s.nC := by rw [← hs.nC]; exact hwC.lt_free hi
    have e1 : s.y (s.nV + i) = 0 := (h.opt.cons.inactive i hlt (hwC.free i hi)).1
    have e2 : s.dirYC d i = 0 := by
      unfold dirYC WS.scatter; exact if_pos hi
    show s.y (s.nV + i) + s.dirYC d i = 0
    rw [e1, e2, add_zero]
  · rw [eb]
    intro i hi
    have e1 := active_at h.opt.bounds hwB hs.nB i hi
    show s.x i + s.dirX d i = _
    rw [hactB i hi, e1]
    split <;> ring
  · rw [ec]
    intro i hi
    have e1 := active_at h.opt.cons hwC hs.nC i hi
    rw [eP, hpA, hactC i hi, e1]
    split <;> ring
  · rcases c with ⟨isB, i, st⟩
    rcases isB with _ | _ <;> cases st <;> try exact hbl
    · obtain ⟨t1, _, _, _, _, r⟩ := hbl
      obtain ⟨_, _, e⟩ := hL
      show s1.prodA _ i < lbAN i
      rw [eP, hpA]
      rw [exA, elA] at e
      have hpos := mul_pos (sub_pos.2 t1) (lt_of_lt_of_le hden r)
      have : lbAN i - (s.prodA s.x i + 1 * s.dirAx d i) = (1 - tau) * ((s.shiftTo gN lbN ubN lbAN ubAN).lbA i - s.dirAx d i) := by
        show _ = (1 - tau) * (lbAN i - s.lbA i - s.dirAx d i)
        have e : s.prodA s.x i + tau * s.dirAx d i = s.lbA i + tau * (lbAN i - s.lbA i) := e
        linear_combination -e
      linarith
    · obtain ⟨t1, k, hk, hik, _, e0, r⟩ := hbl
      show sg s1.cons i (s.y (s.nV + i) + s.dirYC d i) < 0
      rw [ec]
      have e2 : s.dirYC d i = d.yAC k := by rw [hik]; exact hwC.scatter_fx _ _ hk
      rw [e2]
      exact sg_scale e0 t1 (lt_of_lt_of_le hden r)
    · obtain ⟨t1, _, _, _, _, r⟩ := hbl
      obtain ⟨_, _, e⟩ := hL
      show ubAN i < s1.prodA _ i
      rw [eP, hpA]
      rw [exA, euA] at e
      have hpos := mul_pos (sub_pos.2 t1) (lt_of_lt_of_le hden r)
      have : (s.prodA s.x i + 1 * s.dirAx d i) - ubAN i = (1 - tau) * (s.dirAx d i - (s.shiftTo gN lbN ubN lbAN ubAN).ubA i) := by
        show _ = (1 - tau) * (s.dirAx d i - (ubAN i - s.ubA i))
        have e : s.prodA s.x i + tau * s.dirAx d i = s.ubA i + tau * (ubAN i - s.ubA i) := e
        linear_combination e
      linarith
    · obtain ⟨t1, _, k, hk, hik, _, _, r⟩ := hbl
      obtain ⟨hm, _, e⟩ := hL
      have hlt : i < s.nV := by rw [← hs.nB, ← eb]; exact (eb ▸ hwB : s1.bounds.OK).lt_free hm
      have e2 : d.xFR k = s.dirX d i := by rw [hik]; exact (dirX_fr hwB d hk).symm
      rw [e2] at r
      show s.x i + s.dirX d i < lbN i
      rw [ex i hlt, el] at e
      have hpos := mul_pos (sub_pos.2 t1) (lt_of_lt_of_le hden r)
      have : lbN i - (s.x i + s.dirX d i) = (1 - tau) * ((s.shiftTo gN lbN ubN lbAN ubAN).lb i - s.dirX d i) := by
        show _ = (1 - tau) * (lbN i - s.lb i - s.dirX d i)
        have e : s.x i + tau * s.dirX d i = s.lb i + tau * (lbN i - s.lb i) := e
        linear_combination -e
      linarith
    · obtain ⟨t1, k, hk, hik, _, e0, r⟩ := hbl
      show sg s1.bounds i (s.y i + s.dirY d i) < 0
      rw [eb]
      have e2 : s.dirY d i = d.yFX k := by rw [hik]; exact hwB.scatter_fx _ _ hk
      rw [e2]
      exact sg_scale e0 t1 (lt_of_lt_of_le hden r)
    · obtain ⟨t1, _, k, hk, hik, _, _, r⟩ := hbl
      obtain ⟨hm, _, e⟩ := hL
      have hlt : i < s.nV := by rw [← hs.nB, ← eb]; exact (eb ▸ hwB : s1.bounds.OK).lt_free hm
      have e2 : d.xFR k = s.dirX d i := by rw [hik]; exact (dirX_fr hwB d hk).symm
      rw [e2] at r
      show ubN i < s.x i + s.dirX d i
      rw [ex i hlt, eu] at e
      have hpos := mul_pos (sub_pos.2 t1) (lt_of_lt_of_le hden r)
      have : (s.x i + s.dirX d i) - ubN i = (1 - tau) * (s.dirX d i - (s.shiftTo gN lbN ubN lbAN ubAN).ub i) := by
        show _ = (1 - tau) * (s.dirX d i - (ubN i - s.ub i))
        have e : s.x i + tau * s.dirX d i = s.ub i + tau * (ubN i - s.ub i) := e
        linear_combination e
      linarith

/-! ### infeasibility -/

/-- The QP a run is asked to solve, with the Hessian and the constraint matrix of the object -/
def asked (s : QPC K) (gN lbN ubN lbAN ubAN : Nat → K) : QP K := qp s.nV s.nC s.Heff gN lbN ubN s.A lbAN ubAN

theorem sg_le_abs (w : WS) (i : Nat) (v : K) : sg w i v ≤ |v| := by
  unfold sg; split
  · exact neg_le_abs v
  · exact le_abs_self v

theorem sg_abs {w : WS} {i : Nat} {v : K} (h : 0 < sg w i v) : |v| = sg w i v := by
  unfold sg at h ⊢; split at h
  · next hc => rw [if_pos hc, abs_of_neg (by linarith)]
  · next hc => rw [if_neg hc, abs_of_pos h]

/-- With coefficients that none of the active members can leave its limit for, the combination of their values is largest at their limits. -/
theorem side_le {w : WS} (hw : w.OK) {xi l u z p : Nat → K} (hact : ∀ i ∈ w.fixed, p i = if w.status i = ST_LOWER then l i else u i)
    (hz : ∀ i < w.n, l i ≤ z i ∧ z i ≤ u i) (heq : ∀ i < w.n, w.type i = ST_EQUALITY → l i = u i)
    (hn : ∀ k < w.nFX, w.type (w.fx k) ≠ ST_EQUALITY → sg w (w.fx k) (xi k) ≤ 0) {i : Nat} (hi : i < w.n) :
    w.scatter (fun _ => 0) xi i * z i ≤ w.scatter (fun _ => 0) xi i * p i := by
  rcases hw.mem_iff.1 hi with hm | hm
  · have e : w.scatter (fun _ => (0 : K)) xi i = 0 := by unfold WS.scatter; exact if_pos hm
    rw [e, zero_mul, zero_mul]
  · have hk := WS.idxOf_fx_lt hm
    have hik : w.fx (w.fixed.idxOf i) = i := WS.fx_idxOf hm
    have e : w.scatter (fun _ => (0 : K)) xi i = xi (w.fixed.idxOf i) := by
      have := hw.scatter_fx (fun _ => (0 : K)) xi hk
      rwa [hik] at this
    rw [e]
    have h1 := hn _ hk
    rw [hik] at h1
    have hp := hact i hm
    obtain ⟨z1, z2⟩ := hz i hi
    by_cases hty : w.type i = ST_EQUALITY
    · have := heq i hi hty
      have ez : z i = p i := by
        rw [hp]; split
        · exact le_antisymm (this ▸ z2) z1
        · exact le_antisymm z2 (this ▸ z1)
      rw [ez]
    · have h1 := h1 hty
      unfold sg at h1
      rcases hw.fixed i hm with es | es
      · rw [es, if_neg (by decide)] at h1
        rw [if_pos es] at hp
        rw [hp]
        exact mul_le_mul_of_nonpos_left z1 h1
      · rw [es, if_pos rfl] at h1
        rw [if_neg (by rw [es]; decide)] at hp
        rw [hp]
        exact mul_le_mul_of_nonneg_left z2 (by linarith)

/-- No member can leave for the one that is to enter: the requested QP is infeasible, unless a multiplier is beyond the limit of the test. -/
theorem resolveLI_infeasible {sq : K → K} {s s' : QPC K} (h : s.Good) (hO : OptionsOK s.options) {gN lbN ubN lbAN ubAN : Nat → K}
    (hT : Target s lbN ubN lbAN ubAN) {number : Nat} {st : SubjectToStatus} (hst : st = ST_LOWER ∨ st = ST_UPPER) {isB : Bool}
    {e xiC xiB : Nat → K} (hdep : s.LIDep e xiC xiB) (hnum : if isB then number ∈ s.bounds.free else number ∈ s.cons.free)
    (hE : ∀ i < s.nV, e i = dirSign st * (if isB then (if i = number then 1 else 0) else s.A number i))
    (hc : CleanResolve sq s xiC xiB) {p qB qC : Nat → K} (ha : Aim s gN lbN ubN lbAN ubAN p qB qC ⟨isB, number, st⟩)
    (heq : resolveLI sq s number st isB xiC xiB = .ok (RET_ENSURELI_FAILED_NOINDEX, s')) :
    (s.asked gN lbN ubN lbAN ubAN).Infeasible ∨ (s.asked gN lbN ubN lbAN ubAN).HugeMultiplier s.y s.options.maxDualJump := by
  have hs := h.facs.shape
  have hwB := hs.okB
  have hwC := hs.okC
  have hyC := h.opt.cons.sign hwC hs.nC
  have hyB := h.opt.bounds.sign hwB hs.nB
  obtain ⟨t1, bc, r1, p1, q1, c1, d1⟩ := ratioTest_spec (w := s.cons) (num := fun i => s.y (s.nV + s.ac i)) (den := xiC) hO.epsNum hO.epsDen s.cons.fixed 0
    s.options.maxDualJump none hO.jump (fun ii h => ⟨hwC.lt_fixed h, Or.inr (hwC.fixed ii h)⟩) (fun k hk hty => by rw [Nat.zero_add]; exact hyC k hk hty)
  obtain ⟨t, bb, r2, p2, q2, c2, d2⟩ := ratioTest_spec (w := s.bounds) (num := fun i => s.y (s.fx i)) (den := xiB) hO.epsNum hO.epsDen s.bounds.fixed 0
    t1 none p1 (fun ii h => ⟨hwB.lt_fixed h, Or.inr (hwB.fixed ii h)⟩) (fun k hk hty => by rw [Nat.zero_add]; exact hyB k hk hty)
  unfold resolveLI at heq
  dsimp only at heq
  rw [r1] at heq
  simp only [Res.bind_ok] at heq
  rw [r2] at heq
  simp only [Res.bind_ok] at heq
  have hnone : bc = none ∧ bb = none := by
    split at heq
    · next hc => simpa using hc
    · exfalso
      split at heq
      · rw [Res.bind_eq_ok] at heq
        obtain ⟨⟨r, s2⟩, _, heq⟩ := heq
        dsimp only at heq
        split at heq <;> · simp only [Res.ok.injEq, Prod.mk.injEq] at heq; exact absurd heq.1 (by decide)
      · rw [Res.bind_eq_ok] at heq
        obtain ⟨⟨r, s2⟩, _, heq⟩ := heq
        dsimp only at heq
        split at heq <;> · simp only [Res.ok.injEq, Prod.mk.injEq] at heq; exact absurd heq.1 (by decide)
      · simp only [Res.ok.injEq, Prod.mk.injEq] at heq; exact absurd heq.1 (by decide)
  obtain ⟨rfl, rfl⟩ := hnone
  have ht1 : t1 = s.options.maxDualJump := by
    rcases d1 with d | ⟨k, _, d, _⟩
    · exact d.2
    · cases d
  have ht : t = s.options.maxDualJump := by
    rcases d2 with d | ⟨k, _, d, _⟩
    · exact d.2.trans ht1
    · cases d
  rw [ht1] at c1
  rw [ht] at c2
  set J := s.options.maxDualJump with hJ
  set V := s.bounds.scatter (fun _ => (0 : K)) xiB with hV
  set W := s.cons.scatter (fun _ => (0 : K)) xiC with hW
  have hVx : ∀ k < s.nFX, V (s.fx k) = xiB k := fun k hk => hwB.scatter_fx _ _ hk
  have hWx : ∀ k < s.nAC, W (s.ac k) = xiC k := fun k hk => hwC.scatter_fx _ _ hk
  have hdep : ∀ i < s.nV, e i = V i + ∑ k ∈ range s.nC, s.A k i * W k := hdep
  -- the combination with the entering member folded in
  have hhuge : ((∃ i < s.nV, i ∈ s.bounds.fixed ∧ V i ≠ 0 ∧ J * |V i| ≤ |s.y i|) ∨ ∃ k < s.nC, k ∈ s.cons.fixed ∧ W k ≠ 0 ∧ J * |W k| ≤ |s.y (s.nV + k)|) →
      (s.asked gN lbN ubN lbAN ubAN).HugeMultiplier s.y J := by
    intro hl
    have hone : |dirSign st (K := K)| = 1 := by
      rcases hst with rfl | rfl
      · simp [dirSign]
      · rw [dirSign, if_neg (by decide)]; simp
    cases isB with
    | true =>
      have hlt : number < s.nV := by rw [← hs.nB]; exact hwB.lt_free hnum
      have hV0 : V number = 0 := by rw [hV]; unfold WS.scatter; exact if_pos hnum
      have hsame : ∀ i ∈ s.bounds.fixed, i ≠ number := fun i hi he => hwB.disjoint hnum (he ▸ hi)
      refine ⟨fun i => V i - dirSign st * (if i = number then 1 else 0), W, fun i hi => ?_, Or.inl ⟨number, hlt, ?_, ?_⟩, ?_⟩
      · have h1 := hdep i hi
        have h2 := hE i hi
        simp only [if_true] at h2
        change V i - dirSign st * (if i = number then 1 else 0) + ∑ k ∈ range s.nC, s.A k i * W k = 0
        rw [← h2, h1]; ring
      · show |V number - dirSign st * (if number = number then 1 else 0)| = 1
        rw [hV0, if_pos rfl, mul_one, zero_sub, abs_neg, hone]
      · exact (h.opt.bounds.inactive number hlt (hwB.free _ hnum)).1
      · rcases hl with ⟨i, h1, h2, h3, h4⟩ | ⟨k, h1, h2, h3, h4⟩
        · have e : V i - dirSign st * (if i = number then (1 : K) else 0) = V i := by rw [if_neg (hsame i h2)]; ring
          exact Or.inl ⟨i, h1, by show V i - _ ≠ 0; rw [e]; exact h3, by show J * |V i - _| ≤ _; rw [e]; exact h4⟩
        · exact Or.inr ⟨k, h1, h3, h4⟩
    | false =>
      have hlt : number < s.nC := by rw [← hs.nC]; exact hwC.lt_free hnum
      have hW0 : W number = 0 := by rw [hW]; unfold WS.scatter; exact if_pos hnum
      have hsame : ∀ i ∈ s.cons.fixed, i ≠ number := fun i hi he => hwC.disjoint hnum (he ▸ hi)
      refine ⟨V, fun k => W k - dirSign st * (if k = number then 1 else 0), fun i hi => ?_, Or.inr ⟨number, hlt, ?_, ?_⟩, ?_⟩
      · have h1 := hdep i hi
        have h2 := hE i hi
        simp only [Bool.false_eq_true, if_false] at h2
        change V i + ∑ k ∈ range s.nC, s.A k i * (W k - dirSign st * (if k = number then 1 else 0)) = 0
        have h3 : ∑ k ∈ range s.nC, s.A k i * (W k - dirSign st * (if k = number then 1 else 0))
            = ∑ k ∈ range s.nC, s.A k i * W k - dirSign st * s.A number i := by
          rw [sum_congr rfl fun k _ => mul_sub (s.A k i) (W k) _, sum_sub_distrib]
          congr 1
          rw [sum_eq_single number]
          · rw [if_pos rfl]; ring
          · intro k _ hne; rw [if_neg hne]; ring
          · intro hn; exact absurd (mem_range.2 hlt) hn
        rw [h3, ← h2, h1]; ring
      · show |W number - dirSign st * (if number = number then 1 else 0)| = 1
        rw [hW0, if_pos rfl, mul_one, zero_sub, abs_neg, hone]
      · exact (h.opt.cons.inactive number hlt (hwC.free _ hnum)).1
      · rcases hl with ⟨i, h1, h2, h3, h4⟩ | ⟨k, h1, h2, h3, h4⟩
        · exact Or.inl ⟨i, h1, h3, h4⟩
        · have e : W k - dirSign st * (if k = number then (1 : K) else 0) = W k := by rw [if_neg (hsame k h2)]; ring
          exact Or.inr ⟨k, h1, by show W k - _ ≠ 0; rw [e]; exact h3, by show J * |W k - _| ≤ _; rw [e]; exact h4⟩
  by_cases hB : ∃ k < s.nFX, s.bounds.type (s.fx k) ≠ ST_EQUALITY ∧ 0 < sg s.bounds (s.fx k) (xiB k)
  case pos =>
    obtain ⟨k, hk, hty, hpos⟩ := hB
    have hm := WS.fx_mem hk
    refine Or.inr (hhuge (Or.inl ⟨s.fx k, by rw [← hs.nB]; exact hwB.lt_fixed hm, hm, ?_, ?_⟩))
    · rw [hVx k hk]; intro he; rw [he] at hpos; simp [sg] at hpos
    · rw [hVx k hk, sg_abs hpos]
      have := c2 k hk hty (by rw [Nat.zero_add]; exact hc.denB k hk hty)
      rw [Nat.zero_add] at this
      change 0 ≤ sg s.bounds (s.fx k) (s.y (s.fx k)) - J * sg s.bounds (s.fx k) (xiB k) at this
      exact (by linarith : J * sg s.bounds (s.fx k) (xiB k) ≤ sg s.bounds (s.fx k) (s.y (s.fx k))).trans (sg_le_abs _ _ _)
  by_cases hC : ∃ k < s.nAC, s.cons.type (s.ac k) ≠ ST_EQUALITY ∧ 0 < sg s.cons (s.ac k) (xiC k)
  case pos =>
    obtain ⟨k, hk, hty, hpos⟩ := hC
    have hm : s.ac k ∈ s.cons.fixed := WS.fx_mem hk
    refine Or.inr (hhuge (Or.inr ⟨s.ac k, by rw [← hs.nC]; exact hwC.lt_fixed hm, hm, ?_, ?_⟩))
    · rw [hWx k hk]; intro he; rw [he] at hpos; simp [sg] at hpos
    · rw [hWx k hk, sg_abs hpos]
      have := c1 k hk hty (by rw [Nat.zero_add]; exact hc.denC k hk hty)
      rw [Nat.zero_add] at this
      change 0 ≤ sg s.cons (s.ac k) (s.y (s.nV + s.ac k)) - J * sg s.cons (s.ac k) (xiC k) at this
      exact (by linarith : J * sg s.cons (s.ac k) (xiC k) ≤ sg s.cons (s.ac k) (s.y (s.nV + s.ac k))).trans (sg_le_abs _ _ _)
  refine Or.inl fun z hz => ?_
  simp only [not_exists, not_and, not_lt] at hB hC
  have hrow : ∀ x k, QP.row s.nV s.A x k = s.prodA x k := fun x k => by unfold QP.row; rw [prodA_eq]
  have hle1 : ∑ i ∈ range s.nV, V i * z i ≤ ∑ i ∈ range s.nV, V i * p i := Finset.sum_le_sum fun i hi =>
    side_le hwB ha.actB (fun i hi => by rw [hs.nB] at hi; exact ⟨hz.lower i hi, hz.upper i hi⟩) (fun i hi => hT.eq i (by rw [← hs.nB]; exact hi)) hB
      (by rw [hs.nB]; exact mem_range.1 hi)
  have hle2 : ∑ k ∈ range s.nC, W k * s.prodA z k ≤ ∑ k ∈ range s.nC, W k * s.prodA p k := Finset.sum_le_sum fun i hi =>
    side_le hwC ha.actC (fun i hi => by
      rw [hs.nC] at hi
      have h1 := hz.lowerA i hi
      have h2 := hz.upperA i hi
      change lbAN i ≤ QP.row s.nV s.A z i at h1
      change QP.row s.nV s.A z i ≤ ubAN i at h2
      rw [hrow] at h1 h2
      exact ⟨h1, h2⟩) (fun i hi => hT.eqA i (by rw [← hs.nC]; exact hi)) hC
      (by rw [hs.nC]; exact mem_range.1 hi)
  have hval : ∀ x : Nat → K, ∑ i ∈ range s.nV, e i * x i = ∑ i ∈ range s.nV, V i * x i + ∑ k ∈ range s.nC, W k * s.prodA x k := by
    intro x
    rw [sum_congr rfl fun i hi => by rw [hdep i (mem_range.1 hi), add_mul], sum_add_distrib]
    congr 1
    simp only [sum_mul]
    rw [sum_comm]
    refine sum_congr rfl fun k _ => ?_
    rw [prodA_eq, mul_sum]
    exact sum_congr rfl fun i _ => by ring
  have hmain : ∑ i ∈ range s.nV, e i * z i ≤ ∑ i ∈ range s.nV, e i * p i := by rw [hval, hval]; exact add_le_add hle1 hle2
  have hw := ha.wrong
  cases isB with
  | true =>
    have hlt : number < s.nV := by rw [← hs.nB]; exact hwB.lt_free hnum
    have he : ∀ x : Nat → K, ∑ i ∈ range s.nV, e i * x i = dirSign st * x number := by
      intro x
      rw [sum_congr rfl fun i hi => by rw [hE i (mem_range.1 hi)], sum_eq_single number]
      · simp
      · intro i _ hne; simp [hne]
      · intro hn; exact absurd (mem_range.2 hlt) hn
    rw [he, he] at hmain
    rcases hst with rfl | rfl
    · have h1 : p number < lbN number := hw
      have h2 : lbN number ≤ z number := hz.lower number hlt
      simp only [dirSign, if_pos] at hmain
      linarith
    · have h1 : ubN number < p number := hw
      have h2 : z number ≤ ubN number := hz.upper number hlt
      rw [dirSign, if_neg (by decide)] at hmain
      linarith
  | false =>
    have hlt : number < s.nC := by rw [← hs.nC]; exact hwC.lt_free hnum
    have he : ∀ x : Nat → K, ∑ i ∈ range s.nV, e i * x i = dirSign st * s.prodA x number := by
      intro x
      rw [sum_congr rfl fun i hi => by rw [hE i (mem_range.1 hi)], prodA_eq, mul_sum]
      exact sum_congr rfl fun i _ => by simp; ring
    rw [he, he] at hmain
    rcases hst with rfl | rfl
    · have h1 : s.prodA p number < lbAN number := hw
      have h2 : lbAN number ≤ QP.row s.nV s.A z number := hz.lowerA number hlt
      rw [hrow] at h2
      simp only [dirSign, if_pos] at hmain
      linarith
    · have h1 : ubAN number < s.prodA p number := hw
      have h2 : QP.row s.nV s.A z number ≤ ubAN number := hz.upperA number hlt
      rw [hrow] at h2
      rw [dirSign, if_neg (by decide)] at hmain
      linarith

theorem ensureLIConstraint_infeasible {sq : K → K} {s s' : QPC K} (h : s.Good) (hO : OptionsOK s.options) {gN lbN ubN lbAN ubAN : Nat → K}
    (hT : Target s lbN ubN lbAN ubAN) {number : Nat} {st : SubjectToStatus} (hst : st = ST_LOWER ∨ st = ST_UPPER) (hm : number ∈ s.cons.free)
    (hc : CleanInC sq s number st) {p qB qC : Nat → K} (ha : Aim s gN lbN ubN lbAN ubAN p qB qC ⟨false, number, st⟩)
    (heq : ensureLIConstraint sq s number st = .ok (RET_ENSURELI_FAILED_NOINDEX, s')) :
    (s.asked gN lbN ubN lbAN ubAN).Infeasible ∨ (s.asked gN lbN ubN lbAN ubAN).HugeMultiplier s.y s.options.maxDualJump := by
  unfold ensureLIConstraint at heq
  rw [Res.bind_eq_ok] at heq
  obtain ⟨b, hb, heq⟩ := heq
  cases b with
  | true =>
    simp only [if_true, Res.ok.injEq, Prod.mk.injEq] at heq
    exact absurd heq.1 (by decide)
  | false =>
    simp only [Bool.false_eq_true, if_false] at heq
    change (match s.coeffC (fun i => sumTo (fun j => s.Q (s.fr j) (s.nZ + i) * (dirSign st * s.A number (s.fr j))) s.nFR) with
      | none => _ | some xiC => _) = _ at heq
    have hres := hc.resolve hb
    cases hx : s.coeffC (fun i => sumTo (fun j => s.Q (s.fr j) (s.nZ + i) * (dirSign st * s.A number (s.fr j))) s.nFR) with
    | none =>
      rw [hx] at heq
      simp only [Res.ok.injEq, Prod.mk.injEq] at heq
      exact absurd heq.1 (by decide)
    | some xiC =>
      rw [hx] at heq
      have hco := coeffC_spec h.facs.pos hx
      refine resolveLI_infeasible (e := fun i => dirSign st * s.A number i) h hO hT hst
        (lidep_of h.facs ?_ ?_ ?_) (isB := false) (by simpa using hm) (fun i _ => by simp) (hres xiC hx) ha heq
      · intro j hj
        have := hc.dep hb j hj
        simp only [mul_assoc]
        rw [← mul_sum, this, mul_zero]
      · intro c hcc
        rw [← hco c hcc, sumTo_eq]
      · intro i _
        rw [sumTo_eq]

theorem ensureLIBound_infeasible {sq : K → K} {s s' : QPC K} (h : s.Good) (hO : OptionsOK s.options) {gN lbN ubN lbAN ubAN : Nat → K}
    (hT : Target s lbN ubN lbAN ubAN) {number : Nat} {st : SubjectToStatus} (hst : st = ST_LOWER ∨ st = ST_UPPER) (hm : number ∈ s.bounds.free)
    (hc : CleanInB sq s number st) {p qB qC : Nat → K} (ha : Aim s gN lbN ubN lbAN ubAN p qB qC ⟨true, number, st⟩)
    (heq : ensureLIBound sq s number st = .ok (RET_ENSURELI_FAILED_NOINDEX, s')) :
    (s.asked gN lbN ubN lbAN ubAN).Infeasible ∨ (s.asked gN lbN ubN lbAN ubAN).HugeMultiplier s.y s.options.maxDualJump := by
  have hw := h.facs.shape.okB
  unfold ensureLIBound at heq
  rw [Res.bind_eq_ok] at heq
  obtain ⟨b, hb, heq⟩ := heq
  cases b with
  | true =>
    simp only [if_true, Res.ok.injEq, Prod.mk.injEq] at heq
    exact absurd heq.1 (by decide)
  | false =>
    simp only [Bool.false_eq_true, if_false] at heq
    change (match s.coeffC (fun i => dirSign st * s.Q number (s.nZ + i)) with | none => _ | some xiC => _) = _ at heq
    have hres := hc.resolve hb
    cases hx : s.coeffC (fun i => dirSign st * s.Q number (s.nZ + i)) with
    | none =>
      rw [hx] at heq
      simp only [Res.ok.injEq, Prod.mk.injEq] at heq
      exact absurd heq.1 (by decide)
    | some xiC =>
      rw [hx] at heq
      have hco := coeffC_spec h.facs.pos hx
      have hk := WS.idxOf_fr_lt hm
      have hik : s.fr (s.bounds.free.idxOf number) = number := WS.fr_idxOf hm
      have hsum : ∀ f : Nat → K, ∑ r ∈ range s.nFR, f (s.fr r) * (dirSign st * if s.fr r = number then 1 else 0) = dirSign st * f number := by
        intro f
        rw [sum_eq_single (s.bounds.free.idxOf number)]
        · rw [hik, if_pos rfl]; ring
        · intro r hr hne
          rw [if_neg, mul_zero, mul_zero]
          intro e
          rw [← hik] at e
          exact hne (hw.fr_inj (mem_range.1 hr) hk e)
        · intro hr; exact absurd (mem_range.2 hk) hr
      refine resolveLI_infeasible (e := fun i => dirSign st * if i = number then 1 else 0) h hO hT hst
        (lidep_of h.facs ?_ ?_ ?_) (isB := true) (by simpa using hm) (fun i _ => by simp) (hres xiC hx) ha heq
      · intro j hj
        rw [sum_congr rfl fun r _ => mul_comm _ _, hsum (fun i => s.Q i j), hc.dep hb j hj, mul_zero]
      · intro c hcc
        rw [← hco c hcc, hsum (fun i => s.Q i (s.nZ + c))]
      · intro i hi
        rw [sumTo_eq, if_neg, mul_zero, zero_sub]
        intro e
        have : number ∈ s.bounds.fixed := by rw [← e]; exact WS.fx_mem hi
        exact hw.disjoint hm this

theorem addConstraint_noindex {sq : K → K} {s s' : QPC K} {k : Nat} {st : SubjectToStatus}
    (h : addConstraint sq s k st = .ok (RET_ADDCONSTRAINT_FAILED_INFEASIBILITY, s')) :
    ensureLIConstraint sq s k st = .ok (RET_ENSURELI_FAILED_NOINDEX, s') := by
  unfold addConstraint at h
  split at h
  · rename_i hc
    simp only [Res.ok.injEq, Prod.mk.injEq] at h
    exfalso
    rw [h.1] at hc
    unfold addConstraintCheck at hc
    revert hc
    repeat' split
    all_goals simp
  · obtain ⟨⟨r1, s1⟩, e, h⟩ := Res.bind_eq_ok.1 h
    dsimp only at h
    split at h
    · exact absurd (addConstraintUpdate_still h).2 (by decide)
    · split at h
      · next hr => simp only [Res.ok.injEq, Prod.mk.injEq, true_and] at h; rw [e, hr, h]
      · split at h <;> (simp only [Res.ok.injEq, Prod.mk.injEq] at h; exact absurd h.1 (by decide))

theorem addBound_noindex {sq : K → K} {s s' : QPC K} {k : Nat} {st : SubjectToStatus}
    (h : addBound sq s k st = .ok (RET_ADDBOUND_FAILED_INFEASIBILITY, s')) :
    ensureLIBound sq s k st = .ok (RET_ENSURELI_FAILED_NOINDEX, s') := by
  unfold addBound at h
  split at h
  · rename_i hc
    simp only [Res.ok.injEq, Prod.mk.injEq] at h
    exfalso
    rw [h.1] at hc
    unfold addBoundCheck at hc
    revert hc
    repeat' split
    all_goals simp
  · obtain ⟨⟨r1, s1⟩, e, h⟩ := Res.bind_eq_ok.1 h
    dsimp only at h
    split at h
    · exact absurd (addBoundUpdate_still h).2 (by decide)
    · split at h
      · next hr => simp only [Res.ok.injEq, Prod.mk.injEq, true_and] at h; rw [e, hr, h]
      · split at h <;> (simp only [Res.ok.injEq, Prod.mk.injEq] at h; exact absurd h.1 (by decide))

/-- A change of the working set that finds the problem infeasible. -/
theorem changeActiveSet_infeasible {sq : K → K} {s s' : QPC K} (h : s.Good) (hO : OptionsOK s.options) {gN lbN ubN lbAN ubAN : Nat → K}
    (hT : Target s lbN ubN lbAN ubAN) {c : Change} (hl : AtLimit s (some c)) (hc : CleanChange sq s (some c))
    {p qB qC : Nat → K} (ha : Aim s gN lbN ubN lbAN ubAN p qB qC c) {r : ReturnValue}
    (h0 : s.infeasible = false) (h1 : s'.infeasible = true) (heq : changeActiveSet sq s (some c) = .ok (r, s')) :
    (s.asked gN lbN ubN lbAN ubAN).Infeasible ∨ (s.asked gN lbN ubN lbAN ubAN).HugeMultiplier s.y s.options.maxDualJump := by
  have no : ∀ s2 : QPC K, s2.still = s.still → s2.infeasible = true → False := fun s2 e e' => by
    rw [still_infeasible e, h0] at e'; cases e'
  have inB : ∀ i st, st = ST_LOWER ∨ st = ST_UPPER → c = ⟨true, i, st⟩ → i ∈ s.bounds.free → CleanInB sq s i st →
      (addBound sq s i st >>= fun p => if p.1 = RET_ADDBOUND_FAILED_INFEASIBILITY then .ok (p.1, p.2)
          else .ok (if p.1 ≠ SUCCESSFUL_RETURN then RET_ADD_TO_ACTIVESET_FAILED else SUCCESSFUL_RETURN, p.2)) = .ok (r, s') →
      (s.asked gN lbN ubN lbAN ubAN).Infeasible ∨ (s.asked gN lbN ubN lbAN ubAN).HugeMultiplier s.y s.options.maxDualJump := by
    intro i st hst hcc hm hcl he
    subst hcc
    obtain ⟨⟨r1, s1⟩, e, he⟩ := Res.bind_eq_ok.1 he
    have es : s1 = s' := by
      dsimp only at he
      split at he <;> (simp only [Res.ok.injEq, Prod.mk.injEq] at he; exact he.2)
    subst es
    rcases addBound_still e with ⟨q, _⟩ | ⟨rfl, _⟩
    · exact absurd (no _ q h1) id
    · exact ensureLIBound_infeasible h hO hT hst hm hcl ha (addBound_noindex e)
  have inC : ∀ i st, st = ST_LOWER ∨ st = ST_UPPER → c = ⟨false, i, st⟩ → i ∈ s.cons.free → CleanInC sq s i st →
      (addConstraint sq s i st >>= fun p => if p.1 = RET_ADDCONSTRAINT_FAILED_INFEASIBILITY then .ok (p.1, p.2)
          else .ok (if p.1 ≠ SUCCESSFUL_RETURN then RET_ADD_TO_ACTIVESET_FAILED else SUCCESSFUL_RETURN, p.2)) = .ok (r, s') →
      (s.asked gN lbN ubN lbAN ubAN).Infeasible ∨ (s.asked gN lbN ubN lbAN ubAN).HugeMultiplier s.y s.options.maxDualJump := by
    intro i st hst hcc hm hcl he
    subst hcc
    obtain ⟨⟨r1, s1⟩, e, he⟩ := Res.bind_eq_ok.1 he
    have es : s1 = s' := by
      dsimp only at he
      split at he <;> (simp only [Res.ok.injEq, Prod.mk.injEq] at he; exact he.2)
    subst es
    rcases addConstraint_still e with ⟨q, _⟩ | ⟨rfl, _⟩
    · exact absurd (no _ q h1) id
    · exact ensureLIConstraint_infeasible h hO hT hst hm hcl ha (addConstraint_noindex e)
  obtain ⟨isB, i, st⟩ := c
  by_cases hst : st = ST_LOWER ∨ st = ST_UPPER
  · cases isB with
    | true => rcases hst with rfl | rfl <;> exact inB i _ (by simp) rfl hl.1 hc heq
    | false => rcases hst with rfl | rfl <;> exact inC i _ (by simp) rfl hl.1 hc heq
  · have hst' : st = ST_INACTIVE := by
      cases st <;> first | rfl | exact absurd (Or.inl rfl) hst | exact absurd (Or.inr rfl) hst | (cases isB <;> exact absurd hl id)
    subst hst'
    exfalso
    have := changeActiveSet_still heq
    cases this with
    | done e _ => exact no _ e h1
    | unbounded _ e => rw [e] at h1; exact absurd (h0.symm.trans h1) (by decide)
    | infeasible cr _ =>
      unfold changeActiveSet at heq
      cases isB <;>
      · obtain ⟨⟨r1, s1⟩, _, heq⟩ := Res.bind_eq_ok.1 heq
        dsimp only at heq
        split at heq <;> (simp only [Res.ok.injEq, Prod.mk.injEq] at heq; rw [← heq.1] at cr; rcases cr with cr | cr <;> cases cr)

/-! ### unboundedness -/

theorem Heff_symm {s : QPC K} (h : s.SymH) : QP.Symmetric s.nV s.Heff := by
  intro i hi j hj
  by_cases hsc : s.toQPB.scalarH
  · rw [QPB.Heff_scalar hsc, QPB.Heff_scalar hsc]
    by_cases hij : i = j
    · rw [hij]
    · rw [if_neg hij, if_neg (Ne.symm hij)]
  · cases hH : s.H with
    | none =>
      obtain ⟨h1, h2⟩ := QPB.not_scalar hsc
      unfold QPB.Heff
      rw [hH]
      generalize s.hessianType = t at h1 h2 ⊢
      cases t <;> first | rfl | exact absurd rfl h1 | exact absurd rfl h2
    | some H => rw [QPB.Heff_of_H hsc hH, QPB.Heff_of_H hsc hH]; exact h H hH i hi j hj

/-- What is noticed if there is no limit within reach. -/
theorem NullClean.far {sq : K → K} {s s' : QPC K} {b : Bool} {k : Nat} (h : NullClean sq s b k) (hf : s.Facs) (hO : OptionsOK s.options)
    {c : Option Change} (e : s.ensureNonzeroCurvature b k = .ok (RET_HOTSTART_STOPPED_UNBOUNDEDNESS, s', c)) :
    ∃ d t, NullDir s b k d ∧ s.options.maxPrimalJump ≤ t ∧ JumpOK s b k d t := by
  unfold ensureNonzeroCurvature at e
  dsimp only at e
  have e' : (do
      let e ← s.curvatureDir b k
      match e with
      | .error _ => Res.ub .uninitialised
      | .ok d =>
        if Dir.normY s d < s.options.epsNZCTests * Dir.normX s d then do
          let (sigma, c) ← s.curvatureTests b k d
          if sigma ≥ s.options.maxPrimalJump then .ok (RET_HOTSTART_STOPPED_UNBOUNDEDNESS, { s with unbounded := true }, none)
          else .ok (SUCCESSFUL_RETURN, s.jump d sigma, c)
        else .ok (SUCCESSFUL_RETURN, s, none)) = Res.ok (RET_HOTSTART_STOPPED_UNBOUNDEDNESS, s', c) := by
    rw [← e]
    unfold curvatureDir
    cases b <;> rfl
  rw [Res.bind_eq_ok] at e'
  obtain ⟨ed, e1, e'⟩ := e'
  cases ed with
  | error _ => cases e'
  | ok d =>
    obtain ⟨h1, h2, hJ, h3, h4⟩ := h d e1
    dsimp only at e'
    rw [if_pos h1] at e'
    obtain ⟨t, bc, g1, g2, g3, g4⟩ := curvatureTests_spec hf.shape hO.epsDen hJ h3
    rw [g1, Res.bind_ok] at e'
    dsimp only at e'
    split at e'
    · next hge => exact ⟨d, t, curvatureDir_null hf hO e1 h2, hge, g3⟩
    · simp only [Res.ok.injEq, Prod.mk.injEq] at e'
      exact absurd e'.1 (by decide)

/-- Along a direction without curvature off a limit whose multiplier would become negative, the objective decreases. -/
theorem NullDir.descent {s : QPC K} (hs : s.Shape) (hsym : s.SymH) {gN lbN ubN lbAN ubAN p qB qC : Nat → K} {b : Bool} {k : Nat}
    (hm : if b then k ∈ s.bounds.fixed else k ∈ s.cons.fixed)
    (ha : Aim s gN lbN ubN lbAN ubAN p qB qC ⟨b, k, ST_INACTIVE⟩) {d : Dir K} (hn : NullDir s b k d) :
    (s.asked gN lbN ubN lbAN ubAN).Descent (s.dirX d) := by
  refine ⟨hn.flat, ?_⟩
  have hsy := Heff_symm hsym
  set D := s.dirX d with hD
  have eg : ∀ i ∈ range s.nV, gN i * D i = D i * qB i + ∑ k ∈ range s.nC, qC k * (s.A k i * D i) - ∑ j ∈ range s.nV, p j * (s.Heff i j * D i) := by
    intro i hi
    have := ha.stat i (mem_range.1 hi)
    have e1 : ∑ k ∈ range s.nC, qC k * (s.A k i * D i) = (∑ k ∈ range s.nC, s.A k i * qC k) * D i := by
      rw [sum_mul]; exact sum_congr rfl fun k _ => by ring
    have e2 : ∑ j ∈ range s.nV, p j * (s.Heff i j * D i) = (∑ j ∈ range s.nV, s.Heff i j * p j) * D i := by
      rw [sum_mul]; exact sum_congr rfl fun k _ => by ring
    rw [e1, e2]
    linear_combination D i * this
  show ∑ i ∈ range s.nV, gN i * D i < 0
  rw [sum_congr rfl eg, sum_sub_distrib, sum_add_distrib]
  have z1 : ∑ i ∈ range s.nV, ∑ j ∈ range s.nV, p j * (s.Heff i j * D i) = 0 := by
    rw [sum_comm]
    refine sum_eq_zero fun j hj => ?_
    rw [← mul_sum]
    have := hn.flat j (mem_range.1 hj)
    rw [sum_congr rfl fun i hi => by rw [hsy i (mem_range.1 hi) j (mem_range.1 hj)], this, mul_zero]
  have z2 : ∑ i ∈ range s.nV, ∑ k ∈ range s.nC, qC k * (s.A k i * D i) = ∑ k ∈ range s.nC, qC k * s.dirAx d k := by
    rw [sum_comm]
    refine sum_congr rfl fun k _ => ?_
    rw [← mul_sum]
    unfold dirAx
    rw [prodA_eq]
  rw [z1, z2, sub_zero]
  have fB : ∀ i < s.nV, ¬ (b = true ∧ i = k) → D i * qB i = 0 := by
    intro i hi hne
    rcases hs.okB.mem_iff.1 (show i < s.bounds.n by rw [hs.nB]; exact hi) with h | h
    · rw [ha.freeB i h, mul_zero]
    · rw [hD, hn.bounds i h, if_neg hne, zero_mul]
  have fC : ∀ i < s.nC, ¬ (b = false ∧ i = k) → qC i * s.dirAx d i = 0 := by
    intro i hi hne
    rcases hs.okC.mem_iff.1 (show i < s.cons.n by rw [hs.nC]; exact hi) with h | h
    · rw [ha.freeC i h, zero_mul]
    · rw [hn.cons i h, if_neg hne, mul_zero]
  have hw := ha.wrong
  cases b with
  | true =>
    have hm : k ∈ s.bounds.fixed := hm
    have hlt : k < s.nV := by rw [← hs.nB]; exact hs.okB.lt_fixed hm
    rw [sum_eq_single k (fun i hi hne => fB i (mem_range.1 hi) (fun h => hne h.2)) (fun h => absurd (mem_range.2 hlt) h),
      sum_eq_zero fun i hi => fC i (mem_range.1 hi) (fun h => absurd h.1 (by decide)), add_zero, hD, hn.bounds k hm, if_pos ⟨rfl, rfl⟩]
    have hw : sg s.bounds k (qB k) < 0 := hw
    unfold sg at hw
    rw [WS.getStatus_of_lt (hs.okB.lt_fixed hm)]
    rcases hs.okB.fixed k hm with e | e
    · rw [e, if_neg (by decide)] at hw
      rw [if_pos e, one_mul]; exact hw
    · rw [e, if_pos rfl] at hw
      rw [if_neg (by rw [e]; decide)]; linarith
  | false =>
    have hm : k ∈ s.cons.fixed := hm
    have hlt : k < s.nC := by rw [← hs.nC]; exact hs.okC.lt_fixed hm
    rw [sum_eq_zero fun i hi => fB i (mem_range.1 hi) (fun h => absurd h.1 (by decide)),
      sum_eq_single k (fun i hi hne => fC i (mem_range.1 hi) (fun h => hne h.2)) (fun h => absurd (mem_range.2 hlt) h), zero_add,
      hn.cons k hm, if_pos ⟨rfl, rfl⟩]
    have hw : sg s.cons k (qC k) < 0 := hw
    unfold sg at hw
    rw [WS.getStatus_of_lt (hs.okC.lt_fixed hm)]
    rcases hs.okC.fixed k hm with e | e
    · rw [e, if_neg (by decide)] at hw
      rw [if_pos e, mul_one]; exact hw
    · rw [e, if_pos rfl] at hw
      rw [if_neg (by rw [e]; decide)]; linarith

/-- The QP the object is at present optimal for -/
def held (s : QPC K) : QP K := s.asked s.g s.lb s.ub s.lbA s.ubA

theorem NullDir.roomy {s : QPC K} (h : s.Good) {gN lbN ubN lbAN ubAN : Nat → K} {b : Bool} {k : Nat}
    (hm : if b then k ∈ s.bounds.fixed else k ∈ s.cons.fixed)
    (hU : ∀ k < s.nC, s.cons.type k = ST_UNBOUNDED → lbAN k ≤ -INFTY ∧ INFTY ≤ ubAN k)
    {d : Dir K} (hn : NullDir s b k d) {t : K} (ht : s.options.maxPrimalJump ≤ t) (hj : JumpOK s b k d t) :
    QP.Roomy (s.asked gN lbN ubN lbAN ubAN) s.held s.x (s.dirX d) s.options.maxPrimalJump := by
  have hs := h.facs.shape
  have hrow : ∀ x k, QP.row s.nV s.A x k = s.prodA x k := fun x k => by unfold QP.row; rw [prodA_eq]
  have hty : ∀ k < s.nC, (-INFTY < lbAN k ∨ ubAN k < INFTY) → s.cons.type k ≠ ST_UNBOUNDED := by
    intro k hk hf ht
    obtain ⟨h1, h2⟩ := hU k hk ht
    rcases hf with hf | hf
    · exact absurd hf (not_lt.2 h1)
    · exact absurd hf (not_lt.2 h2)
  refine ⟨?_, ?_, ?_, ?_, ?_⟩
  · cases b with
    | true =>
      have hm : k ∈ s.bounds.fixed := hm
      refine Or.inl ⟨k, by show k < s.nV; rw [← hs.nB]; exact hs.okB.lt_fixed hm, ?_⟩
      rw [hn.bounds k hm, if_pos ⟨rfl, rfl⟩]; split <;> simp
    | false =>
      have hm : k ∈ s.cons.fixed := hm
      refine Or.inr ⟨k, by show k < s.nC; rw [← hs.nC]; exact hs.okC.lt_fixed hm, ?_⟩
      show |QP.row s.nV s.A (s.dirX d) k| = 1
      rw [hrow]
      have := hn.cons k hm
      unfold dirAx at this
      rw [this, if_pos ⟨rfl, rfl⟩]; split <;> simp
  · intro i hi hd
    have hi : i < s.nV := hi
    show s.options.maxPrimalJump * -s.dirX d i ≤ s.x i - s.lb i
    refine (mul_le_mul_of_nonneg_right ht (by linarith)).trans ?_
    rcases hs.okB.mem_iff.1 (show i < s.bounds.n by rw [hs.nB]; exact hi) with hf | hf
    · have hk := WS.idxOf_fr_lt hf
      have e := dirX_fr hs.okB d hk
      have hik : s.fr (s.bounds.free.idxOf i) = i := WS.fr_idxOf hf
      have l := hj.loB _ hk
      rw [hik] at e l
      rw [e] at hd ⊢
      exact l (by linarith)
    · have e := hn.bounds i hf
      rw [e] at hd ⊢
      split at hd
      · next hc =>
        obtain ⟨hb, rfl⟩ := hc
        split at hd
        · exact absurd hd (by norm_num)
        · next hst =>
          rw [if_pos ⟨hb, rfl⟩, if_neg hst]
          have hst' : s.bounds.getStatus i = ST_UPPER := by
            rw [WS.getStatus_of_lt (hs.okB.lt_fixed hf)] at hst ⊢
            rcases hs.okB.fixed i hf with e | e
            · exact absurd e hst
            · exact e
          have := hj.ownLB hb hst'
          linarith
      · exact absurd hd (lt_irrefl _)
  · intro i hi hd
    have hi : i < s.nV := hi
    show s.options.maxPrimalJump * s.dirX d i ≤ s.ub i - s.x i
    refine (mul_le_mul_of_nonneg_right ht hd.le).trans ?_
    rcases hs.okB.mem_iff.1 (show i < s.bounds.n by rw [hs.nB]; exact hi) with hf | hf
    · have hk := WS.idxOf_fr_lt hf
      have e := dirX_fr hs.okB d hk
      have hik : s.fr (s.bounds.free.idxOf i) = i := WS.fr_idxOf hf
      have l := hj.upB _ hk
      rw [hik] at e l
      rw [e] at hd ⊢
      exact l hd
    · have e := hn.bounds i hf
      rw [e] at hd ⊢
      split at hd
      · next hc =>
        obtain ⟨hb, rfl⟩ := hc
        split at hd
        · next hst =>
          rw [if_pos ⟨hb, rfl⟩, if_pos hst, mul_one]
          exact hj.ownUB hb hst
        · exact absurd hd (by norm_num)
      · exact absurd hd (lt_irrefl _)
  · intro i hi hfin hd
    have hi : i < s.nC := hi
    obtain ⟨_, a2, _⟩ := h.ax i hi (hty i hi hfin)
    change QP.row s.nV s.A (s.dirX d) i < 0 at hd
    show s.options.maxPrimalJump * -QP.row s.nV s.A (s.dirX d) i ≤ QP.row s.nV s.A s.x i - s.lbA i
    rw [hrow] at hd
    rw [hrow, hrow, ← a2]
    change s.dirAx d i < 0 at hd
    change s.options.maxPrimalJump * -s.dirAx d i ≤ _
    refine (mul_le_mul_of_nonneg_right ht (by linarith)).trans ?_
    rcases hs.okC.mem_iff.1 (show i < s.cons.n by rw [hs.nC]; exact hi) with hf | hf
    · have hk := WS.idxOf_fr_lt hf
      have hik : s.iac (s.cons.free.idxOf i) = i := WS.fr_idxOf hf
      have l := hj.loC _ hk
      rw [hik] at l
      exact l (by linarith)
    · have e := hn.cons i hf
      rw [e] at hd ⊢
      split at hd
      · next hc =>
        obtain ⟨hb, rfl⟩ := hc
        split at hd
        · exact absurd hd (by norm_num)
        · next hst =>
          rw [if_pos ⟨hb, rfl⟩, if_neg hst]
          have hst' : s.cons.getStatus i = ST_UPPER := by
            rw [WS.getStatus_of_lt (hs.okC.lt_fixed hf)] at hst ⊢
            rcases hs.okC.fixed i hf with e | e
            · exact absurd e hst
            · exact e
          have := hj.ownLC hb hst'
          linarith
      · exact absurd hd (lt_irrefl _)
  · intro i hi hfin hd
    have hi : i < s.nC := hi
    obtain ⟨_, _, a2⟩ := h.ax i hi (hty i hi hfin)
    change 0 < QP.row s.nV s.A (s.dirX d) i at hd
    show s.options.maxPrimalJump * QP.row s.nV s.A (s.dirX d) i ≤ s.ubA i - QP.row s.nV s.A s.x i
    rw [hrow] at hd
    rw [hrow, hrow, ← a2]
    change 0 < s.dirAx d i at hd
    change s.options.maxPrimalJump * s.dirAx d i ≤ _
    refine (mul_le_mul_of_nonneg_right ht hd.le).trans ?_
    rcases hs.okC.mem_iff.1 (show i < s.cons.n by rw [hs.nC]; exact hi) with hf | hf
    · have hk := WS.idxOf_fr_lt hf
      have hik : s.iac (s.cons.free.idxOf i) = i := WS.fr_idxOf hf
      have l := hj.upC _ hk
      rw [hik] at l
      exact l hd
    · have e := hn.cons i hf
      rw [e] at hd ⊢
      split at hd
      · next hc =>
        obtain ⟨hb, rfl⟩ := hc
        split at hd
        · next hst =>
          rw [if_pos ⟨hb, rfl⟩, if_pos hst, mul_one]
          exact hj.ownUC hb hst
        · exact absurd hd (by norm_num)
      · exact absurd hd (lt_irrefl _)

/-- A change of the working set that finds the problem unbounded. -/
theorem changeActiveSet_unbounded {sq : K → K} {s s' : QPC K} (h : s.Good) (hO : OptionsOK s.options) {gN lbN ubN lbAN ubAN : Nat → K}
    (hU : ∀ k < s.nC, s.cons.type k = ST_UNBOUNDED → lbAN k ≤ -INFTY ∧ INFTY ≤ ubAN k)
    {c : Change} (hl : AtLimit s (some c)) (hc : CleanChange sq s (some c))
    {p qB qC : Nat → K} (ha : Aim s gN lbN ubN lbAN ubAN p qB qC c) {r : ReturnValue}
    (h0 : s.unbounded = false) (h1 : s'.unbounded = true) (heq : changeActiveSet sq s (some c) = .ok (r, s')) :
    ∃ d, (s.asked gN lbN ubN lbAN ubAN).Descent d ∧ QP.Roomy (s.asked gN lbN ubN lbAN ubAN) s.held s.x d s.options.maxPrimalJump := by
  have no : ∀ s2 : QPC K, s2.still = s.still → s2.unbounded = true → False := fun s2 e e' => by
    rw [still_unbounded e, h0] at e'; cases e'
  obtain ⟨isB, i, st⟩ := c
  by_cases hst : st = ST_INACTIVE
  · subst hst
    have key : ∀ s2 c', s.options.enableNZCTests = true → NullClean sq s isB i → (if isB then i ∈ s.bounds.fixed else i ∈ s.cons.fixed) →
        s.ensureNonzeroCurvature isB i = .ok (RET_HOTSTART_STOPPED_UNBOUNDEDNESS, s2, c') →
        ∃ d, (s.asked gN lbN ubN lbAN ubAN).Descent d ∧ QP.Roomy (s.asked gN lbN ubN lbAN ubAN) s.held s.x d s.options.maxPrimalJump := by
      intro s2 c' _ hn hm e
      obtain ⟨d, t, g1, g2, g3⟩ := hn.far h.facs hO e
      exact ⟨s.dirX d, g1.descent h.facs.shape h.facs.sym hm ha, g1.roomy h hm hU g2 g3⟩
    unfold changeActiveSet at heq
    cases isB with
    | true =>
      obtain ⟨⟨r1, s1⟩, e, heq⟩ := Res.bind_eq_ok.1 heq
      have es : s1.unbounded = true := by
        dsimp only at heq
        split at heq <;> (simp only [Res.ok.injEq, Prod.mk.injEq] at heq; rw [← heq.2] at h1; exact h1)
      rcases removeBound_still e with ⟨q, _⟩ | ⟨hz, rfl, rfl⟩
      · exact absurd (no _ q es) id
      · unfold removeBound at e
        split at e
        · simp only [Res.ok.injEq, Prod.mk.injEq] at e; exact absurd e.1 (by decide)
        split at e
        · simp only [Res.ok.injEq, Prod.mk.injEq] at e; exact absurd e.1 (by decide)
        obtain ⟨⟨r2, s2, c'⟩, e2, e⟩ := Res.bind_eq_ok.1 e
        rcases ensureNonzeroCurvature_still e2 with ⟨rfl, q⟩ | ⟨rfl, _⟩
        · dsimp only at e
          rw [if_neg (by simp)] at e
          obtain ⟨q', _⟩ := removeBoundUpdate_still e
          exact absurd (no _ (q'.trans q) es) id
        · have hc : CleanLeaveB sq s i := hc
          rcases hc with hc | ⟨_, hc⟩
          · obtain ⟨q, _⟩ := (hc.1 hz).stays e2
            rcases ensureNonzeroCurvature_still e2 with ⟨q', _⟩ | ⟨_, q'⟩
            · cases q'
            · exfalso
              have : s.unbounded = true := by rw [← q, q']
              rw [h0] at this; cases this
          · exact key _ _ hz hc hl.1 e2
    | false =>
      obtain ⟨⟨r1, s1⟩, e, heq⟩ := Res.bind_eq_ok.1 heq
      have es : s1.unbounded = true := by
        dsimp only at heq
        split at heq <;> (simp only [Res.ok.injEq, Prod.mk.injEq] at heq; rw [← heq.2] at h1; exact h1)
      rcases removeConstraint_still e with ⟨q, _⟩ | ⟨hz, rfl, rfl⟩
      · exact absurd (no _ q es) id
      · unfold removeConstraint at e
        split at e
        · simp only [Res.ok.injEq, Prod.mk.injEq] at e; exact absurd e.1 (by decide)
        split at e
        · simp only [Res.ok.injEq, Prod.mk.injEq] at e; exact absurd e.1 (by decide)
        split at e
        · simp only [Res.ok.injEq, Prod.mk.injEq] at e; exact absurd e.1 (by decide)
        obtain ⟨⟨r2, s2, c'⟩, e2, e⟩ := Res.bind_eq_ok.1 e
        rcases ensureNonzeroCurvature_still e2 with ⟨rfl, q⟩ | ⟨rfl, _⟩
        · dsimp only at e
          rw [if_neg (by simp)] at e
          obtain ⟨q', _⟩ := removeConstraintUpdate_still e
          exact absurd (no _ (q'.trans q) es) id
        · have hc : CleanLeaveC sq s i := hc
          rcases hc with hc | ⟨_, hc⟩
          · obtain ⟨q, _⟩ := (hc.1 hz).stays e2
            rcases ensureNonzeroCurvature_still e2 with ⟨q', _⟩ | ⟨_, q'⟩
            · cases q'
            · exfalso
              have : s.unbounded = true := by rw [← q, q']
              rw [h0] at this; cases this
          · exact key _ _ hz hc hl.1 e2
  · exfalso
    have := changeActiveSet_still heq
    cases this with
    | done e _ => exact no _ e h1
    | infeasible _ e => rw [e] at h1; exact absurd (h0.symm.trans h1) (by decide)
    | unbounded cr _ =>
      subst cr
      unfold changeActiveSet at heq
      cases isB <;> cases st <;> first
        | exact absurd rfl hst
        | exact absurd hl id
        | (obtain ⟨⟨r1, s1⟩, _, heq⟩ := Res.bind_eq_ok.1 heq
           dsimp only at heq
           split at heq
           · next hr => simp only [Res.ok.injEq, Prod.mk.injEq] at heq; rw [hr] at heq; exact absurd heq.1 (by decide)
           · split at heq <;> (simp only [Res.ok.injEq, Prod.mk.injEq] at heq; exact absurd heq.1 (by decide)))

end QPC
end QpOASES
