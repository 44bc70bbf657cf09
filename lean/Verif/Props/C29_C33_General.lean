import Verif.Props.C34_General
import Verif.Props.C29_C33_Homotopy
import Verif.Spec.HomotopyGeneral

/-!
C29-C33 for QPs with general constraints: step direction, ratio test, step, drift correction and ramping, and the auxiliary QP of a cold start.
-/
namespace QpOASES.Props
open Finset Spec ReturnValue SubjectToStatus SubjectToType HessianType QProblemStatus
open QPB (lowerOf upperOf GivenHessian sg DenOK sg_ne getMax_of_nonneg)

set_option linter.unusedSectionVars false

variable {K : Type} [Field K] [LinearOrder K] [IsStrictOrderedRing K]

/-- The solver stores its directions by position in the lists of the working set: `dx`, `dy` are the same numbers by variable and constraint. -/
structure UnpackedC (s : QPC K) (d : QPC.Dir K) (dx dy : Nat → K) : Prop where
  free : ∀ k < s.bounds.free.length, dx (s.bounds.free.getD k 0) = d.xFR k
  fixed : ∀ k < s.bounds.fixed.length, dx (s.bounds.fixed.getD k 0) = d.xFX k
  dual : ∀ k < s.bounds.fixed.length, dy (s.bounds.fixed.getD k 0) = d.yFX k
  dualA : ∀ k < s.cons.fixed.length, dy (s.nV + s.cons.fixed.getD k 0) = d.yAC k

/-- Multipliers of variables and constraints in one vector -/
def joined (n : Nat) (yB yC : Nat → K) (i : Nat) : K := if i < n then yB i else yC (i - n)

theorem joined_lt {n i : Nat} (yB yC : Nat → K) (h : i < n) : joined n yB yC i = yB i := if_pos h
theorem joined_add (n k : Nat) (yB yC : Nat → K) : joined n yB yC (n + k) = yC k := by
  unfold joined
  rw [if_neg (by omega), Nat.add_sub_cancel_left]

theorem UnpackedC.exists {s : QPC K} (hs : s.Shape) (d : QPC.Dir K) : UnpackedC s d (s.dirX d) (joined s.nV (s.dirY d) (s.dirYC d)) := by
  have hw := hs.okB
  refine ⟨fun k hk => QPC.dirX_fr hw d hk, fun k hk => QPC.dirX_fx hw d hk, fun k hk => ?_, fun k hk => ?_⟩
  · rw [joined_lt _ _ (by rw [← hs.nB]; exact hw.fx_lt hk)]
    exact hw.scatter_fx _ _ hk
  · rw [joined_add]
    exact hs.okC.scatter_fx _ _ hk

theorem UnpackedC.dirX {s : QPC K} (hs : s.Shape) {d : QPC.Dir K} {dx dy : Nat → K} (h : UnpackedC s d dx dy) : ∀ i < s.nV, dx i = s.dirX d i := by
  intro i hi
  rw [← hs.nB] at hi
  rcases hs.okB.mem_iff.1 hi with hm | hm
  · have h1 := h.free _ (WS.idxOf_fr_lt hm)
    have h2 := QPC.dirX_fr hs.okB d (WS.idxOf_fr_lt hm)
    rw [show s.bounds.free.getD (s.bounds.free.idxOf i) 0 = i from WS.fr_idxOf hm] at h1
    rw [show s.fr (s.bounds.free.idxOf i) = i from WS.fr_idxOf hm] at h2
    rw [h1, h2]
  · have h1 := h.fixed _ (WS.idxOf_fx_lt hm)
    have h2 := QPC.dirX_fx hs.okB d (WS.idxOf_fx_lt hm)
    rw [show s.bounds.fixed.getD (s.bounds.fixed.idxOf i) 0 = i from WS.fx_idxOf hm] at h1
    rw [show s.fx (s.bounds.fixed.idxOf i) = i from WS.fx_idxOf hm] at h2
    rw [h1, h2]

theorem row_A {s : QPC K} (x : Nat → K) (k : Nat) : QP.row s.nV s.A x k = s.prodA x k := (QPC.prodA_eq s x k).symm

theorem UnpackedC.row {s : QPC K} (hs : s.Shape) {d : QPC.Dir K} {dx dy : Nat → K} (h : UnpackedC s d dx dy) (k : Nat) :
    QP.row s.nV s.A dx k = s.dirAx d k := by
  rw [show s.dirAx d k = s.prodA (s.dirX d) k from rfl, ← row_A]
  exact sum_congr rfl fun j hj => by rw [h.dirX hs j (mem_range.1 hj)]

/-! ### C29 -/

theorem deltaIsZeroC_le {s : QPC K} {h : QPC.Shift K} (hz : s.deltaIsZeroC h = true) : ∀ i ∈ s.cons.fixed, |h.lbA i| ≤ EPS ∧ |h.ubA i| ≤ EPS := by
  intro i hi
  have := List.all_eq_true.1 hz i hi
  rw [Bool.not_eq_true', Bool.or_eq_false_iff, decide_eq_false_iff_not, decide_eq_false_iff_not] at this
  exact ⟨not_lt.1 this.1, not_lt.1 this.2⟩

/-- **C29** (general constraints): whatever the data change, a computed step direction satisfies the linearised optimality conditions of the
working set, except that shifts of active limits not larger than the machine precision may be neglected: those of the variables, if all of
them are that small, and likewise those of the constraints. -/
theorem C29_general_partial {s : QPC K} (hF : s.Facs) (hO : 0 < s.options.epsIterRef ∨ s.options.numRefinementSteps ≤ 0)
    (hO' : 0 ≤ s.options.numRefinementSteps) (h : QPC.Shift K) {d : QPC.Dir K} (hd : s.direction h = .ok (.ok d)) :
    ∃ dx dy dlb dub dlbA dubA, UnpackedC s d dx dy ∧
      DirectionGeneral s.nV s.nC s.Heff s.A s.bounds.status s.cons.status h.g dlb dub dlbA dubA dx dy ∧
      (dlb = h.lb ∧ dub = h.ub ∨ dlb = (fun _ => 0) ∧ dub = (fun _ => 0) ∧
        ∀ i < s.nV, s.bounds.status i ≠ ST_INACTIVE → |h.lb i| ≤ EPS ∧ |h.ub i| ≤ EPS) ∧
      (dlbA = h.lbA ∧ dubA = h.ubA ∨ dlbA = (fun _ => 0) ∧ dubA = (fun _ => 0) ∧
        ∀ k < s.nC, s.cons.status k ≠ ST_INACTIVE → |h.lbA k| ≤ EPS ∧ |h.ubA k| ≤ EPS) := by
  have hs := hF.shape
  have hwB := hs.okB
  have hwC := hs.okC
  have hD := QPC.determineStepDirection_spec hF hO hO' h _ _ hd
  have hactB : ∀ i < s.nV, s.bounds.status i ≠ ST_INACTIVE → i ∈ s.bounds.fixed := by
    intro i hi hst
    rw [← hs.nB] at hi
    rcases hwB.mem_iff.1 hi with hm | hm
    · exact absurd (hwB.free i hm) hst
    · exact hm
  have hactC : ∀ i < s.nC, s.cons.status i ≠ ST_INACTIVE → i ∈ s.cons.fixed := by
    intro i hi hst
    rw [← hs.nC] at hi
    rcases hwC.mem_iff.1 hi with hm | hm
    · exact absurd (hwC.free i hm) hst
    · exact hm
  have hvB : ∀ i ∈ s.bounds.fixed, s.dirX d i = if s.toQPB.deltaIsZero h.lb h.ub = true then 0 else
      if s.bounds.status i = ST_LOWER then h.lb i else h.ub i := by
    intro i hi
    have hk := WS.idxOf_fx_lt hi
    have e := QPC.dirX_fx hwB d hk
    have e' := hD.bounds _ hk
    unfold QPC.dirFX at e'
    rw [show s.fx (s.bounds.fixed.idxOf i) = i from WS.fx_idxOf hi] at e e'
    rw [e, e', WS.getStatus_of_lt (w := s.bounds) (hwB.lt_fixed hi)]
  have hvC : ∀ i ∈ s.cons.fixed, s.dirAx d i = if s.deltaIsZeroC h = true then 0 else
      if s.cons.status i = ST_LOWER then h.lbA i else h.ubA i := by
    intro i hi
    have hk := WS.idxOf_fx_lt hi
    have e' := hD.cons _ hk
    unfold QPC.shiftAC at e'
    rw [show s.ac (s.cons.fixed.idxOf i) = i from WS.fx_idxOf hi] at e'
    rw [e', WS.getStatus_of_lt (w := s.cons) (hwC.lt_fixed hi)]
  have hU := UnpackedC.exists hs d
  refine ⟨s.dirX d, joined s.nV (s.dirY d) (s.dirYC d), if s.toQPB.deltaIsZero h.lb h.ub = true then fun _ => 0 else h.lb,
    if s.toQPB.deltaIsZero h.lb h.ub = true then fun _ => 0 else h.ub, if s.deltaIsZeroC h = true then fun _ => 0 else h.lbA,
    if s.deltaIsZeroC h = true then fun _ => 0 else h.ubA, hU, ⟨fun i hi => ?_, fun i hi hst => ?_, fun i hi hst => ?_, fun i hi hst => ?_,
      fun k hk hst => ?_, fun k hk hst => ?_, fun k hk hst => ?_⟩, ?_, ?_⟩
  · rw [joined_lt _ _ hi]
    refine (hD.stat i hi).trans (congrArg _ (sum_congr rfl fun k _ => ?_))
    rw [joined_add]
  · rw [hvB i (hactB i hi (by rw [hst]; decide)), if_pos hst]
    split <;> rfl
  · rw [hvB i (hactB i hi (by rw [hst]; decide)), if_neg (show ¬ s.bounds.status i = ST_LOWER by rw [hst]; decide)]
    split <;> rfl
  · rw [joined_lt _ _ hi]
    have hm := hwB.mem_free_iff.2 ⟨by rw [hs.nB]; exact hi, hst⟩
    have := hwB.scatter_fr (fun _ => (0 : K)) d.yFX (WS.idxOf_fr_lt hm)
    rw [WS.fr_idxOf hm] at this
    exact this
  · rw [hU.row hs, hvC k (hactC k hk (by rw [hst]; decide)), if_pos hst]
    split <;> rfl
  · rw [hU.row hs, hvC k (hactC k hk (by rw [hst]; decide)), if_neg (show ¬ s.cons.status k = ST_LOWER by rw [hst]; decide)]
    split <;> rfl
  · rw [joined_add]
    have hm := hwC.mem_free_iff.2 ⟨by rw [hs.nC]; exact hk, hst⟩
    have := hwC.scatter_fr (fun _ => (0 : K)) d.yAC (WS.idxOf_fr_lt hm)
    rw [WS.fr_idxOf hm] at this
    exact this
  · by_cases hz : s.toQPB.deltaIsZero h.lb h.ub = true
    · rw [if_pos hz, if_pos hz]
      exact Or.inr ⟨rfl, rfl, fun i hi hst => deltaIsZero_le hz i (hactB i hi hst)⟩
    · rw [if_neg hz, if_neg hz]
      exact Or.inl ⟨rfl, rfl⟩
  · by_cases hz : s.deltaIsZeroC h = true
    · rw [if_pos hz, if_pos hz]
      exact Or.inr ⟨rfl, rfl, fun i hi hst => deltaIsZeroC_le hz i (hactC i hi hst)⟩
    · rw [if_neg hz, if_neg hz]
      exact Or.inl ⟨rfl, rfl⟩

/-! ### C30 -/

/-- What stopped the step: nothing, a variable or a constraint. -/
def StopsAtC (s : QPC K) (h : QPC.Shift K) (dx dy : Nat → K) (tau : K) : Option QPC.Change → Prop
  | none => tau = 1
  | some ⟨true, i, st⟩ => StopsAt s.bounds.status s.lb s.ub s.x s.y h.lb h.ub dx dy tau (some (i, st))
  | some ⟨false, k, st⟩ => StopsAt s.cons.status s.lbA s.ubA (QP.row s.nV s.A s.x) (fun k => s.y (s.nV + k)) h.lbA h.ubA (QP.row s.nV s.A dx)
      (fun k => dy (s.nV + k)) tau (some (k, st))

/-- **C30** (general constraints): for every state in which the multipliers of the active limits have the right sign and the stored slacks
of the inactive constraints are those of the iterate, and for every direction, the step oversteps neither limits nor multipliers of variables
and constraints, and the reported index is where it stops. -/
theorem C30_general_partial {s : QPC K} (hs : s.Shape) (he : s.options.epsNum ≤ 0) (hd : 0 ≤ s.options.epsDen)
    (hl : ∀ i < s.nV, s.bounds.type i ≠ ST_EQUALITY → s.bounds.status i = ST_LOWER → 0 ≤ s.y i)
    (hu : ∀ i < s.nV, s.bounds.type i ≠ ST_EQUALITY → s.bounds.status i = ST_UPPER → s.y i ≤ 0)
    (hlA : ∀ k < s.nC, s.cons.type k ≠ ST_EQUALITY → s.cons.status k = ST_LOWER → 0 ≤ s.y (s.nV + k))
    (huA : ∀ k < s.nC, s.cons.type k ≠ ST_EQUALITY → s.cons.status k = ST_UPPER → s.y (s.nV + k) ≤ 0)
    (hslack : ∀ k < s.nC, s.cons.status k = ST_INACTIVE → s.Axl k = QP.row s.nV s.A s.x k - s.lbA k ∧ s.Axu k = s.ubA k - QP.row s.nV s.A s.x k)
    (h : QPC.Shift K) (d : QPC.Dir K) :
    ∃ tau bc, QPC.stepLength s h d = .ok (tau, bc) ∧ ∀ dx dy, UnpackedC s d dx dy →
      NoOverstep s.nV s.bounds.status s.bounds.type (s.bounds.noLower = false) (s.bounds.noUpper = false) s.lb s.ub s.x s.y
        h.lb h.ub dx dy s.options.epsDen tau ∧
      NoOverstep s.nC s.cons.status s.cons.type (s.cons.noLower = false) (s.cons.noUpper = false) s.lbA s.ubA (QP.row s.nV s.A s.x)
        (fun k => s.y (s.nV + k)) h.lbA h.ubA (QP.row s.nV s.A dx) (fun k => dy (s.nV + k)) s.options.epsDen tau ∧
      StopsAtC s h dx dy tau bc := by
  have hwB := hs.okB
  have hwC := hs.okC
  obtain ⟨tau, bc, e, t0, t1, hS, hB⟩ := QPC.stepLength_spec hwB hwC he hd (fun k hk hty => by
    rcases hwC.fixed _ (WS.fx_mem hk) with hst | hst
    · rw [sg_ne (by rw [show s.ac k = s.cons.fx k from rfl, hst]; decide)]
      exact hlA _ (by rw [← hs.nC]; exact hwC.fx_lt hk) hty hst
    · unfold sg
      rw [if_pos (show s.cons.status (s.ac k) = ST_UPPER from hst)]
      exact neg_nonneg.2 (huA _ (by rw [← hs.nC]; exact hwC.fx_lt hk) hty hst)) (fun k hk hty => by
    rcases hwB.fixed _ (WS.fx_mem hk) with hst | hst
    · rw [sg_ne (by rw [show s.fx k = s.bounds.fx k from rfl, hst]; decide)]
      exact hl _ (by rw [← hs.nB]; exact hwB.fx_lt hk) hty hst
    · unfold sg
      rw [if_pos (show s.bounds.status (s.fx k) = ST_UPPER from hst)]
      exact neg_nonneg.2 (hu _ (by rw [← hs.nB]; exact hwB.fx_lt hk) hty hst)) h d
  have cases : ∀ v : K, DenOK s.options.epsDen v ∨ Negligible s.options.epsDen v := fun v => by
    by_cases hc : DenOK s.options.epsDen v
    · exact Or.inl hc
    · unfold DenOK at hc
      rw [not_or, not_le, not_le] at hc
      exact Or.inr hc
  refine ⟨tau, bc, e, fun dx dy hU => ⟨⟨t0, t1, ?_, ?_, ?_, ?_⟩, ⟨t0, t1, ?_, ?_, ?_, ?_⟩, ?_⟩⟩
  · intro hnl i hi hty hst hx
    have hm := hwB.mem_free_iff.2 ⟨by rw [hs.nB]; exact hi, hst⟩
    have hk := WS.idxOf_fr_lt hm
    have ei : s.fr (s.bounds.free.idxOf i) = i := WS.fr_idxOf hm
    have ex := hU.free _ hk
    rw [show s.bounds.free.getD (s.bounds.free.idxOf i) 0 = i from ei] at ex
    have := hS.lowerB hnl _ hk
    rw [ei, ← ex] at this
    refine (cases (h.lb i - dx i)).imp (fun hc => ?_) id
    have := this hty hc
    rw [getMax_of_nonneg (sub_nonneg.2 hx)] at this
    linarith
  · intro hnl i hi hty hst hx
    have hm := hwB.mem_free_iff.2 ⟨by rw [hs.nB]; exact hi, hst⟩
    have hk := WS.idxOf_fr_lt hm
    have ei : s.fr (s.bounds.free.idxOf i) = i := WS.fr_idxOf hm
    have ex := hU.free _ hk
    rw [show s.bounds.free.getD (s.bounds.free.idxOf i) 0 = i from ei] at ex
    have := hS.upperB hnl _ hk
    rw [ei, ← ex] at this
    refine (cases (dx i - h.ub i)).imp (fun hc => ?_) id
    have := this hty hc
    rw [getMax_of_nonneg (sub_nonneg.2 hx)] at this
    linarith
  · intro i hi hty hst
    have hm := hwB.mem_fixed_iff.2 ⟨by rw [hs.nB]; exact hi, Or.inl hst⟩
    have hk := WS.idxOf_fx_lt hm
    have ei : s.fx (s.bounds.fixed.idxOf i) = i := WS.fx_idxOf hm
    have ey := hU.dual _ hk
    rw [show s.bounds.fixed.getD (s.bounds.fixed.idxOf i) 0 = i from ei] at ey
    have := hS.dualB _ hk
    rw [ei, ← ey, sg_ne (by rw [hst]; decide), sg_ne (by rw [hst]; decide)] at this
    exact (cases (-dy i)).imp (fun hc => this hty hc) id
  · intro i hi hty hst
    have hm := hwB.mem_fixed_iff.2 ⟨by rw [hs.nB]; exact hi, Or.inr hst⟩
    have hk := WS.idxOf_fx_lt hm
    have ei : s.fx (s.bounds.fixed.idxOf i) = i := WS.fx_idxOf hm
    have ey := hU.dual _ hk
    rw [show s.bounds.fixed.getD (s.bounds.fixed.idxOf i) 0 = i from ei] at ey
    have := hS.dualB _ hk
    unfold sg at this
    rw [ei, ← ey, if_pos hst, if_pos hst, neg_neg] at this
    exact (cases (dy i)).imp (fun hc => neg_nonneg.1 (this hty hc)) id
  · intro hnl i hi hty hst hx
    have hm := hwC.mem_free_iff.2 ⟨by rw [hs.nC]; exact hi, hst⟩
    have hk := WS.idxOf_fr_lt hm
    have ei : s.iac (s.cons.free.idxOf i) = i := WS.fr_idxOf hm
    have := hS.lowerC hnl _ hk
    rw [ei, ← hU.row hs, (hslack i hi hst).1] at this
    refine (cases (h.lbA i - QP.row s.nV s.A dx i)).imp (fun hc => ?_) id
    have := this hty hc
    rw [getMax_of_nonneg (sub_nonneg.2 hx)] at this
    linarith
  · intro hnl i hi hty hst hx
    have hm := hwC.mem_free_iff.2 ⟨by rw [hs.nC]; exact hi, hst⟩
    have hk := WS.idxOf_fr_lt hm
    have ei : s.iac (s.cons.free.idxOf i) = i := WS.fr_idxOf hm
    have := hS.upperC hnl _ hk
    rw [ei, ← hU.row hs, (hslack i hi hst).2] at this
    refine (cases (QP.row s.nV s.A dx i - h.ubA i)).imp (fun hc => ?_) id
    have := this hty hc
    rw [getMax_of_nonneg (sub_nonneg.2 hx)] at this
    linarith
  · intro i hi hty hst
    have hm := hwC.mem_fixed_iff.2 ⟨by rw [hs.nC]; exact hi, Or.inl hst⟩
    have hk := WS.idxOf_fx_lt hm
    have ei : s.ac (s.cons.fixed.idxOf i) = i := WS.fx_idxOf hm
    have ey := hU.dualA _ hk
    rw [show s.cons.fixed.getD (s.cons.fixed.idxOf i) 0 = i from ei] at ey
    have := hS.dualC _ hk
    rw [ei, ← ey, sg_ne (by rw [hst]; decide), sg_ne (by rw [hst]; decide)] at this
    exact (cases (-dy (s.nV + i))).imp (fun hc => this hty hc) id
  · intro i hi hty hst
    have hm := hwC.mem_fixed_iff.2 ⟨by rw [hs.nC]; exact hi, Or.inr hst⟩
    have hk := WS.idxOf_fx_lt hm
    have ei : s.ac (s.cons.fixed.idxOf i) = i := WS.fx_idxOf hm
    have ey := hU.dualA _ hk
    rw [show s.cons.fixed.getD (s.cons.fixed.idxOf i) 0 = i from ei] at ey
    have := hS.dualC _ hk
    unfold sg at this
    rw [ei, ← ey, if_pos hst, if_pos hst, neg_neg] at this
    exact (cases (dy (s.nV + i))).imp (fun hc => neg_nonneg.1 (this hty hc)) id
  · rcases bc with _ | ⟨isB, i, st⟩
    · exact hB
    · cases isB with
      | true =>
        cases st with
        | ST_INACTIVE =>
          obtain ⟨h1, k, hk, ei, h2, h3, _⟩ := hB
          refine ⟨h1, Or.inl ⟨rfl, ?_, ?_⟩⟩
          · rw [ei]; exact hwB.fixed _ (WS.fx_mem hk)
          · have ey := hU.dual k hk
            rw [show s.bounds.fixed.getD k 0 = i from ei.symm] at ey
            rw [ey]; exact h3
        | ST_LOWER =>
          obtain ⟨h1, hnl, k, hk, ei, h2, h3, _⟩ := hB
          refine ⟨h1, Or.inr (Or.inl ⟨rfl, ?_, fun hx => ?_⟩)⟩
          · rw [ei]; exact hwB.free _ (WS.fr_mem hk)
          · have ex := hU.free k hk
            rw [show s.bounds.free.getD k 0 = i from ei.symm] at ex
            rw [getMax_of_nonneg (sub_nonneg.2 hx), ← ex] at h3
            linarith
        | ST_UPPER =>
          obtain ⟨h1, hnl, k, hk, ei, h2, h3, _⟩ := hB
          refine ⟨h1, Or.inr (Or.inr ⟨rfl, ?_, fun hx => ?_⟩)⟩
          · rw [ei]; exact hwB.free _ (WS.fr_mem hk)
          · have ex := hU.free k hk
            rw [show s.bounds.free.getD k 0 = i from ei.symm] at ex
            rw [getMax_of_nonneg (sub_nonneg.2 hx), ← ex] at h3
            linarith
        | _ => exact absurd hB (by exact fun h => h)
      | false =>
        cases st with
        | ST_INACTIVE =>
          obtain ⟨h1, k, hk, ei, h2, h3, _⟩ := hB
          refine ⟨h1, Or.inl ⟨rfl, ?_, ?_⟩⟩
          · rw [ei]; exact hwC.fixed _ (WS.fx_mem hk)
          · have ey := hU.dualA k hk
            rw [show s.cons.fixed.getD k 0 = i from ei.symm] at ey
            show s.y (s.nV + i) + tau * dy (s.nV + i) = 0
            rw [ey]; exact h3
        | ST_LOWER =>
          obtain ⟨h1, hnl, hm, h2, h3, _⟩ := hB
          have hi : i < s.nC := by rw [← hs.nC]; exact hwC.lt_free hm
          refine ⟨h1, Or.inr (Or.inl ⟨rfl, hwC.free _ hm, fun hx => ?_⟩)⟩
          rw [(hslack i hi (hwC.free _ hm)).1, getMax_of_nonneg (sub_nonneg.2 hx), ← hU.row hs] at h3
          linarith
        | ST_UPPER =>
          obtain ⟨h1, hnl, hm, h2, h3, _⟩ := hB
          have hi : i < s.nC := by rw [← hs.nC]; exact hwC.lt_free hm
          refine ⟨h1, Or.inr (Or.inr ⟨rfl, hwC.free _ hm, fun hx => ?_⟩)⟩
          rw [(hslack i hi (hwC.free _ hm)).2, getMax_of_nonneg (sub_nonneg.2 hx), ← hU.row hs] at h3
          linarith
        | _ => exact absurd hB (by exact fun h => h)

/-! ### C31 -/

/-- The QP with the current data of the solver -/
def QPC.current (s : QPC K) : QP K :=
  { nV := s.nV, nC := s.nC, H := s.Heff, g := s.g, lb := s.lb, ub := s.ub, A := s.A, lbA := s.lbA, ubA := s.ubA }

/-- The iterate of the solver is optimal for its current data.  A constraint whose type says that it has no limits is not watched. -/
def OptimalC (s : QPC K) : Prop :=
  OptimalGeneral (QPC.current s) s.bounds.status s.cons.status s.bounds.type s.cons.type (fun _ => s.bounds.noLower = false)
    (fun _ => s.bounds.noUpper = false) (fun k => s.cons.type k ≠ ST_UNBOUNDED ∧ s.cons.noLower = false)
    (fun k => s.cons.type k ≠ ST_UNBOUNDED ∧ s.cons.noUpper = false) s.x s.y

theorem side_iff {w : WS} (hw : w.OK) {n : Nat} (hn : w.n = n) {obs : Nat → Prop} {v l u y : Nat → K} :
    SideOptimal n w.status w.type (fun i => obs i ∧ w.noLower = false) (fun i => obs i ∧ w.noUpper = false) l u v y ↔ SideOK w obs v l u y n := by
  refine ⟨fun h => ⟨h.lower, h.upper, fun i hi hs => ⟨h.inactive i hi hs, fun ho => ⟨fun hl => h.above i hi ⟨ho, hl⟩, fun hl => h.below i hi ⟨ho, hl⟩⟩⟩,
    h.consistent, h.equality⟩, fun h => ⟨fun i hi ho => ?_, fun i hi ho => ?_, h.box, h.lower, h.upper, fun i hi hs => (h.inactive i hi hs).1, h.eq,
    fun i hi => hw.status_cases (by rw [hn]; exact hi)⟩⟩
  · rcases hw.status_cases (i := i) (by rw [hn]; exact hi) with hs | hs | hs
    · exact ((h.inactive i hi hs).2 ho.1).1 ho.2
    · exact (h.lower i hi hs).1.ge
    · exact (h.box i hi).trans (h.upper i hi hs).1.ge
  · rcases hw.status_cases (i := i) (by rw [hn]; exact hi) with hs | hs | hs
    · exact ((h.inactive i hi hs).2 ho.1).2 ho.2
    · exact (h.lower i hi hs).1.le.trans (h.box i hi)
    · exact (h.upper i hi hs).1.le

theorem optimalC_iff {s : QPC K} (hs : s.Shape) : OptimalC s ↔ s.Opt := by
  have hrow : QP.row s.nV s.A s.x = s.prodA s.x := funext fun k => row_A s.x k
  have e1 := side_iff (K := K) hs.okB hs.nB (obs := fun _ => True) (v := s.x) (l := s.lb) (u := s.ub) (y := s.y)
  have e2 := side_iff (K := K) hs.okC hs.nC (obs := fun i => s.cons.type i ≠ ST_UNBOUNDED) (v := s.prodA s.x) (l := s.lbA) (u := s.ubA)
    (y := fun k => s.y (s.nV + k))
  simp only [true_and] at e1
  constructor
  · intro h
    refine ⟨h.stat, e1.1 h.bounds, e2.1 ?_⟩
    have := h.constraints
    change SideOptimal s.nC _ _ _ _ s.lbA s.ubA (QP.row s.nV s.A s.x) _ at this
    rw [hrow] at this
    exact this
  · intro h
    refine ⟨h.stat, e1.2 h.bounds, ?_⟩
    change SideOptimal s.nC _ _ _ _ s.lbA s.ubA (QP.row s.nV s.A s.x) _
    rw [hrow]
    exact e2.2 h.cons

/-- A homotopy step, src/QProblem.cpp:1671-1722: direction towards the data given, then the step. -/
def homotopyStepC (s : QPC K) (gN lbN ubN lbAN ubAN : Nat → K) : Res (Except ReturnValue (QPC K × Option QPC.Change)) := do
  match ← s.direction (s.shiftTo gN lbN ubN lbAN ubAN) with
  | .error r => .ok (.error r)
  | .ok d => do
    let r ← QPC.performStep s (s.shiftTo gN lbN ubN lbAN ubAN) d
    .ok (.ok r)

/-- The variable or constraint reported may change its status: a multiplier has become zero or a limit is attained. -/
def MayChange (s : QPC K) : Option QPC.Change → Prop
  | none => True
  | some ⟨true, i, st⟩ => i < s.nV ∧ s.bounds.type i ≠ ST_EQUALITY ∧
      (st = ST_INACTIVE ∧ s.bounds.status i ≠ ST_INACTIVE ∧ s.y i = 0 ∨ st = ST_LOWER ∧ s.bounds.status i = ST_INACTIVE ∧ s.x i = s.lb i ∨
       st = ST_UPPER ∧ s.bounds.status i = ST_INACTIVE ∧ s.x i = s.ub i)
  | some ⟨false, k, st⟩ => k < s.nC ∧ s.cons.type k ≠ ST_EQUALITY ∧
      (st = ST_INACTIVE ∧ s.cons.status k ≠ ST_INACTIVE ∧ s.y (s.nV + k) = 0 ∨
       st = ST_LOWER ∧ s.cons.status k = ST_INACTIVE ∧ QP.row s.nV s.A s.x k = s.lbA k ∨
       st = ST_UPPER ∧ s.cons.status k = ST_INACTIVE ∧ QP.row s.nV s.A s.x k = s.ubA k)

theorem MayChange.of_limit {s : QPC K} (hs : s.Shape) {bc : Option QPC.Change} (h : QPC.AtLimit s bc) : MayChange s bc := by
  have hwB := hs.okB
  have hwC := hs.okC
  rcases bc with _ | ⟨isB, i, st⟩
  · trivial
  cases isB <;> cases st <;> try exact absurd h (fun h => h)
  · obtain ⟨m1, m2, m3⟩ := h
    exact ⟨by rw [← hs.nC]; exact hwC.lt_free m1, m2, Or.inr (Or.inl ⟨rfl, hwC.free _ m1, (row_A _ _).trans m3⟩)⟩
  · obtain ⟨m1, m2, m3⟩ := h
    refine ⟨by rw [← hs.nC]; exact hwC.lt_fixed m1, m2, Or.inl ⟨rfl, ?_, m3⟩⟩
    rcases hwC.fixed _ m1 with h | h <;> rw [h] <;> decide
  · obtain ⟨m1, m2, m3⟩ := h
    exact ⟨by rw [← hs.nC]; exact hwC.lt_free m1, m2, Or.inr (Or.inr ⟨rfl, hwC.free _ m1, (row_A _ _).trans m3⟩)⟩
  · obtain ⟨m1, m2, m3⟩ := h
    exact ⟨by rw [← hs.nB]; exact hwB.lt_free m1, m2, Or.inr (Or.inl ⟨rfl, hwB.free _ m1, m3⟩)⟩
  · obtain ⟨m1, m2, m3⟩ := h
    refine ⟨by rw [← hs.nB]; exact hwB.lt_fixed m1, m2, Or.inl ⟨rfl, ?_, m3⟩⟩
    rcases hwB.fixed _ m1 with h | h <;> rw [h] <;> decide
  · obtain ⟨m1, m2, m3⟩ := h
    exact ⟨by rw [← hs.nB]; exact hwB.lt_free m1, m2, Or.inr (Or.inr ⟨rfl, hwB.free _ m1, m3⟩)⟩

/-- **C31** (general constraints): from an iterate that is optimal for the current data, a homotopy step leads to an iterate that is optimal
for the data on the way to the requested ones at the fraction `tau`, and the variable or constraint reported as blocking may change its status.
The stored values of the constraints are those of the iterate, and stay so.  The numbers of the step must not lie strictly between zero and a
tolerance, and a constraint that blocks must not be of the type without limits. -/
theorem C31_general_partial {s : QPC K} (hF : s.Facs) (hA : s.AxOK) (hO : QPC.OptionsOK s.options) (hopt : OptimalC s)
    {gN lbN ubN lbAN ubAN : Nat → K} (hT : QPC.Target s lbN ubN lbAN ubAN)
    (hshift : ∀ i < s.nV, (|lbN i - s.lb i| ≤ EPS → lbN i = s.lb i) ∧ (|ubN i - s.ub i| ≤ EPS → ubN i = s.ub i))
    (hshiftA : ∀ k < s.nC, (|lbAN k - s.lbA k| ≤ EPS → lbAN k = s.lbA k) ∧ (|ubAN k - s.ubA k| ≤ EPS → ubAN k = s.ubA k))
    (hden : s.options.epsDen = 0 ∨ ∀ d, s.direction (s.shiftTo gN lbN ubN lbAN ubAN) = .ok (.ok d) →
      QPC.NoTiny s (s.shiftTo gN lbN ubN lbAN ubAN) d)
    {s1 : QPC K} {bc : Option QPC.Change} (e : homotopyStepC s gN lbN ubN lbAN ubAN = .ok (.ok (s1, bc)))
    (hlen : s1.tau = 0 ∨ ZERO < s1.tau) (hlim : QPC.HasLimit s bc) :
    OptimalC s1 ∧ s1.AxOK ∧ s1.Facs ∧ s1.bounds = s.bounds ∧ s1.cons = s.cons ∧ s1.Heff = s.Heff ∧ s1.A = s.A ∧ 0 ≤ s1.tau ∧ s1.tau ≤ 1 ∧
      (∀ i, s1.g i = s.g i + s1.tau * (gN i - s.g i)) ∧
      (∀ i, s1.lb i = s.lb i + s1.tau * (lbN i - s.lb i)) ∧ (∀ i, s1.ub i = s.ub i + s1.tau * (ubN i - s.ub i)) ∧
      (∀ k, s1.lbA k = s.lbA k + s1.tau * (lbAN k - s.lbA k)) ∧ (∀ k, s1.ubA k = s.ubA k + s1.tau * (ubAN k - s.ubA k)) ∧
      MayChange s1 bc := by
  have hs := hF.shape
  have ho := (optimalC_iff hs).1 hopt
  unfold homotopyStepC at e
  rw [Res.bind_eq_ok] at e
  obtain ⟨o, ed, e⟩ := e
  cases o with
  | error r => cases e
  | ok d =>
  dsimp only at e
  rw [Res.bind_eq_ok] at e
  obtain ⟨r, e1, e⟩ := e
  simp only [Res.ok.injEq, Except.ok.injEq] at e
  subst e
  have hD := QPC.determineStepDirection_spec hF hO.iterRef hO.refSteps (s.shiftTo gN lbN ubN lbAN ubAN) _ _ ed
  have hnt : QPC.NoTiny s (s.shiftTo gN lbN ubN lbAN ubAN) d := by
    rcases hden with hz | hden
    · have all : ∀ v : K, DenOK s.options.epsDen v := fun v => by rw [hz]; exact le_total v 0
      exact ⟨fun _ _ _ => all _, fun _ _ _ => all _, fun _ _ _ => all _, fun _ _ _ => all _, fun _ _ _ => all _, fun _ _ _ => all _⟩
    · exact hden d ed
  obtain ⟨tau, bc', e2, t0, t1, hst, hbl⟩ := QPC.stepLength_spec hs.okB hs.okC hO.epsNum hO.epsDen
    (ho.cons.sign hs.okC hs.nC) (ho.bounds.sign hs.okB hs.nB) (s.shiftTo gN lbN ubN lbAN ubAN) d
  unfold QPC.performStep at e1
  rw [e2] at e1
  simp only [Res.bind_ok, Res.ok.injEq, Prod.mk.injEq] at e1
  obtain ⟨e1, rfl⟩ := e1
  have ef := QPC.takeStep_fields s (s.shiftTo gN lbN ubN lbAN ubAN) d tau
  have et : s1.tau = tau := by rw [← e1, ef]
  rw [et] at hlen
  obtain ⟨hO1, hA1, hL⟩ := ho.takeStep hA hs hD (fun hz i hi => by
      have h3 := deltaIsZero_le hz i hi
      have hi' : i < s.nV := by rw [← hs.nB]; exact hs.okB.lt_fixed hi
      split
      · rw [(hshift i hi').1 h3.1, sub_self]
      · rw [(hshift i hi').2 h3.2, sub_self]) (fun hz i hi => by
      have h3 := deltaIsZeroC_le hz i hi
      have hi' : i < s.nC := by rw [← hs.nC]; exact hs.okC.lt_fixed hi
      split
      · rw [(hshiftA i hi').1 h3.1, sub_self]
      · rw [(hshiftA i hi').2 h3.2, sub_self]) t0 t1 hst hbl hnt hlen hlim hT.box hT.eq hT.boxA hT.eqA
  obtain ⟨ex, ey, eyc, eg, el, eu, elA, euA, eA⟩ := QPC.takeStep_data hs (s.shiftTo gN lbN ubN lbAN ubAN) d hlen
  rw [e1] at hO1 hA1 hL eg el eu elA euA ef
  have hF1 : s1.Facs := by
    refine hF.congr ?_ ?_ ?_ ?_ ?_ ?_ ?_ ?_ ?_ ?_ ?_ <;> rw [ef]
    exact id
  rw [et]
  refine ⟨(optimalC_iff hF1.shape).2 hO1, hA1, hF1, ?_, ?_, ?_, ?_, t0, t1, eg, el, eu, elA, euA, MayChange.of_limit hF1.shape hL⟩
  all_goals rw [ef]
  rfl

/-! ### C32 -/

/-- A variable or constraint whose data need no repair. -/
structure SettledAt (status : SubjectToStatus) (l u v y : K) : Prop where
  lower : status = ST_LOWER → v = l ∧ 0 ≤ y
  upper : status = ST_UPPER → v = u ∧ y ≤ 0
  inactive : status = ST_INACTIVE → y = 0
  above : l ≤ v
  below : v ≤ u

/-- Members with finite limits may be in any state, if equalities are active; the others need no repair. -/
def Repairable (w : WS) (l u v y : Nat → K) (n : Nat) : Prop :=
  ∀ i < n, w.type i = ST_BOUNDED ∨ (w.type i = ST_EQUALITY ∧ w.status i ≠ ST_INACTIVE) ∨
    w.type i = ST_UNBOUNDED ∧ SettledAt (w.status i) (l i) (u i) (v i) (y i)

theorem Repairable.fixable {w : WS} {l u v y : Nat → K} {n : Nat} (h : Repairable w l u v y n) (obs : Nat → Prop) :
    ∀ i < n, SideOK.Fixable w obs v l u y i := by
  intro i hi
  rcases h i hi with h | h | ⟨h, h'⟩
  · exact Or.inl h
  · exact Or.inr (Or.inl h)
  · exact Or.inr (Or.inr ⟨by rw [h]; decide, by rw [h]; decide, h'.lower, h'.upper,
      fun e => ⟨h'.inactive e, fun _ => ⟨fun _ => h'.above, fun _ => h'.below⟩⟩, h'.above.trans h'.below⟩)

/-- **C32** (drift correction, general constraints): whatever the data, primal and dual iterates of variables and constraints with finite
limits (which equalities must be active), the corrected pair is optimal for the corrected data; iterates and working set are kept.
The values of the constraints the solver has stored must be those of the iterate. -/
theorem C32_drift_general_partial {s s' : QPC K} (hs : s.Shape) (hH : ¬ s.scalarH → s.H ≠ none)
    (hB : Repairable s.bounds s.lb s.ub s.x s.y s.nV)
    (hC : Repairable s.cons s.lbA s.ubA (QP.row s.nV s.A s.x) (fun k => s.y (s.nV + k)) s.nC)
    (hAx : ∀ k < s.nC, s.Ax k = QP.row s.nV s.A s.x k) (e : QPC.performDriftCorrection s = .ok s') :
    OptimalC s' ∧ s'.x = s.x ∧ s'.bounds = s.bounds ∧ s'.cons = s.cons ∧ s'.Heff = s.Heff ∧ s'.A = s.A := by
  have hrow : QP.row s.nV s.A s.x = s.prodA s.x := funext fun k => row_A s.x k
  rw [hrow] at hC hAx
  obtain ⟨ho, l, u, y, lA, uA, al, au, g, rfl⟩ := QPC.performDriftCorrection_opt hs hH (hB.fixable _) (hC.fixable _) (fun i hi _ => hAx i hi) e
  exact ⟨(optimalC_iff (by exact ⟨hs.okB, hs.okC, hs.nB, hs.nC, hs.size⟩)).2 ho, rfl, rfl, rfl, rfl, rfl⟩

/-- **C32** (ramping, general constraints). -/
theorem C32_ramping_general_partial {s s' : QPC K} (hs : s.Shape) (hH : ¬ s.scalarH → s.H ≠ none) (h0 : 0 ≤ s.ramp0) (h1 : 0 ≤ s.ramp1)
    (hB : Repairable s.bounds s.lb s.ub s.x s.y s.nV)
    (hC : Repairable s.cons s.lbA s.ubA (QP.row s.nV s.A s.x) (fun k => s.y (s.nV + k)) s.nC)
    (hAx : ∀ k < s.nC, s.Ax k = QP.row s.nV s.A s.x k) (e : QPC.performRamping s = .ok s') :
    OptimalC s' ∧ s'.x = s.x ∧ s'.bounds = s.bounds ∧ s'.cons = s.cons ∧ s'.Heff = s.Heff ∧ s'.A = s.A := by
  have hrow : QP.row s.nV s.A s.x = s.prodA s.x := funext fun k => row_A s.x k
  rw [hrow] at hC hAx
  obtain ⟨ho, l, u, y, lA, uA, al, au, g, off, rfl⟩ := QPC.performRamping_opt hs hH (hB.fixable _) (hC.fixable _) (fun i hi _ => hAx i hi) h0 h1 e
  exact ⟨(optimalC_iff (by exact ⟨hs.okB, hs.okC, hs.nB, hs.nC, hs.size⟩)).2 ho, rfl, rfl, rfl, rfl, rfl⟩

/-! ### C33 -/

/-- **C33** (general constraints): a cold start with any guesses of point, multipliers and working set begins with a QP, with the Hessian and
the constraint matrix of the original one, whose solution is the guess (or zero).  `AuxClean`: in the initial working set, which holds the
guessed members as far as they are independent, the guessed multipliers have the right sign, and building it hits no tolerance. -/
theorem C33_general_partial {sq : K → K} {s : QPC K} (hs : QPC.Usable s) {H : Option (Nat → K)} {g a : Nat → K}
    {lb ub lbA ubA : Option (Nat → K)} (ha : QPC.Admissible s (lowerOf lb) (upperOf ub) (lowerOf lbA) (upperOf ubA))
    {M : Nat → Nat → K} (hM : GivenHessian (s.coldData H g a lb ub lbA ubA).toQPB M) (hsym : QP.Symmetric s.nV M)
    (hst : (s.coldData H g a lb ub lbA ubA).SymH) {nWSR : Int} {cputime : Option K} {xOpt yOpt : Option (Nat → K)} {gB gC : Option WS}
    (hc : QPC.AuxClean sq ((s.coldData H g a lb ub lbA ubA).coldStart xOpt yOpt) xOpt yOpt gB gC)
    {e : Except (OutC K) (QPC K)}
    (he : QPC.prepareInitialQP sq (s.coldData H g a lb ub lbA ubA) xOpt yOpt gB gC none nWSR cputime = .ok e) :
    (∀ o, e = .error o → o.rv = RET_INIT_FAILED) ∧
    ∀ s', e = .ok s' → OptimalC s' ∧ s'.nV = s.nV ∧ s'.nC = s.nC ∧ s'.x = xOpt.getD (fun _ => 0) ∧
      (s.options.enableRamping = false → s'.y = yOpt.getD (fun _ => 0)) ∧
      (∀ i < s.nV, ∀ j < s.nV, |s'.Heff i j - M i j| ≤ EPS) ∧ s'.A = (s.coldData H g a lb ub lbA ubA).A ∧
      s'.status = QPS_AUXILIARYQPSOLVED := by
  have c := hs.cold H g a lb ub lbA ubA
  obtain ⟨m1, m2, m3, m4⟩ := hM.spec (by rw [c.nV]; exact hsym)
  obtain ⟨k1, k2⟩ := QPC.prepareInitialQP_spec (hs.coldOK ha hM hsym hst) hc he
  refine ⟨k1, fun s' hs' => ?_⟩
  obtain ⟨p, px, py⟩ := k2 s' hs'
  have hnV : s'.nV = s.nV := p.problem.nV.trans c.nV
  refine ⟨(optimalC_iff p.base.shape).2 p.opt, hnV, p.problem.nC.trans c.nC, px, fun hr => py (by rw [c.options]; exact hr), fun i hi j hj => ?_,
    p.problem.A, p.status⟩
  have : s'.Heff = _ := p.problem.hess
  rw [this]
  exact m3 i (by rw [show (s.coldData H g a lb ub lbA ubA).toQPB.nV = s.nV from c.nV]; exact hi) j
    (by rw [show (s.coldData H g a lb ub lbA ubA).toQPB.nV = s.nV from c.nV]; exact hj)

/-! ### the hypotheses are met -/
section
open Runs

/-- The data of the second call of `gen2`, as the target of a homotopy from the solution of `gen1` -/
def homotopy31 (s : QPC ℚ) : Res (Except ReturnValue (QPC ℚ × Option QPC.Change)) :=
  homotopyStepC s (vec [40,-100]) (vec [-2,-100]) (vec [100,100]) (vec [-50]) (vec [5])

/-- `C29_general_partial`, `C30_general_partial`, `C31_general_partial`: the state after the cold start `gen1`, in which the constraint is active at
its upper limit, and the first step towards the data of `gen2`, after which the constraint may leave the working set. -/
theorem homotopy31_hypotheses : ∃ o, gen1 = .ok o ∧ o.s.Facs ∧ o.s.AxOK ∧ QPC.OptionsOK o.s.options ∧ OptimalC o.s ∧
    QPC.Target o.s (vec [-2,-100]) (vec [100,100]) (vec [-50]) (vec [5]) ∧
    (∀ i < o.s.nV, (|vec [-2,-100] i - o.s.lb i| ≤ EPS → vec [-2,-100] i = o.s.lb i) ∧ (|vec [100,100] i - o.s.ub i| ≤ EPS → vec [100,100] i = o.s.ub i)) ∧
    (∀ k < o.s.nC, (|vec [-50] k - o.s.lbA k| ≤ EPS → vec [-50] k = o.s.lbA k) ∧ (|vec [5] k - o.s.ubA k| ≤ EPS → vec [5] k = o.s.ubA k)) ∧
    (∀ d, o.s.direction (o.s.shiftTo (vec [40,-100]) (vec [-2,-100]) (vec [100,100]) (vec [-50]) (vec [5])) = .ok (.ok d) →
      QPC.NoTiny o.s (o.s.shiftTo (vec [40,-100]) (vec [-2,-100]) (vec [100,100]) (vec [-50]) (vec [5])) d) ∧
    ∃ s1 bc, homotopy31 o.s = .ok (.ok (s1, bc)) ∧ ZERO < s1.tau ∧ s1.tau < 1 ∧ QPC.HasLimit o.s bc ∧ bc = some ⟨false, 0, ST_INACTIVE⟩ := by
  obtain ⟨o, e, _, _, _, hs⟩ := gen1_session
  have hl := hs.live
  obtain ⟨o1, e1, h⟩ := of_holds (r := gen1) (p := fun o : OutC ℚ =>
    decide (∀ i < o.s.nV, (|vec [-2,-100] i - o.s.lb i| ≤ EPS → vec [-2,-100] i = o.s.lb i) ∧ (|vec [100,100] i - o.s.ub i| ≤ EPS → vec [100,100] i = o.s.ub i)) &&
    decide (∀ k < o.s.nC, (|vec [-50] k - o.s.lbA k| ≤ EPS → vec [-50] k = o.s.lbA k) ∧ (|vec [5] k - o.s.ubA k| ≤ EPS → vec [5] k = o.s.ubA k)) &&
    decide (∀ d, o.s.direction (o.s.shiftTo (vec [40,-100]) (vec [-2,-100]) (vec [100,100]) (vec [-50]) (vec [5])) = .ok (.ok d) →
      QPC.NoTiny o.s (o.s.shiftTo (vec [40,-100]) (vec [-2,-100]) (vec [100,100]) (vec [-50]) (vec [5])) d) &&
    holds (homotopy31 o.s) (fun r => match r with
      | .ok (s1, bc) => decide (ZERO < s1.tau ∧ s1.tau < 1 ∧ QPC.HasLimit o.s bc) && (match bc with
        | some ⟨false, 0, ST_INACTIVE⟩ => true
        | _ => false)
      | .error _ => false) &&
    decide ((∀ i < o.s.nV, vec [-2,-100] i ≤ vec [100,100] i ∧ o.s.bounds.type i ≠ ST_EQUALITY) ∧
      ∀ k < o.s.nC, vec [-50] k ≤ vec [5] k ∧ o.s.cons.type k ≠ ST_EQUALITY))
    (by decide +kernel)
  rw [e] at e1
  cases e1
  simp only [Bool.and_eq_true] at h
  obtain ⟨⟨⟨⟨h1, h2⟩, h3⟩, h4⟩, h5⟩ := h
  obtain ⟨h5, h6⟩ := of_decide_eq_true h5
  obtain ⟨r, er, h4⟩ := of_holds h4
  rcases r with r | ⟨s1, bc⟩
  · cases h4
  simp only [Bool.and_eq_true] at h4
  obtain ⟨t1, t2, t3⟩ := of_decide_eq_true h4.1
  refine ⟨o, e, hl.good.facs, hl.good.ax, hl.params.options, (optimalC_iff hl.good.facs.shape).2 hl.good.opt,
    ⟨fun i hi => (h5 i hi).1, fun i hi hq => absurd hq (h5 i hi).2, fun i hi => (h6 i hi).1, fun i hi hq => absurd hq (h6 i hi).2⟩,
    of_decide_eq_true h1, of_decide_eq_true h2, of_decide_eq_true h3, s1, bc, er, t1, t2, t3, ?_⟩
  have h4 := h4.2
  split at h4
  · rfl
  · cases h4

/-- `C32_drift_general_partial`: a state far from optimal, with the values of the constraint it belongs to. -/
def drift32 (s : QPC ℚ) : QPC ℚ := { s with x := vec [7, -3], y := vec [1/10, 0, 1/10], Ax := fun _ => 9 }

example : ∃ o, gen1 = .ok o ∧ (drift32 o.s).Shape ∧ Repairable (drift32 o.s).bounds (drift32 o.s).lb (drift32 o.s).ub (drift32 o.s).x (drift32 o.s).y 2 ∧
    Repairable (drift32 o.s).cons (drift32 o.s).lbA (drift32 o.s).ubA (QP.row 2 (drift32 o.s).A (drift32 o.s).x) (fun k => (drift32 o.s).y (2 + k)) 1 ∧
    (∀ k < 1, (drift32 o.s).Ax k = QP.row 2 (drift32 o.s).A (drift32 o.s).x k) ∧ ¬ OptimalC (drift32 o.s) ∧
    holds (QPC.performDriftCorrection (drift32 o.s)) (fun s => decide (s.ubA 0 = 9 ∧ s.y 2 = 0 ∧ s.y 0 = 0)) = true ∧
    holds (QPC.performRamping { drift32 o.s with ramp0 := 1/2, ramp1 := 1 }) (fun s => decide (s.ubA 0 = 9 ∧ s.y 2 = -4/5 ∧ s.lb 0 = 7/2)) = true := by
  obtain ⟨o, e, _, _, h3, hs⟩ := gen1_session
  have hl := hs.live
  have hsh := hl.good.facs.shape
  obtain ⟨o1, e1, h⟩ := of_holds (r := gen1) (p := fun o : OutC ℚ => decide (∀ i : Nat, i < 2 → o.s.bounds.type i = ST_BOUNDED) && decide (o.s.cons.type 0 = ST_BOUNDED) &&
    decide (∀ k : Nat, k < 1 → 9 = sumTo (fun j => o.s.A k j * vec [7, -3] j) 2) && decide (o.s.bounds.status 0 = ST_INACTIVE) &&
    holds (QPC.performDriftCorrection (drift32 o.s)) (fun s => decide (s.ubA 0 = 9 ∧ s.y 2 = 0 ∧ s.y 0 = 0)) &&
    holds (QPC.performRamping { drift32 o.s with ramp0 := 1/2, ramp1 := 1 }) (fun s => decide (s.ubA 0 = 9 ∧ s.y 2 = -4/5 ∧ s.lb 0 = 7/2))) (by decide +kernel)
  rw [e] at e1
  cases e1
  simp only [Bool.and_eq_true] at h
  obtain ⟨⟨⟨⟨⟨h1, h2⟩, h4⟩, h5⟩, h6⟩, h7⟩ := h
  refine ⟨o, e, ⟨hsh.okB, hsh.okC, hsh.nB, hsh.nC, hsh.size⟩, fun i hi => Or.inl (of_decide_eq_true h1 i hi), fun i hi => ?_, fun k hk => ?_, fun hopt => ?_, h6, h7⟩
  · obtain rfl : i = 0 := by omega
    exact Or.inl (of_decide_eq_true h2)
  · have := of_decide_eq_true h4 k hk
    rw [sumTo_eq] at this
    exact this
  · have := hopt.bounds.inactive 0 (show 0 < o.s.nV by rw [hl.nV]; decide) (of_decide_eq_true h5)
    revert this
    show ¬ (vec [1/10, 0, 1/10] 0 : ℚ) = 0
    decide +kernel

/-- **C32 violated** (general constraints): drift of the stored values of the constraints is not corrected: the limits of the constraint are moved to the
stored value, not to that of the iterate. -/
theorem C32_stored_violation : ∃ (s s' : QPC ℚ), s.Shape ∧ (∀ i < s.nV, s.bounds.type i = ST_BOUNDED) ∧ (∀ k < s.nC, s.cons.type k = ST_BOUNDED) ∧
    QPC.performDriftCorrection s = .ok s' ∧ ¬ OptimalC s' := by
  obtain ⟨o, e, _, _, h3, hs⟩ := gen1_session
  have hl := hs.live
  have hsh := hl.good.facs.shape
  obtain ⟨o1, e1, h⟩ := of_holds (r := gen1) (p := fun o : OutC ℚ => decide (∀ i < o.s.nV, o.s.bounds.type i = ST_BOUNDED) && decide (∀ k < o.s.nC, o.s.cons.type k = ST_BOUNDED) &&
    holds (QPC.performDriftCorrection { o.s with Ax := fun _ => 6 }) (fun s => decide (0 < s.nC ∧ s.cons.status 0 = ST_UPPER ∧ s.prodA s.x 0 ≠ s.ubA 0)))
    (by decide +kernel)
  rw [e] at e1
  cases e1
  simp only [Bool.and_eq_true] at h
  obtain ⟨⟨h1, h2⟩, h3⟩ := h
  obtain ⟨s', e', h'⟩ := of_holds h3
  obtain ⟨k0, k1, k2⟩ := of_decide_eq_true h'
  refine ⟨{ o.s with Ax := fun _ => 6 }, s', ⟨hsh.okB, hsh.okC, hsh.nB, hsh.nC, hsh.size⟩, of_decide_eq_true h1, of_decide_eq_true h2, e', fun hopt => ?_⟩
  have := (hopt.constraints.upper 0 k0 k1).1
  exact k2 ((row_A _ _).symm.trans this)

/-- `C33_general_partial`: guesses of the point and of the multipliers, which put the constraint and a variable into the working set. -/
theorem clean33 : QPC.AuxClean rootC (gen0c.coldStart (some (vec [1/2, 7])) (some (vec [2, 0, -3]))) (some (vec [1/2, 7])) (some (vec [2, 0, -3])) none none := by
  decide +kernel

example : holds (QPC.prepareInitialQP rootC gen0c (some (vec [1/2, 7])) (some (vec [2, 0, -3])) none none none 10 none) (fun e => match e with
      | .ok s => decide (s.bounds.status 0 = ST_LOWER ∧ s.bounds.status 1 = ST_INACTIVE ∧ s.cons.status 0 = ST_UPPER ∧ s.x 0 = 1/2 ∧ s.lb 0 = 1/2 ∧
          s.ubA 0 = 59/2 ∧ s.g 0 = -9 ∧ s.y 2 = -3)
      | .error _ => false) = true := by
  decide +kernel

end

end QpOASES.Props
