import Verif.Proofs.QPBSession
import Verif.Proofs.QPBCheck
import Verif.Proofs.QPBRuns
import Verif.Spec.Homotopy
import Mathlib.Tactic.NormNum
import Mathlib.Tactic.IntervalCases

/-!
C29-C33: the building blocks of the homotopy method, for QPs with bounds on the variables only: step direction, ratio test,
step, drift correction and ramping, and the auxiliary QP of a cold start.
-/
namespace QpOASES.Props
open Finset Spec QPB ReturnValue SubjectToStatus SubjectToType HessianType QProblemStatus

set_option linter.unusedSectionVars false

variable {K : Type} [Field K] [LinearOrder K] [IsStrictOrderedRing K]

/-- The solver stores its directions by position in the lists of free and fixed variables: `dx`, `dy` are the same numbers
by variable. -/
structure Unpacked (s : QPB K) (d : Dir K) (dx dy : Nat → K) : Prop where
  free : ∀ k < s.bounds.free.length, dx (s.bounds.free.getD k 0) = d.xFR k
  fixed : ∀ k < s.bounds.fixed.length, dx (s.bounds.fixed.getD k 0) = d.xFX k
  dual : ∀ k < s.bounds.fixed.length, dy (s.bounds.fixed.getD k 0) = d.yFX k

theorem Unpacked.exists {s : QPB K} (hw : s.bounds.OK) (d : Dir K) :
    Unpacked s d (s.dirX d) (s.dirY d) ∧ ∀ i ∈ s.bounds.free, s.dirY d i = 0 := by
  refine ⟨⟨fun k hk => hw.scatter_fr _ _ hk, fun k hk => hw.scatter_fx _ _ hk, fun k hk => hw.scatter_fx _ _ hk⟩, fun i hi => ?_⟩
  have := hw.scatter_fr (fun _ => (0 : K)) d.yFX (WS.idxOf_fr_lt hi)
  rw [WS.fr_idxOf hi] at this
  exact this

/-! ### C29 -/

theorem deltaIsZero_le {s : QPB K} {dlb dub : Nat → K} (h : s.deltaIsZero dlb dub = true) :
    ∀ i ∈ s.bounds.fixed, |dlb i| ≤ EPS ∧ |dub i| ≤ EPS := by
  intro i hi
  have := List.all_eq_true.1 h i hi
  rw [Bool.not_eq_true', Bool.or_eq_false_iff, decide_eq_false_iff_not, decide_eq_false_iff_not] at this
  exact ⟨not_lt.1 this.1, not_lt.1 this.2⟩

/-- **C29** (bounds only): whatever the data change, a computed step direction satisfies the linearised optimality conditions
of the working set, except that shifts of active limits not larger than the machine precision may be neglected (and they
are only if all of them are that small). -/
theorem C29_partial {s : QPB K} (hF : s.Factor) (hw : s.bounds.OK) (hn : s.bounds.n = s.nV) (hsym : QP.Symmetric s.nV s.Heff)
    (hO : s.hessianType = HST_ZERO → 0 < s.options.epsIterRef ∨ s.options.numRefinementSteps ≤ 0)
    (hO' : 0 ≤ s.options.numRefinementSteps) (dg dlb dub : Nat → K) :
    ∃ o, determineStepDirection s dg dlb dub (s.deltaIsZero dlb dub) = .ok o ∧ ∀ d, o = some d →
      ∃ dx dy dlb' dub', Unpacked s d dx dy ∧ Direction s.nV s.Heff s.bounds.status dg dlb' dub' dx dy ∧
        (dlb' = dlb ∧ dub' = dub ∨ dlb' = (fun _ => 0) ∧ dub' = (fun _ => 0) ∧
          ∀ i < s.nV, s.bounds.status i ≠ ST_INACTIVE → |dlb i| ≤ EPS ∧ |dub i| ≤ EPS) := by
  obtain ⟨o, e, h⟩ := determineStepDirection_spec hF hw hn hsym hO hO' dg dlb dub (s.deltaIsZero dlb dub)
  refine ⟨o, e, fun d hd => ?_⟩
  obtain ⟨h1, h2⟩ := h d hd
  obtain ⟨u1, u2⟩ := Unpacked.exists hw d
  have hin : ∀ i < s.nV, s.bounds.status i = ST_INACTIVE → s.dirY d i = 0 := fun i hi hs =>
    u2 i (hw.mem_free_iff.2 ⟨by rw [hn]; exact hi, hs⟩)
  have hact : ∀ i < s.nV, s.bounds.status i ≠ ST_INACTIVE → i ∈ s.bounds.fixed := by
    intro i hi hs
    rcases hw.mem_iff.1 (show i < s.bounds.n by omega) with h | h
    · exact absurd (hw.free i h) hs
    · exact h
  have hval : ∀ i ∈ s.bounds.fixed, s.dirX d i = if s.deltaIsZero dlb dub = true then 0 else
      if s.bounds.status i = ST_LOWER then dlb i else dub i := by
    intro i hi
    have hk := WS.idxOf_fx_lt hi
    have := u1.fixed _ hk
    rw [h2 _ hk] at this
    have e : s.bounds.fixed.getD (s.bounds.fixed.idxOf i) 0 = i := WS.fx_idxOf hi
    rw [e, show s.bounds.fx (s.bounds.fixed.idxOf i) = i from WS.fx_idxOf hi] at this
    exact this
  by_cases hz : s.deltaIsZero dlb dub = true
  · refine ⟨s.dirX d, s.dirY d, fun _ => 0, fun _ => 0, u1, ⟨h1, fun i hi hs => ?_, fun i hi hs => ?_, hin⟩, Or.inr ⟨rfl, rfl, ?_⟩⟩
    · rw [hval i (hact i hi (by rw [hs]; decide)), if_pos hz]
    · rw [hval i (hact i hi (by rw [hs]; decide)), if_pos hz]
    · exact fun i hi hs => deltaIsZero_le hz i (hact i hi hs)
  · refine ⟨s.dirX d, s.dirY d, dlb, dub, u1, ⟨h1, fun i hi hs => ?_, fun i hi hs => ?_, hin⟩, Or.inl ⟨rfl, rfl⟩⟩
    · rw [hval i (hact i hi (by rw [hs]; decide)), if_neg hz, if_pos hs]
    · rw [hval i (hact i hi (by rw [hs]; decide)), if_neg hz, if_neg (by rw [hs]; decide)]

/-! ### C30 -/

/-- **C30** (bounds only): for every state in which the multipliers of the active limits have the right sign, and for every
direction, the step does not overstep, and the reported variable is where it stops. -/
theorem C30_partial {s : QPB K} (hw : s.bounds.OK) (hn : s.bounds.n = s.nV) (he : s.options.epsNum ≤ 0) (hd : 0 ≤ s.options.epsDen)
    (hl : ∀ i < s.nV, s.bounds.type i ≠ ST_EQUALITY → s.bounds.status i = ST_LOWER → 0 ≤ s.y i)
    (hu : ∀ i < s.nV, s.bounds.type i ≠ ST_EQUALITY → s.bounds.status i = ST_UPPER → s.y i ≤ 0)
    (dlb dub : Nat → K) (d : Dir K) :
    ∃ tau bc, stepLength s dlb dub d = .ok (tau, bc) ∧ ∀ dx dy, Unpacked s d dx dy →
      NoOverstep s.nV s.bounds.status s.bounds.type (s.bounds.noLower = false) (s.bounds.noUpper = false) s.lb s.ub s.x s.y
        dlb dub dx dy s.options.epsDen tau ∧
      StopsAt s.bounds.status s.lb s.ub s.x s.y dlb dub dx dy tau bc := by
  obtain ⟨tau, bc, e, hS⟩ := stepLength_spec hw he hd (fun k hk hty => by
    rcases hw.fixed _ (WS.fx_mem hk) with hs | hs
    · rw [sg_ne (by rw [hs]; decide)]
      exact hl _ (by rw [← hn]; exact hw.fx_lt hk) hty hs
    · unfold sg
      rw [if_pos hs]
      exact neg_nonneg.2 (hu _ (by rw [← hn]; exact hw.fx_lt hk) hty hs)) dlb dub d
  refine ⟨tau, bc, e, fun dx dy hU => ⟨⟨hS.nonneg, hS.le_one, ?_, ?_, ?_, ?_⟩, ?_⟩⟩
  · intro hnl i hi hty hs hx
    have hm := hw.mem_free_iff.2 ⟨show i < s.bounds.n by omega, hs⟩
    have hk := WS.idxOf_fr_lt hm
    have ei : s.bounds.fr (s.bounds.free.idxOf i) = i := WS.fr_idxOf hm
    have ex := hU.free _ hk
    rw [show s.bounds.free.getD (s.bounds.free.idxOf i) 0 = i from ei] at ex
    have := hS.lower hnl _ hk
    rw [ei, ← ex] at this
    by_cases hc : DenOK s.options.epsDen (dlb i - dx i)
    · have := this hty hc
      rw [getMax_of_nonneg (sub_nonneg.2 hx)] at this
      exact Or.inl (by linarith)
    · unfold DenOK at hc
      rw [not_or, not_le, not_le] at hc
      exact Or.inr hc
  · intro hnl i hi hty hs hx
    have hm := hw.mem_free_iff.2 ⟨show i < s.bounds.n by omega, hs⟩
    have hk := WS.idxOf_fr_lt hm
    have ei : s.bounds.fr (s.bounds.free.idxOf i) = i := WS.fr_idxOf hm
    have ex := hU.free _ hk
    rw [show s.bounds.free.getD (s.bounds.free.idxOf i) 0 = i from ei] at ex
    have := hS.upper hnl _ hk
    rw [ei, ← ex] at this
    by_cases hc : DenOK s.options.epsDen (dx i - dub i)
    · have := this hty hc
      rw [getMax_of_nonneg (sub_nonneg.2 hx)] at this
      exact Or.inl (by linarith)
    · unfold DenOK at hc
      rw [not_or, not_le, not_le] at hc
      exact Or.inr hc
  · intro i hi hty hs
    have hm := hw.mem_fixed_iff.2 ⟨show i < s.bounds.n by omega, Or.inl hs⟩
    have hk := WS.idxOf_fx_lt hm
    have ei : s.bounds.fx (s.bounds.fixed.idxOf i) = i := WS.fx_idxOf hm
    have ey := hU.dual _ hk
    rw [show s.bounds.fixed.getD (s.bounds.fixed.idxOf i) 0 = i from ei] at ey
    have := hS.dual _ hk
    rw [ei, ← ey, sg_ne (by rw [hs]; decide), sg_ne (by rw [hs]; decide)] at this
    by_cases hc : DenOK s.options.epsDen (-dy i)
    · exact Or.inl (this hty hc)
    · unfold DenOK at hc
      rw [not_or, not_le, not_le] at hc
      exact Or.inr hc
  · intro i hi hty hs
    have hm := hw.mem_fixed_iff.2 ⟨show i < s.bounds.n by omega, Or.inr hs⟩
    have hk := WS.idxOf_fx_lt hm
    have ei : s.bounds.fx (s.bounds.fixed.idxOf i) = i := WS.fx_idxOf hm
    have ey := hU.dual _ hk
    rw [show s.bounds.fixed.getD (s.bounds.fixed.idxOf i) 0 = i from ei] at ey
    have := hS.dual _ hk
    unfold sg at this
    rw [ei, ← ey, if_pos hs, if_pos hs, neg_neg] at this
    by_cases hc : DenOK s.options.epsDen (dy i)
    · exact Or.inl (neg_nonneg.1 (this hty hc))
    · unfold DenOK at hc
      rw [not_or, not_le, not_le] at hc
      exact Or.inr hc
  · have hB := hS.blocks
    rcases bc with _ | ⟨i, st⟩
    · exact hB
    · cases st with
      | ST_INACTIVE =>
        obtain ⟨h1, k, hk, ei, h2, h3, h4⟩ := hB
        refine ⟨h1, Or.inl ⟨rfl, ?_, ?_⟩⟩
        · rw [ei]; exact hw.fixed _ (WS.fx_mem hk)
        · have ey := hU.dual k hk
          rw [show s.bounds.fixed.getD k 0 = i from ei.symm] at ey
          rw [ey]; exact h3
      | ST_LOWER =>
        obtain ⟨h1, hnl, k, hk, ei, h2, h3, h4⟩ := hB
        refine ⟨h1, Or.inr (Or.inl ⟨rfl, ?_, fun hx => ?_⟩)⟩
        · rw [ei]; exact hw.free _ (WS.fr_mem hk)
        · have ex := hU.free k hk
          rw [show s.bounds.free.getD k 0 = i from ei.symm] at ex
          rw [getMax_of_nonneg (sub_nonneg.2 hx), ← ex] at h3
          linarith
      | ST_UPPER =>
        obtain ⟨h1, hnl, k, hk, ei, h2, h3, h4⟩ := hB
        refine ⟨h1, Or.inr (Or.inr ⟨rfl, ?_, fun hx => ?_⟩)⟩
        · rw [ei]; exact hw.free _ (WS.fr_mem hk)
        · have ex := hU.free k hk
          rw [show s.bounds.free.getD k 0 = i from ei.symm] at ex
          rw [getMax_of_nonneg (sub_nonneg.2 hx), ← ex] at h3
          linarith
      | _ => exact absurd hB (by exact fun h => h)

/-- Limits that are approached at negligible speed are missed by no more than the tolerance. -/
theorem C30_tolerance {n : Nat} {status : Nat → SubjectToStatus} {type : Nat → SubjectToType} {wl wu : Prop}
    {lb ub x y dlb dub dx dy : Nat → K} {tol tau : K} (ht : 0 ≤ tol)
    (h : NoOverstep n status type wl wu lb ub x y dlb dub dx dy tol tau) :
    (wl → ∀ i < n, type i ≠ ST_EQUALITY → status i = ST_INACTIVE → lb i ≤ x i → lb i + tau * dlb i - tol ≤ x i + tau * dx i) ∧
    (wu → ∀ i < n, type i ≠ ST_EQUALITY → status i = ST_INACTIVE → x i ≤ ub i → x i + tau * dx i ≤ ub i + tau * dub i + tol) := by
  have small : ∀ v, Negligible tol v → tau * v ≤ tol := fun v hv =>
    (mul_le_of_le_one_left hv.1.le h.le_one).trans hv.2.le
  refine ⟨fun hw i hi hty hs hx => ?_, fun hw i hi hty hs hx => ?_⟩
  · rcases h.lower hw i hi hty hs hx with h1 | h1
    · linarith
    · have := small _ h1; linarith
  · rcases h.upper hw i hi hty hs hx with h1 | h1
    · linarith
    · have := small _ h1; linarith

/-! ### C31 -/

/-- The iterate of the solver is optimal for its current data. -/
def Optimal (s : QPB K) : Prop :=
  OptimalWith s.nV s.Heff s.g s.lb s.ub s.bounds.status s.bounds.type (s.bounds.noLower = false) (s.bounds.noUpper = false) s.x s.y

theorem optimal_iff {s : QPB K} (hw : s.bounds.OK) (hn : s.bounds.n = s.nV) : Optimal s ↔ s.Opt := by
  refine ⟨fun h => ⟨fun i hi => ?_, h.lower, h.upper, fun i hi hs => ⟨h.inactive i hi hs, fun hl => h.above hl i hi, fun hl => h.below hl i hi⟩,
    h.consistent, h.equality⟩, fun h => ⟨h.stationary hw hn, (h.within hw hn).1, (h.within hw hn).2, h.box, h.lower, h.upper,
    fun i hi hs => (h.inactive i hi hs).1, h.eq⟩⟩
  have := h.stationary.stat i hi
  simp only [QP.row, QP.box, range_zero, sum_empty, add_zero] at this
  exact this

/-- A homotopy step, src/QProblemB.cpp:1375-1404: direction towards the data `gNew`, `lbN`, `ubN`, then the step. -/
def homotopyStep (s : QPB K) (gNew lbN ubN : Nat → K) : Res (Option (QPB K × Option (Nat × SubjectToStatus))) := do
  let dg := fun i => gNew i - s.g i
  let dlb := fun i => lbN i - s.lb i
  let dub := fun i => ubN i - s.ub i
  match ← determineStepDirection s dg dlb dub (s.deltaIsZero dlb dub) with
  | none => .ok none
  | some d => do
    let r ← performStep s dg dlb dub d
    .ok (some r)

/-- **C31** (bounds only): from an iterate that is optimal for the current data, a homotopy step leads to an iterate that is
optimal for the data on the way to the requested ones at the fraction `tau`, and the variable reported as blocking may change
its status.  The numbers of the step must not lie strictly between zero and a tolerance; the ratio test's tolerance for
denominators may be zero. -/
theorem C31_partial {s : QPB K} (hw : s.bounds.OK) (hn : s.bounds.n = s.nV) (hF : s.Factor) (hsym : QP.Symmetric s.nV s.Heff)
    (hO : OptionsOK s.options) (hopt : Optimal s) {gNew lbN ubN : Nat → K} (hbox : ∀ i < s.nV, lbN i ≤ ubN i)
    (heq : ∀ i < s.nV, s.bounds.type i = ST_EQUALITY → lbN i = ubN i)
    (hshift : ∀ i < s.nV, (|lbN i - s.lb i| ≤ EPS → lbN i = s.lb i) ∧ (|ubN i - s.ub i| ≤ EPS → ubN i = s.ub i))
    (hden : s.options.epsDen = 0 ∨ ∀ d, determineStepDirection s (fun i => gNew i - s.g i) (fun i => lbN i - s.lb i)
        (fun i => ubN i - s.ub i) (s.deltaIsZero (fun i => lbN i - s.lb i) (fun i => ubN i - s.ub i)) = .ok (some d) →
      NoTiny s (fun i => lbN i - s.lb i) (fun i => ubN i - s.ub i) d)
    (hlen : ∀ s1 bc, homotopyStep s gNew lbN ubN = .ok (some (s1, bc)) → s1.tau = 0 ∨ ZERO < s1.tau) :
    ∃ r, homotopyStep s gNew lbN ubN = .ok r ∧ ∀ s1 bc, r = some (s1, bc) →
      Optimal s1 ∧ s1.bounds = s.bounds ∧ s1.Heff = s.Heff ∧ 0 ≤ s1.tau ∧ s1.tau ≤ 1 ∧
      (∀ i, s1.g i = s.g i + s1.tau * (gNew i - s.g i)) ∧ (∀ i, s1.lb i = s.lb i + s1.tau * (lbN i - s.lb i)) ∧
      (∀ i, s1.ub i = s.ub i + s1.tau * (ubN i - s.ub i)) ∧
      (∀ i st, bc = some (i, st) → i < s.nV ∧ s.bounds.type i ≠ ST_EQUALITY ∧
        (st = ST_INACTIVE ∧ s.bounds.status i ≠ ST_INACTIVE ∧ s1.y i = 0 ∨
         st = ST_LOWER ∧ s.bounds.status i = ST_INACTIVE ∧ s1.x i = s1.lb i ∨
         st = ST_UPPER ∧ s.bounds.status i = ST_INACTIVE ∧ s1.x i = s1.ub i)) := by
  have ho := (optimal_iff hw hn).1 hopt
  obtain ⟨o, e, h⟩ := determineStepDirection_spec hF hw hn hsym (fun _ => hO.iterRef) hO.refSteps (fun i => gNew i - s.g i)
    (fun i => lbN i - s.lb i) (fun i => ubN i - s.ub i) (s.deltaIsZero (fun i => lbN i - s.lb i) (fun i => ubN i - s.ub i))
  unfold homotopyStep at hlen ⊢
  dsimp only at hlen ⊢
  rw [e] at hlen hden ⊢
  simp only [Res.bind_ok] at hlen ⊢
  rcases o with _ | d
  · exact ⟨none, rfl, fun s1 bc h => by cases h⟩
  have hd := h d rfl
  have hnt : NoTiny s (fun i => lbN i - s.lb i) (fun i => ubN i - s.ub i) d := by
    rcases hden with hz | hden
    · have all : ∀ v : K, DenOK s.options.epsDen v := fun v => by rw [hz]; exact le_total v 0
      exact ⟨fun _ _ _ => all _, fun _ _ _ => all _, fun _ _ _ => all _⟩
    · exact hden d rfl
  obtain ⟨tau, bc, e1, hs⟩ := stepLength_spec hw hO.epsNum hO.epsDen (ho.sign hw hn) (fun i => lbN i - s.lb i) (fun i => ubN i - s.ub i) d
  have e2 : performStep s (fun i => gNew i - s.g i) (fun i => lbN i - s.lb i) (fun i => ubN i - s.ub i) d =
      .ok (takeStep s (fun i => gNew i - s.g i) (fun i => lbN i - s.lb i) (fun i => ubN i - s.ub i) d tau, bc) := by
    unfold performStep; rw [e1]; rfl
  have ef := takeStep_fields s (fun i => gNew i - s.g i) (fun i => lbN i - s.lb i) (fun i => ubN i - s.ub i) d tau
  have et : (takeStep s (fun i => gNew i - s.g i) (fun i => lbN i - s.lb i) (fun i => ubN i - s.ub i) d tau).tau = tau := by rw [ef]
  dsimp only at hlen ⊢
  rw [e2] at hlen ⊢
  simp only [Res.bind_ok] at hlen ⊢
  have ht : tau = 0 ∨ ZERO < tau := by
    have := hlen _ _ rfl
    rw [et] at this
    exact this
  obtain ⟨h1, h2⟩ := ho.takeStep hw hn hd (fun hz i hi => by
      have h3 := deltaIsZero_le hz i hi
      have hi' : i < s.nV := by rw [← hn]; exact hw.lt_fixed hi
      split
      · rw [(hshift i hi').1 h3.1, sub_self]
      · rw [(hshift i hi').2 h3.2, sub_self]) hs hnt ht hbox heq
  obtain ⟨ex, ey, eg, el, eu⟩ := takeStep_data hw hn (fun i => gNew i - s.g i) (fun i => lbN i - s.lb i) (fun i => ubN i - s.ub i) d ht
  refine ⟨_, rfl, fun s1 bc' hr => ?_⟩
  simp only [Option.some.injEq, Prod.mk.injEq] at hr
  obtain ⟨hr1, hr2⟩ := hr
  subst hr2
  have eb : s1.bounds = s.bounds := by rw [← hr1, ef]
  have enV : s1.nV = s.nV := by rw [← hr1, ef]
  have eH : s1.Heff = s.Heff := by rw [← hr1, ef]; rfl
  rw [hr1] at h1 h2 eg el eu et
  rw [et]
  refine ⟨(optimal_iff (by rw [eb]; exact hw) (by rw [eb, enV]; exact hn)).2 h1, eb, eH, hs.nonneg, hs.le_one, eg, el, eu, ?_⟩
  rintro i st rfl
  cases st with
  | ST_INACTIVE =>
    obtain ⟨m1, m2, m3⟩ := h2
    rw [eb] at m1 m2
    refine ⟨by rw [← hn]; exact hw.lt_fixed m1, m2, Or.inl ⟨rfl, ?_, m3⟩⟩
    rcases hw.fixed _ m1 with h | h <;> rw [h] <;> decide
  | ST_LOWER =>
    obtain ⟨m1, m2, m3⟩ := h2
    rw [eb] at m1 m2
    exact ⟨by rw [← hn]; exact hw.lt_free m1, m2, Or.inr (Or.inl ⟨rfl, hw.free _ m1, m3⟩)⟩
  | ST_UPPER =>
    obtain ⟨m1, m2, m3⟩ := h2
    rw [eb] at m1 m2
    exact ⟨by rw [← hn]; exact hw.lt_free m1, m2, Or.inr (Or.inr ⟨rfl, hw.free _ m1, m3⟩)⟩
  | _ => exact absurd h2 (fun h => h)

/-! ### C32 -/

/-- A variable whose data need no repair. -/
structure Settled (s : QPB K) (i : Nat) : Prop where
  lower : s.bounds.status i = ST_LOWER → s.x i = s.lb i ∧ 0 ≤ s.y i
  upper : s.bounds.status i = ST_UPPER → s.x i = s.ub i ∧ s.y i ≤ 0
  inactive : s.bounds.status i = ST_INACTIVE → s.y i = 0
  above : s.lb i ≤ s.x i
  below : s.x i ≤ s.ub i

theorem Settled.at {s : QPB K} {i : Nat} (h : Settled s i) (ht : s.bounds.type i ≠ ST_EQUALITY) : s.OptAt i :=
  ⟨fun e => ⟨(h.lower e).1, fun _ => (h.lower e).2⟩, fun e => ⟨(h.upper e).1, fun _ => (h.upper e).2⟩,
    fun e => ⟨h.inactive e, fun _ => h.above, fun _ => h.below⟩, h.above.trans h.below, fun e => absurd e ht⟩

/-- **C32** (drift correction, bounds only): whatever the data, primal and dual iterates of variables with finite limits
(which equalities must be active), the corrected pair is optimal for the corrected data; iterates and working set are kept.
Variables without finite limits are not corrected. -/
theorem C32_drift_partial {s : QPB K} (hw : s.bounds.OK) (hn : s.bounds.n = s.nV) (hH : ¬ s.scalarH → s.H ≠ none)
    (h : ∀ i < s.nV, s.bounds.type i = ST_BOUNDED ∨ (s.bounds.type i = ST_EQUALITY ∧ s.bounds.status i ≠ ST_INACTIVE) ∨
      s.bounds.type i = ST_UNBOUNDED ∧ Settled s i) :
    ∃ s1, performDriftCorrection s = .ok s1 ∧ Optimal s1 ∧ s1.x = s.x ∧ s1.bounds = s.bounds ∧ s1.Heff = s.Heff := by
  obtain ⟨g, l, u, y, e, ho⟩ := drift_opt hw hn hH (fun i hi => by
    rcases h i hi with h | h | ⟨h, h'⟩
    · exact Or.inl h
    · exact Or.inr (Or.inl h)
    · exact Or.inr (Or.inr ⟨by rw [h]; decide, h'.at (by rw [h]; decide)⟩))
  exact ⟨_, e, (optimal_iff (by exact hw) (by exact hn)).2 ho, rfl, rfl, rfl⟩

/-- **C32** (ramping, bounds only), for at least two variables. -/
theorem C32_ramping_partial {s : QPB K} (hw : s.bounds.OK) (hn : s.bounds.n = s.nV) (hH : ¬ s.scalarH → s.H ≠ none)
    (hnV : 2 ≤ s.nV) (h0 : 0 ≤ s.ramp0) (h1 : 0 ≤ s.ramp1)
    (h : ∀ i < s.nV, s.bounds.type i = ST_BOUNDED ∨ (s.bounds.type i = ST_EQUALITY ∧ s.bounds.status i ≠ ST_INACTIVE) ∨
      s.bounds.type i = ST_UNBOUNDED ∧ Settled s i) :
    ∃ s1, performRamping s = .ok s1 ∧ Optimal s1 ∧ s1.x = s.x ∧ s1.bounds = s.bounds ∧ s1.Heff = s.Heff := by
  obtain ⟨g, l, u, y, e, ho⟩ := ramp_opt hw hn hH hnV h0 h1 (fun i hi => by
    rcases h i hi with h | h | ⟨h, h'⟩
    · exact Or.inl h
    · exact Or.inr (Or.inr (Or.inl h))
    · exact Or.inr (Or.inr (Or.inr ⟨by rw [h]; decide, h'.at (by rw [h]; decide)⟩)))
  exact ⟨_, e, (optimal_iff (by exact hw) (by exact hn)).2 ho, rfl, rfl, rfl⟩

/-! ### C33 -/

/-- The guessed multipliers agree in sign with the initial working set: it is given by the guessed working set, with all
equalities active, or by the signs of the multipliers. -/
structure Consistent (s : QPB K) (yOpt : Option (Nat → K)) (guess : Option WS) : Prop where
  guessed : ∀ y w, yOpt = some y → guess = some w → ∀ i < s.nV, s.typeOf (some s.lb) (some s.ub) i ≠ ST_EQUALITY →
    (w.getStatus i = ST_LOWER → 0 ≤ y i) ∧ (w.getStatus i = ST_UPPER → y i ≤ 0) ∧
    (w.getStatus i ≠ ST_LOWER → w.getStatus i ≠ ST_UPPER → y i = 0)
  signs : ∀ y, yOpt = some y → guess = none → ∀ i < s.nV, s.typeOf (some s.lb) (some s.ub) i ≠ ST_EQUALITY → |y i| ≤ EPS → y i = 0

theorem Consistent.sign {s : QPB K} {xOpt yOpt : Option (Nat → K)} {guess : Option WS} (h : Consistent s yOpt guess) :
    SignOK s xOpt yOpt guess := by
  cases yOpt with
  | none => exact signOK_none s xOpt guess
  | some y =>
    intro i hi
    have hty : (s.setupSubjectToType (some s.lb) (some s.ub)).bounds.type i = s.typeOf (some s.lb) (some s.ub) i := if_pos hi
    dsimp only [Option.getD_some]
    by_cases he : s.typeOf (some s.lb) (some s.ub) i = ST_EQUALITY
    · rcases auxStatus_eq xOpt (some y) guess (hty.trans he) with e | e
      · rw [e]; exact fun hc => absurd he hc
      · rw [e]; exact fun hc => absurd he hc
    · have hne : ¬ (s.setupSubjectToType (some s.lb) (some s.ub)).bounds.type i = ST_EQUALITY := by rw [hty]; exact he
      cases guess with
      | some w =>
        obtain ⟨h1, h2, h3⟩ := h.guessed y w rfl rfl i hi he
        unfold auxStatus
        dsimp only
        rw [if_neg hne]
        cases hg : w.getStatus i with
        | ST_LOWER => exact fun _ => h1 hg
        | ST_UPPER => exact fun _ => h2 hg
        | _ => exact h3 (by rw [hg]; decide) (by rw [hg]; decide)
      | none =>
        have h1 := h.signs y rfl rfl i hi he
        have e : (s.setupSubjectToType (some s.lb) (some s.ub)).auxStatus xOpt (some y) none i =
            if y i > EPS then ST_LOWER else if y i < -EPS then ST_UPPER else ST_INACTIVE := by
          cases xOpt <;> (unfold auxStatus; dsimp only; rw [if_neg hne])
        rw [e]
        by_cases g1 : y i > EPS
        · rw [if_pos g1]; exact fun _ => EPS_pos'.le.trans g1.le
        · rw [if_neg g1]
          by_cases g2 : y i < -EPS
          · rw [if_pos g2]; exact fun _ => g2.le.trans (neg_nonpos.2 EPS_pos'.le)
          · rw [if_neg g2]
            exact h1 (abs_le.2 ⟨not_lt.1 g2, not_lt.1 g1⟩)

/-- **C33** (bounds only): a cold start with any guesses of point, multipliers (consistent in sign with the working set) and
working set begins with a QP, with the Hessian of the original one, whose solution is the guess (or zero). -/
theorem C33_partial (sq : K → K) {s : QPB K} (hs : Usable s) {H : Option (Nat → K)} {g : Nat → K} {lb ub : Option (Nat → K)}
    (ha : Admissible s (lowerOf lb) (upperOf ub)) {M : Nat → Nat → K} (hM : GivenHessian (s.coldData H g lb ub) M)
    (hsym : QP.Symmetric s.nV M) (nWSR : Int) (cputime : Option K) (xOpt yOpt : Option (Nat → K)) (guess : Option WS)
    (hc : Consistent (s.coldData H g lb ub) yOpt guess) :
    ∃ e, prepareInitialQP sq (s.coldData H g lb ub) xOpt yOpt guess none nWSR cputime = .ok e ∧
      (∀ o, e = .error o → o.rv = RET_INIT_FAILED) ∧
      (∀ s', e = .ok s' → Optimal s' ∧ s'.nV = s.nV ∧ s'.x = xOpt.getD (fun _ => 0) ∧ s'.y = yOpt.getD (fun _ => 0) ∧
        (∀ i < s.nV, ∀ j < s.nV, |s'.Heff i j - M i j| ≤ EPS) ∧ s'.status = QPS_AUXILIARYQPSOLVED ∧
        (∀ w, guess = some w → ∀ i < s.nV, s'.bounds.status i = if s'.bounds.type i = ST_EQUALITY then ST_LOWER else w.getStatus i)) := by
  obtain ⟨c1, c2, c3, c4, c5, c6, c7, c8, c9, c10, c11⟩ := hs.cold H g lb ub
  obtain ⟨m1, m2, m3, m4⟩ := hM.spec (by rw [c4]; exact hsym)
  obtain ⟨e, h1, h2, h3⟩ := prepareInitialQP_spec sq (hs.coldOK ha hM hsym) xOpt yOpt guess nWSR cputime hc.sign
  refine ⟨e, h1, h2, fun s' hs' => ?_⟩
  obtain ⟨a, ax, ay, as⟩ := h3 s' hs'
  refine ⟨(optimal_iff a.ws a.n).2 a.opt, a.nV.trans c4, ax, ay, fun i hi j hj => ?_, a.status, ?_⟩
  · rw [a.hess]
    exact m3 i (by rw [c4]; exact hi) j (by rw [c4]; exact hj)
  · rintro w rfl i hi
    have hi' : i < (s.coldData H g lb ub).nV := by rw [c4]; exact hi
    rw [as i hi', a.typeEq i (by rw [a.nV]; exact hi')]
    have hty : ((s.coldData H g lb ub).setupSubjectToType (some (s.coldData H g lb ub).lb) (some (s.coldData H g lb ub).ub)).bounds.type i =
      (s.coldData H g lb ub).typeOf (some (s.coldData H g lb ub).lb) (some (s.coldData H g lb ub).ub) i := if_pos hi'
    unfold auxStatus
    dsimp only
    rw [hty]

/-! ### the hypotheses are met -/
section
open Runs

/-- Working set of three variables: the third one is at its lower limit. -/
def demoWS : WS :=
  { n := 3
    type := fun _ => ST_BOUNDED
    status := fun i => if i = 2 then ST_LOWER else ST_INACTIVE
    noLower := false
    noUpper := false
    free := [1, 0]
    fixed := [2] }

/-- A state of the solver with this working set and the Cholesky factor of the block of the Hessian that belongs to the free
variables, in the order 1, 0; optimal for its data. -/
def demo : QPB ℚ := { start 3 HST_POSDEF plain with
  H := some fun i j => vec [2,2,1, 2,4,0, 1,0,5] (3 * i + j)
  R := fun i j => vec [2,1,0, 0,1,0, 0,0,0] (3 * i + j)
  bounds := demoWS
  g := vec [0,0,1]
  lb := vec [-1,-1,0]
  ub := vec [1,1,1]
  x := fun _ => 0
  y := vec [0,0,1]
  haveCholesky := true
  status := QPS_PERFORMINGHOMOTOPY }

theorem demoWS_ok : demoWS.OK := by refine ⟨?_, ?_, ?_⟩ <;> decide +kernel

theorem demo_ws : demo.bounds.OK := demoWS_ok

theorem demo_factor : demo.Factor := by
  refine ⟨fun h => ?_, fun _ => ⟨fun h => (by cases h), fun r c hrc hc => ?_, fun r hr => ?_⟩⟩
  · rcases h with h | h <;> exact absurd h (by decide)
  · have hc : c < 2 := hc
    interval_cases c <;> interval_cases r <;> decide +kernel
  · have hr : r < 2 := hr
    interval_cases r <;> decide +kernel

theorem demo_sym : QP.Symmetric demo.nV demo.Heff := by
  intro i hi j hj
  have hi : i < 3 := hi
  have hj : j < 3 := hj
  interval_cases i <;> interval_cases j <;> decide +kernel

theorem demo_options : OptionsOK demo.options := by
  refine ⟨?_, ?_, ?_, ?_, Or.inl ?_⟩ <;> decide +kernel

theorem demo_optimal : Optimal demo := by
  refine (optimal_iff demo_ws rfl).2 ⟨?_, ?_, ?_, ?_, ?_, ?_⟩
  · intro i hi
    have hi : i < 3 := hi
    interval_cases i <;> decide +kernel
  all_goals
    intro i hi
    have hi : i < 3 := hi
    interval_cases i <;> decide +kernel

/-- A step from the state, towards another gradient and other limits, is shortened by the upper limit of the first variable. -/
example : holds (homotopyStep demo (vec [-7, -9, 2]) (vec [-1,-1,1/2]) (vec [1,1,1])) (fun r => match r with
    | some (s1, bc) => decide (bc = some (0, ST_UPPER) ∧ s1.tau = 1/2 ∧ s1.x 0 = 1 ∧ s1.x 1 = 5/8 ∧ s1.x 2 = 1/4 ∧ s1.y 2 = 15/4)
    | none => false) = true := by decide +kernel

/-- The hypotheses of `C31_partial` hold for this step. -/
example : (∀ i < demo.nV, (|vec [-1,-1,1/2] i - demo.lb i| ≤ EPS → vec [-1,-1,1/2] i = demo.lb i) ∧
      (|vec [1,1,1] i - demo.ub i| ≤ EPS → vec [1,1,1] i = demo.ub i)) ∧
    (∀ d, determineStepDirection demo (fun i => vec [-7, -9, 2] i - demo.g i) (fun i => vec [-1,-1,1/2] i - demo.lb i)
        (fun i => vec [1,1,1] i - demo.ub i) (demo.deltaIsZero (fun i => vec [-1,-1,1/2] i - demo.lb i) (fun i => vec [1,1,1] i - demo.ub i)) =
        .ok (some d) → NoTiny demo (fun i => vec [-1,-1,1/2] i - demo.lb i) (fun i => vec [1,1,1] i - demo.ub i) d) ∧
    (∀ s1 bc, homotopyStep demo (vec [-7, -9, 2]) (vec [-1,-1,1/2]) (vec [1,1,1]) = .ok (some (s1, bc)) → s1.tau = 0 ∨ ZERO < s1.tau) := by
  refine ⟨?_, fun d e => ?_, fun s1 bc e => ?_⟩
  · intro i hi
    have hi : i < 3 := hi
    interval_cases i <;> decide +kernel
  · obtain ⟨o, e', h⟩ := of_holds (r := determineStepDirection demo (fun i => vec [-7, -9, 2] i - demo.g i) (fun i => vec [-1,-1,1/2] i - demo.lb i)
        (fun i => vec [1,1,1] i - demo.ub i) (demo.deltaIsZero (fun i => vec [-1,-1,1/2] i - demo.lb i) (fun i => vec [1,1,1] i - demo.ub i)))
      (p := fun o => match o with
        | some d => noTinyB demo (fun i => vec [-1,-1,1/2] i - demo.lb i) (fun i => vec [1,1,1] i - demo.ub i) d
        | none => false) (by decide +kernel)
    rw [e] at e'
    cases e'
    exact noTinyB_spec h
  · obtain ⟨o, e', h⟩ := of_holds (r := homotopyStep demo (vec [-7, -9, 2]) (vec [-1,-1,1/2]) (vec [1,1,1]))
      (p := fun o => match o with
        | some (s1, bc) => decide (ZERO < s1.tau)
        | none => false) (by decide +kernel)
    rw [e] at e'
    cases e'
    exact Or.inr (of_decide_eq_true h)

/-- Drift: the point is outside of its limits, an inactive variable has a multiplier. -/
def drifted : QPB ℚ := { demo with x := vec [2,0,1/100], y := vec [1/10,0,-1/10] }

example : ∀ i < drifted.nV, drifted.bounds.type i = ST_BOUNDED := fun _ _ => rfl

example : ¬ Optimal drifted := fun h => by
  have := h.inactive 0 (show 0 < 3 by decide) (by decide +kernel)
  revert this
  decide +kernel

example : holds (performDriftCorrection drifted) (fun s => decide (s.ub 0 = 2 ∧ s.lb 2 = 1/100 ∧ s.y 0 = 0 ∧ s.y 2 = 0 ∧ s.g 0 = -401/100)) = true := by
  decide +kernel

example : holds (performRamping { drifted with ramp0 := 1/2, ramp1 := 1 }) (fun s => decide (s.lb 0 = 3/2 ∧ s.ub 0 = 5/2 ∧ s.lb 1 = -3/4 ∧
    s.lb 2 = 1/100 ∧ s.ub 2 = 101/100 ∧ s.y 2 = 1)) = true := by
  decide +kernel

/-! ### violations -/

def demoNeg : QPB ℚ := { demo with y := vec [0,0,-1/10^14] }

theorem demoNeg_options : OptionsOK demoNeg.options := by
  refine ⟨?_, ?_, ?_, ?_, Or.inl ?_⟩ <;> decide +kernel

/-- **C30 violated**: a multiplier that is slightly negative (within the tolerance of the test) at a lower limit and decreases
gives a negative step length. -/
theorem C30_negative_violation : ∃ (s : QPB ℚ) (dlb dub : Nat → ℚ) (d : Dir ℚ) (tau : ℚ) (bc : Option (Nat × SubjectToStatus)),
    s.bounds.OK ∧ OptionsOK s.options ∧ stepLength s dlb dub d = .ok (tau, bc) ∧ tau < 0 := by
  obtain ⟨o, e, h⟩ := of_holds (r := stepLength demoNeg (fun _ => 0) (fun _ => 0) ⟨fun _ => 0, fun _ => 0, fun _ => -1⟩)
    (p := fun o => decide (o.1 < 0)) (by decide +kernel)
  rcases o with ⟨tau, bc⟩
  exact ⟨demoNeg, fun _ => 0, fun _ => 0, ⟨fun _ => 0, fun _ => 0, fun _ => -1⟩, tau, bc, demoWS_ok, demoNeg_options, e, of_decide_eq_true h⟩

/-- **C31 violated**: a step shorter than `ZERO` is not taken, although its length and the blocking variable are reported
as if it had been: the variable is not at the limit that is added to the working set. -/
theorem C31_short_violation : ∃ (s : QPB ℚ) (gNew : Nat → ℚ) (s1 : QPB ℚ), Optimal s ∧ s.Factor ∧ s.bounds.OK ∧
    homotopyStep s gNew s.lb s.ub = .ok (some (s1, some (0, ST_LOWER))) ∧ 0 < s1.tau ∧ s1.x 0 ≠ s1.lb 0 ∧
    s1.g 0 ≠ s.g 0 + s1.tau * (gNew 0 - s.g 0) := by
  let s : QPB ℚ := { start 1 HST_IDENTITY plain with
    R := fun _ _ => 1
    bounds :=
      { n := 1
        type := fun _ => ST_BOUNDED
        status := fun _ => ST_INACTIVE
        noLower := false
        noUpper := false
        free := [0]
        fixed := [] }
    g := fun _ => -1/10^26
    lb := fun _ => 0
    ub := fun _ => 1
    x := fun _ => 1/10^26
    y := fun _ => 0
    haveCholesky := true
    status := QPS_PERFORMINGHOMOTOPY }
  have hw : s.bounds.OK := by refine ⟨?_, ?_, ?_⟩ <;> decide
  obtain ⟨o, e, h⟩ := of_holds (r := homotopyStep s (fun _ => 1) s.lb s.ub) (p := fun o => match o with
    | some (s1, bc) => decide (bc = some (0, ST_LOWER) ∧ 0 < s1.tau ∧ s1.x 0 ≠ s1.lb 0 ∧ s1.g 0 ≠ s.g 0 + s1.tau * (1 - s.g 0))
    | none => false) (by decide +kernel)
  rcases o with _ | ⟨s1, bc⟩
  · cases h
  obtain ⟨h1, h2, h3, h4⟩ := of_decide_eq_true h
  refine ⟨s, fun _ => 1, s1, (optimal_iff hw rfl).2 ⟨?_, ?_, ?_, ?_, ?_, ?_⟩, ⟨fun _ => ⟨1, ?_, ?_, ?_⟩, fun h => absurd (Or.inr rfl) h⟩, hw, ?_, h2, h3, h4⟩
  · intro i hi
    have hi : i < 1 := hi
    interval_cases i
    decide +kernel
  · exact fun i hi h => absurd h (show ¬ ST_INACTIVE = ST_LOWER by decide)
  · exact fun i hi h => absurd h (show ¬ ST_INACTIVE = ST_UPPER by decide)
  · intro i hi _
    show (0 : ℚ) = 0 ∧ (_ → (0 : ℚ) ≤ 1/10^26) ∧ (_ → (1/10^26 : ℚ) ≤ 1)
    norm_num
  · intro i hi
    show (0 : ℚ) ≤ 1
    norm_num
  · exact fun i hi h => absurd h (show ¬ ST_BOUNDED = ST_EQUALITY by decide)
  · decide +kernel
  · decide +kernel
  · intro i hi j hj
    have hi : i < 1 := hi
    have hj : j < 1 := hj
    interval_cases i
    interval_cases j
    decide +kernel
  · rw [e, h1]

def demoUnbounded : QPB ℚ := { demo with
  bounds := { demoWS with type := fun i => if i = 0 then ST_UNBOUNDED else ST_BOUNDED }
  y := vec [1/10^14,0,1] }

/-- **C32 violated**: drift in the multiplier of a variable without finite limits is not corrected. -/
theorem C32_unbounded_violation : ∃ s s1 : QPB ℚ, s.bounds.OK ∧ s.bounds.n = s.nV ∧ performDriftCorrection s = .ok s1 ∧ ¬ Optimal s1 := by
  obtain ⟨s1, e, h⟩ := of_holds (r := performDriftCorrection demoUnbounded) (p := fun s => decide (0 < s.nV ∧ s.bounds.status 0 = ST_INACTIVE ∧ s.y 0 ≠ 0)) (by decide +kernel)
  obtain ⟨h1, h2, h3⟩ := of_decide_eq_true h
  exact ⟨demoUnbounded, s1, ⟨demo_ws.perm, demo_ws.free, demo_ws.fixed⟩, rfl, e, fun ho => h3 (ho.inactive 0 h1 h2)⟩

/-- A cold start with guesses of point and working set: both kinds of limits active. -/
example : holds (prepareInitialQP root ((start 2 HST_IDENTITY plain).coldData none (vec [-3, 1]) (some (vec [0, 0])) (some (vec [1, 5])))
    (some (vec [1/2, 7])) (some (vec [2, -3])) none none 10 none) (fun e => match e with
      | .ok s => decide (s.bounds.status 0 = ST_LOWER ∧ s.bounds.status 1 = ST_UPPER ∧ s.x 0 = 1/2 ∧ s.lb 0 = 1/2 ∧ s.ub 1 = 7 ∧ s.g 0 = 3/2)
      | .error _ => false) = true := by
  decide +kernel

example : Consistent ((start 2 HST_IDENTITY plain).coldData none (vec [-3, 1]) (some (vec [0, 0])) (some (vec [1, 5]))) (some (vec [2, -3])) none := by
  refine ⟨fun y w _ h => (by cases h), fun y e _ i hi _ => ?_⟩
  cases e
  have hi : i < 2 := hi
  interval_cases i <;> decide +kernel

end

end QpOASES.Props
