import Verif.Props.C34_Solved
import Mathlib.Tactic.IntervalCases
import Mathlib.Tactic.Ring

/-!
C36: reported objective value; C40: reported solutions; C55: reported working set; C58: types of variables
(bound-constrained solver).
-/
namespace QpOASES.Props
open Finset Spec QPB ReturnValue SubjectToStatus SubjectToType HessianType QProblemStatus

set_option linter.unusedSectionVars false

variable {K : Type} [Field K] [LinearOrder K] [IsStrictOrderedRing K]

/-! ### C36 -/

/-- `M` is the Hessian stored by the object: zero and identity Hessians are known by their type. -/
def Stores (s : QPB K) (M : Nat → Nat → K) : Prop :=
  match s.hessianType with
  | HST_ZERO => ∀ i < s.nV, ∀ j < s.nV, M i j = 0
  | HST_IDENTITY => ∀ i < s.nV, ∀ j < s.nV, M i j = if i = j then 1 else 0
  | _ => ∃ H, s.H = some H ∧ ∀ i < s.nV, ∀ j < s.nV, M i j = H i j

theorem sumTo_sum (f : Nat → K) (n : Nat) : sumTo f n = ∑ i ∈ range n, f i := sumTo_eq f n

/-- The value reported for any point: the objective function of the stored problem, plus a term when it is regularised. -/
theorem getObjValAt_spec {s : QPB K} {M : Nat → Nat → K} (h : Stores s M) (hn : s.nV ≠ 0) (x : Nat → K) :
    s.getObjValAt x = .ok ((QP.box s.nV M s.g s.lb s.ub).obj x +
      if s.usingRegularisation then 1/2 * s.regVal * ∑ i ∈ range s.nV, x i * x i else 0) := by
  have hg : ∑ i ∈ range s.nV, x i * s.g i = ∑ i ∈ range s.nV, s.g i * x i := sum_congr rfl fun i _ => mul_comm _ _
  have hr : ∑ i ∈ range s.nV, 1 / 2 * x i * s.regVal * x i = 1/2 * s.regVal * ∑ i ∈ range s.nV, x i * x i := by
    rw [mul_sum]; exact sum_congr rfl fun i _ => by ring
  have fin : ∀ v : K, v = (QP.box s.nV M s.g s.lb s.ub).obj x →
      (Res.ok (if s.usingRegularisation then v + sumTo (fun i => 1/2 * x i * s.regVal * x i) s.nV else v) : Res K) =
      .ok ((QP.box s.nV M s.g s.lb s.ub).obj x + if s.usingRegularisation then 1/2 * s.regVal * ∑ i ∈ range s.nV, x i * x i else 0) := by
    rintro v rfl
    rw [sumTo_sum, hr]
    split
    · rfl
    · rw [add_zero]
  have hobj : (QP.box s.nV M s.g s.lb s.ub).obj x = 1 / 2 * ∑ i ∈ range s.nV, x i * (∑ j ∈ range s.nV, M i j * x j) +
      ∑ i ∈ range s.nV, s.g i * x i := rfl
  unfold getObjValAt
  rw [if_neg hn]
  have stored : ∀ H : Nat → Nat → K, (∀ i < s.nV, ∀ j < s.nV, M i j = H i j) →
      sumTo (fun i => x i * s.g i) s.nV + sumTo (fun i => 1/2 * x i * sumTo (fun j => H i j * x j) s.nV) s.nV =
      (QP.box s.nV M s.g s.lb s.ub).obj x := by
    intro H hM
    rw [sumTo_sum, sumTo_sum, hg, hobj, add_comm, mul_sum]
    congr 1
    refine sum_congr rfl fun i hi => ?_
    rw [sumTo_sum, mul_assoc]
    congr 2
    exact sum_congr rfl fun j hj => by rw [hM i (mem_range.1 hi) j (mem_range.1 hj)]
  unfold Stores at h
  cases ht : s.hessianType <;> simp only [ht] at h ⊢
  case HST_ZERO =>
    refine fin _ ?_
    have hz : ∑ i ∈ range s.nV, x i * (∑ j ∈ range s.nV, M i j * x j) = 0 := sum_eq_zero fun i hi => by
      rw [sum_eq_zero fun j hj => by rw [h i (mem_range.1 hi) j (mem_range.1 hj), zero_mul], mul_zero]
    rw [sumTo_sum, hg, hobj, hz, mul_zero, zero_add]
  case HST_IDENTITY =>
    refine fin _ ?_
    rw [sumTo_sum, sumTo_sum, hg, hobj, add_comm, mul_sum]
    congr 1
    refine sum_congr rfl fun i hi => ?_
    rw [sum_eq_single i (fun j hj hji => by rw [h i (mem_range.1 hi) j (mem_range.1 hj), if_neg (Ne.symm hji), zero_mul])
      (fun hni => absurd hi hni), h i (mem_range.1 hi) i (mem_range.1 hi), if_pos rfl, one_mul, mul_assoc]
  all_goals
    obtain ⟨H, eH, hM⟩ := h
    unfold getH
    rw [eH]
    exact fin _ (stored H hM)

/-- **C36** (part): without regularisation, the value reported for any point is the objective function. -/
theorem C36_partial {s : QPB K} {M : Nat → Nat → K} (h : Stores s M) (hn : s.nV ≠ 0) (hr : s.usingRegularisation = false) (x : Nat → K) :
    s.getObjValAt x = .ok ((QP.box s.nV M s.g s.lb s.ub).obj x) := by
  rw [getObjValAt_spec h hn x, hr]
  simp

/-- **C36** (part): and so it is for the current solution, when there is one. -/
theorem C36_current_partial {s : QPB K} {M : Nat → Nat → K} (h : Stores s M) (hn : s.nV ≠ 0) (hr : s.usingRegularisation = false) :
    s.getObjVal = .ok (if s.status = QPS_AUXILIARYQPSOLVED ∨ s.status = QPS_HOMOTOPYQPSOLVED ∨ s.status = QPS_SOLVED then
      (QP.box s.nV M s.g s.lb s.ub).obj s.x else INFTY) := by
  unfold getObjVal hasSolution
  by_cases hs : s.status = QPS_AUXILIARYQPSOLVED ∨ s.status = QPS_HOMOTOPYQPSOLVED ∨ s.status = QPS_SOLVED
  · rw [if_pos (decide_eq_true hs), if_pos hs, C36_partial h hn hr]
  · rw [if_neg (by simpa using hs), if_neg hs]

section
open Runs

/-- **C36 violated**: minimise x₀² + 2x₀ over [1,2]², regularised: the reported value at the solution (1,1) is 5, not 3. -/
theorem C36_regularised_violation : ∃ o v,
    cold (start 2 HST_SEMIDEF { plain with enableRegularisation := true, epsRegularisation := 1/2 }) (some [2,0,0,0]) [2,0] [1,1] [2,2] = .ok o ∧
    o.rv = SUCCESSFUL_RETURN ∧ o.s.getObjVal = .ok v ∧
    v ≠ (QP.box 2 (fun i j => vec [2,0,0,0] (i * 2 + j)) (vec [2,0]) (vec [1,1]) (vec [2,2])).obj o.s.x := by
  obtain ⟨o, e, h⟩ := of_holds (r := cold (start 2 HST_SEMIDEF { plain with enableRegularisation := true, epsRegularisation := 1/2 })
    (some [2,0,0,0]) [2,0] [1,1] [2,2]) (p := fun o => decide (o.rv = SUCCESSFUL_RETURN ∧ o.s.x 0 = 1 ∧ o.s.x 1 = 1) &&
      holds o.s.getObjVal (fun v => decide (v = 5))) (by decide +kernel)
  rw [Bool.and_eq_true] at h
  obtain ⟨v, ev, hv⟩ := of_holds h.2
  obtain ⟨h1, h2, h3⟩ := of_decide_eq_true h.1
  refine ⟨o, v, e, h1, ev, ?_⟩
  rw [of_decide_eq_true hv]
  unfold QP.obj QP.row QP.box
  simp only [sum_range_succ, sum_range_zero, h2, h3]
  decide +kernel

/-- An object with a Hessian, after a cold start. -/
example : holds (cold (start 2 HST_POSDEF plain) (some [4,2,2,10]) [2,0] [1,1] [2,2]) (fun o => decide (o.rv = SUCCESSFUL_RETURN ∧
    o.s.usingRegularisation = false ∧ o.s.nV ≠ 0 ∧ o.s.hessianType = HST_POSDEF ∧ o.s.H.isSome = true)) = true := by decide +kernel

end

/-! ### C40 -/

/-- A QP has been solved: auxiliary, intermediate or the requested one. -/
def HasSolved (s : QPB K) : Prop := s.status = QPS_AUXILIARYQPSOLVED ∨ s.status = QPS_HOMOTOPYQPSOLVED ∨ s.status = QPS_SOLVED

/-- **C40**: the primal solution is delivered exactly if a QP has been solved; otherwise the caller's array is not touched. -/
theorem C40_primal (s : QPB K) (a : Nat → K) :
    (HasSolved s → (s.getPrimalSolution a).1 = SUCCESSFUL_RETURN ∧ (∀ i < s.nV, (s.getPrimalSolution a).2 i = s.x i) ∧
      ∀ i, s.nV ≤ i → (s.getPrimalSolution a).2 i = a i) ∧
    (¬ HasSolved s → s.getPrimalSolution a = (RET_QP_NOT_SOLVED, a)) := by
  unfold getPrimalSolution hasSolution
  constructor
  · intro h
    rw [if_pos (by simpa [HasSolved] using h)]
    exact ⟨rfl, fun i hi => if_pos hi, fun i hi => if_neg (by omega)⟩
  · intro h
    rw [if_neg (by simpa [HasSolved] using h)]

/-- **C40** (part): the dual solution is delivered exactly if a QP has been solved. -/
theorem C40_dual_partial (s : QPB K) (a : Nat → K) :
    (HasSolved s → (s.getDualSolution a).1 = SUCCESSFUL_RETURN ∧ (∀ i < s.nV, (s.getDualSolution a).2 i = s.y i) ∧
      ∀ i, s.nV ≤ i → (s.getDualSolution a).2 i = a i) ∧
    (¬ HasSolved s → (s.getDualSolution a).1 = RET_QP_NOT_SOLVED) := by
  unfold getDualSolution hasSolution
  constructor
  · intro h
    refine ⟨if_pos (by simpa [HasSolved] using h), fun i hi => if_pos hi, fun i hi => if_neg (by omega)⟩
  · intro h
    exact if_neg (by simpa [HasSolved] using h)

/-- **C40 violated**: the caller's array is overwritten by the dual solution also when no QP has been solved: after construction it
is filled with zeros, and the return value is `RET_QP_NOT_SOLVED`. -/
theorem C40_dual_violation (n : Nat) (hn : 0 < n) (t : HessianType) (clk : Nat → K) (a : Nat → K) (ha : a 0 ≠ 0) :
    ¬ HasSolved (QPB.new n t clk) ∧ ((QPB.new n t clk).getDualSolution a).1 = RET_QP_NOT_SOLVED ∧
    ((QPB.new n t clk).getDualSolution a).2 0 ≠ a 0 := by
  have hs : ¬ HasSolved (QPB.new n t clk) := by rintro (h | h | h) <;> cases h
  refine ⟨hs, (C40_dual_partial _ a).2 hs, ?_⟩
  have hv : 0 < (QPB.new n t clk).nV := by
    show 0 < (if (n : Int) ≤ 0 then 1 else (n : Int).toNat)
    split <;> omega
  have : ((QPB.new n t clk).getDualSolution a).2 0 = 0 := if_pos hv
  rw [this]
  exact Ne.symm ha

section
open Runs
example : ∃ o, cold (start 2 HST_IDENTITY plain) none [-3, 1] [0, 0] [1, 1] = .ok o ∧ HasSolved o.s := by
  obtain ⟨o, e, h⟩ := of_holds (r := cold (start 2 HST_IDENTITY plain) none [-3, 1] [0, 0] [1, 1])
    (p := fun o => decide (o.s.status = QPS_SOLVED)) (by decide +kernel)
  exact ⟨o, e, Or.inr (Or.inr (of_decide_eq_true h))⟩
end

/-! ### C55 -/

/-- **C55**: the exported working set of the variables; the caller's array behind it is not touched. -/
theorem C55_bounds (s : QPB K) (a : Nat → K) : ∃ w, s.getWorkingSetBounds (some a) = (SUCCESSFUL_RETURN, some w) ∧
    (∀ i < s.nV, (s.bounds.getStatus i = ST_LOWER → w i = -1) ∧ (s.bounds.getStatus i = ST_UPPER → w i = 1) ∧
      (s.bounds.getStatus i = ST_INACTIVE → w i = 0) ∧ (w i = -1 ↔ s.bounds.getStatus i = ST_LOWER) ∧
      (w i = 1 ↔ s.bounds.getStatus i = ST_UPPER)) ∧
    (∀ i, s.nV ≤ i → w i = a i) := by
  have n1 : (-1 : K) ≠ 1 := fun h => by
    have := (neg_one_lt_zero (R := K)).trans one_pos
    exact this.ne h
  refine ⟨_, rfl, fun i hi => ?_, fun i hi => if_neg (by omega)⟩
  rw [if_pos hi]
  cases s.bounds.getStatus i <;> simp [n1, n1.symm]

/-- **C55**: a null pointer is rejected. -/
theorem C55_null (s : QPB K) : s.getWorkingSetBounds none = (RET_INVALID_ARGUMENTS, none) := rfl

/-! ### C58 -/

/-- The type of a variable with limits `l`, `u`, whose limits have been `lOld`, `uOld`.  Documented tolerances: limits within
`tol` of infinity are infinite, and limits closer than `tol` are equal. -/
inductive Classified (far eqs : Bool) (tol lOld uOld l u : K) : SubjectToType → Prop
  | unbounded (h : l < -INFTY + tol) (h' : u > INFTY - tol) (hf : far = false) : Classified far eqs tol lOld uOld l u ST_UNBOUNDED
  | equality (hn : ¬ (l < -INFTY + tol ∧ u > INFTY - tol ∧ far = false)) (he : eqs = true) (hOld : lOld > uOld - tol) (h : l > u - tol) :
      Classified far eqs tol lOld uOld l u ST_EQUALITY
  | bounded (hn : ¬ (l < -INFTY + tol ∧ u > INFTY - tol ∧ far = false)) (h : eqs = true → lOld > uOld - tol → ¬ l > u - tol) :
      Classified far eqs tol lOld uOld l u ST_BOUNDED

/-- **C58** (part): with both vectors given, every variable gets the type of its limits. -/
theorem C58_types_partial (s : QPB K) (l u : Nat → K) : ∀ i < s.nV,
    Classified s.options.enableFarBounds s.options.enableEqualities s.options.boundTolerance (s.lb i) (s.ub i) (l i) (u i)
      ((s.setupSubjectToType (some l) (some u)).bounds.type i) := by
  intro i hi
  have e : (s.setupSubjectToType (some l) (some u)).bounds.type i = s.typeOf (some l) (some u) i := if_pos hi
  rw [e]
  unfold typeOf
  dsimp only
  split
  · rename_i h; exact .unbounded h.1 h.2.1 h.2.2
  · rename_i hn
    split
    · rename_i h; exact .equality hn h.1 h.2.1 h.2.2
    · rename_i h; exact .bounded hn fun a b c => h ⟨a, b, c⟩

/-- **C58** (part): the flags say whether there is a finite limit of the kind, absent vectors having none. -/
theorem C58_flags (s : QPB K) (lbNew ubNew : Option (Nat → K)) :
    ((s.setupSubjectToType lbNew ubNew).bounds.noLower = true ↔ ¬ ∃ i < s.nV, -INFTY < lbNew.getD (fun _ => -INFTY) i) ∧
    ((s.setupSubjectToType lbNew ubNew).bounds.noUpper = true ↔ ¬ ∃ i < s.nV, ubNew.getD (fun _ => INFTY) i < INFTY) := by
  unfold setupSubjectToType
  dsimp only
  constructor
  · cases lbNew <;> simp
  · cases ubNew <;> simp

/-- **C58** (part): absent vectors: no limits at all, every variable is unbounded; only one vector: every variable is bounded. -/
theorem C58_absent_partial (s : QPB K) (v : Nat → K) : ∀ i < s.nV,
    (s.setupSubjectToType none none).bounds.type i = ST_UNBOUNDED ∧
    (s.setupSubjectToType (some v) none).bounds.type i = ST_BOUNDED ∧ (s.setupSubjectToType none (some v)).bounds.type i = ST_BOUNDED :=
  fun _ hi => ⟨if_pos hi, if_pos hi, if_pos hi⟩

/-- Working set and solution are not changed by the classification. -/
theorem C58_frame (s : QPB K) (lbNew ubNew : Option (Nat → K)) :
    (s.setupSubjectToType lbNew ubNew).bounds.status = s.bounds.status ∧ (s.setupSubjectToType lbNew ubNew).bounds.free = s.bounds.free ∧
    (s.setupSubjectToType lbNew ubNew).bounds.fixed = s.bounds.fixed ∧ (s.setupSubjectToType lbNew ubNew).x = s.x :=
  ⟨rfl, rfl, rfl, rfl⟩

/-- **C58 violated**: an absent vector is not treated like an infinite one: without any finite limit, the type depends on it. -/
theorem C58_null_violation (s : QPB K) (hn : 0 < s.nV) (ht : 0 < s.options.boundTolerance) (hf : s.options.enableFarBounds = false) :
    (s.setupSubjectToType (some fun _ => -INFTY) none).bounds.type 0 = ST_BOUNDED ∧
    (s.setupSubjectToType (some fun _ => -INFTY) (some fun _ => INFTY)).bounds.type 0 = ST_UNBOUNDED := by
  refine ⟨if_pos hn, ?_⟩
  have e : (s.setupSubjectToType (some fun _ => -INFTY) (some fun _ => INFTY)).bounds.type 0 =
    s.typeOf (some fun _ => -INFTY) (some fun _ => INFTY) 0 := if_pos hn
  rw [e]
  unfold typeOf
  dsimp only
  rw [if_pos ⟨lt_add_of_pos_right _ ht, sub_lt_self _ ht, hf⟩]

/-- **C58 violated**: an equality of the requested QP is not classified as one when the limits of the current QP differ. -/
theorem C58_equality_violation (s : QPB K) (hn : 0 < s.nV) (h : s.lb 0 ≤ s.ub 0 - s.options.boundTolerance) (v : Nat → K) :
    (s.setupSubjectToType (some v) (some v)).bounds.type 0 ≠ ST_EQUALITY := by
  intro e
  have := C58_types_partial s v v 0 hn
  rw [e] at this
  cases this with
  | equality _ _ hOld _ => exact absurd hOld (not_lt.2 h)

section
open Runs
/-- One variable of each type. -/
def typed : QPB ℚ := { start 3 HST_IDENTITY { plain with enableEqualities := true } with lb := vec [0, 1, -10^20], ub := vec [1, 1, 10^20] }

example : ∀ i < 3, (typed.setupSubjectToType (some typed.lb) (some typed.ub)).bounds.type i =
    (if i = 0 then ST_BOUNDED else if i = 1 then ST_EQUALITY else ST_UNBOUNDED) := by decide +kernel

example : 0 < typed.nV ∧ 0 < typed.options.boundTolerance ∧ typed.options.enableFarBounds = false ∧
    typed.lb 0 ≤ typed.ub 0 - typed.options.boundTolerance := by decide +kernel
end

end QpOASES.Props
