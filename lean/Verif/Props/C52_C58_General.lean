import Verif.Proofs.QPCLoop
import Verif.Proofs.QPCFrame
import Verif.Proofs.QPCRuns
import Verif.Proofs.QPBFar
import Verif.Props.C36_C40_Queries
import Verif.Props.C52_C56_Data

/-!
C36: reported objective value; C40: reported solutions; C52: ramping; C55: reported working set; C56: the data along the homotopy;
C58: types of constraints (solver for general constraints).
-/
namespace QpOASES.Props.General
open Finset Spec QpOASES.QPC ReturnValue SubjectToStatus SubjectToType HessianType QProblemStatus

set_option linter.unusedSectionVars false

variable {K : Type} [Field K] [LinearOrder K] [IsStrictOrderedRing K]

/-! ### C36 -/

/-- **C36** (part): the value reported by the solver for general constraints is that of the objective function: neither the constraints nor
their limits enter. -/
theorem C36_general_partial {s : QPC K} {M : Nat → Nat → K} (h : Stores s.toQPB M) (hn : s.nV ≠ 0) (hr : s.usingRegularisation = false)
    (x : Nat → K) (A : Nat → Nat → K) :
    s.toQPB.getObjValAt x =
      .ok (({ nV := s.nV, nC := s.nC, H := M, g := s.g, A := A, lb := s.lb, ub := s.ub, lbA := s.lbA, ubA := s.ubA } : QP K).obj x) :=
  C36_partial h hn hr x

/-! ### C40 -/

/-- **C40** (part): the dual solution, of variables and constraints, is delivered exactly if a QP has been solved. -/
theorem C40_general_dual_partial (s : QPC K) (a : Nat → K) :
    (HasSolved s.toQPB → (s.getDualSolution a).1 = SUCCESSFUL_RETURN ∧ (∀ i < s.nV + s.nC, (s.getDualSolution a).2 i = s.y i) ∧
      ∀ i, s.nV + s.nC ≤ i → (s.getDualSolution a).2 i = a i) ∧
    (¬ HasSolved s.toQPB → (s.getDualSolution a).1 = RET_QP_NOT_SOLVED) := by
  unfold getDualSolution QPB.hasSolution
  constructor
  · intro h
    refine ⟨if_pos (by simpa [HasSolved] using h), fun i hi => if_pos hi, fun i hi => if_neg (by omega)⟩
  · intro h
    exact if_neg (by simpa [HasSolved] using h)

/-- **C40 violated**: the caller's array is overwritten although there is no solution. -/
theorem C40_general_dual_violation (n m : Nat) (hn : 0 < n) (t : HessianType) (clk : Nat → K) (a : Nat → K) (ha : a 0 ≠ 0) :
    ¬ HasSolved (QPC.new n m t clk).toQPB ∧ ((QPC.new n m t clk).getDualSolution a).1 = RET_QP_NOT_SOLVED ∧
    ((QPC.new n m t clk).getDualSolution a).2 0 ≠ a 0 := by
  have hs : ¬ HasSolved (QPC.new n m t clk).toQPB := by rintro (h | h | h) <;> cases h
  refine ⟨hs, (C40_general_dual_partial _ a).2 hs, ?_⟩
  have hv : 0 < (QPC.new n m t clk).nV := by
    show 0 < (if (n : Int) ≤ 0 then 1 else (n : Int).toNat)
    split <;> omega
  have : ((QPC.new n m t clk).getDualSolution a).2 0 = 0 := if_pos (by omega)
  rw [this]
  exact Ne.symm ha

/-! ### C55 -/

/-- The number exported for a status. -/
def Exported (st : SubjectToStatus) (w : K) : Prop :=
  (st = ST_LOWER → w = -1) ∧ (st = ST_UPPER → w = 1) ∧ (st = ST_INACTIVE → w = 0) ∧ (w = -1 ↔ st = ST_LOWER) ∧ (w = 1 ↔ st = ST_UPPER)

theorem exported (st : SubjectToStatus) : Exported st (match st with | ST_LOWER => -1 | ST_UPPER => 1 | _ => (0 : K)) := by
  have n1 : (-1 : K) ≠ 1 := fun h => by
    have := (neg_one_lt_zero (R := K)).trans one_pos
    exact this.ne h
  unfold Exported
  cases st <;> simp [n1, n1.symm]

/-- **C55**: the exported working set: variables first, then constraints; the caller's array behind them is not touched. -/
theorem C55_general (s : QPC K) (a : Nat → K) : ∃ w, s.getWorkingSet (some a) = (SUCCESSFUL_RETURN, some w) ∧
    (∀ i < s.nV, Exported (s.bounds.getStatus i) (w i)) ∧ (∀ k < s.nC, Exported (s.cons.getStatus k) (w (s.nV + k))) ∧
    (∀ i, s.nV + s.nC ≤ i → w i = a i) := by
  refine ⟨_, rfl, fun i hi => ?_, fun k hk => ?_, fun i hi => ?_⟩
  · rw [if_pos hi]; exact exported _
  · rw [if_neg (by omega), if_pos (by omega), Nat.add_sub_cancel_left]; exact exported _
  · rw [if_neg (by omega), if_neg (by omega)]

/-- **C55**, constraints only. -/
theorem C55_general_constraints (s : QPC K) (a : Nat → K) : ∃ w, s.getWorkingSetConstraints (some a) = (SUCCESSFUL_RETURN, some w) ∧
    (∀ k < s.nC, Exported (s.cons.getStatus k) (w k)) ∧ (∀ i, s.nC ≤ i → w i = a i) := by
  refine ⟨_, rfl, fun k hk => ?_, fun i hi => if_neg (by omega)⟩
  rw [if_pos hk]; exact exported _

/-- **C55**: null pointers are rejected. -/
theorem C55_general_null (s : QPC K) : s.getWorkingSet none = (RET_INVALID_ARGUMENTS, none) ∧
    s.getWorkingSetConstraints none = (RET_INVALID_ARGUMENTS, none) := ⟨rfl, rfl⟩

/-! ### C58 -/

/-- **C58** (part): every constraint gets the type of its limits, unless it is disabled; so does every variable. -/
theorem C58_general_types_partial (s : QPC K) :
    (∀ i < s.nV, Classified s.options.enableFarBounds s.options.enableEqualities s.options.boundTolerance (s.lb i) (s.ub i) (s.lb i) (s.ub i)
      (s.setupSubjectToType.bounds.type i)) ∧
    ∀ k < s.nC, (s.cons.type k = ST_DISABLED → s.setupSubjectToType.cons.type k = ST_DISABLED) ∧
      (s.cons.type k ≠ ST_DISABLED →
        Classified s.options.enableFarBounds s.options.enableEqualities s.options.boundTolerance (s.lbA k) (s.ubA k) (s.lbA k) (s.ubA k)
          (s.setupSubjectToType.cons.type k)) := by
  refine ⟨C58_types_partial s.toQPB s.lb s.ub, fun k hk => ?_⟩
  have e : s.setupSubjectToType.cons.type k = s.typeOfC (some s.lbA) (some s.ubA) k := if_pos hk
  rw [e]
  unfold typeOfC
  refine ⟨fun h => if_pos h, fun h => ?_⟩
  rw [if_neg h]
  dsimp only
  split
  · rename_i h; exact .unbounded h.1 h.2.1 h.2.2
  · rename_i hn
    split
    · rename_i h; exact .equality hn h.1 h.2.1 h.2.2
    · rename_i h; exact .bounded hn fun a b c => h ⟨a, b, c⟩

/-- **C58** (part): the flags of the constraints say whether there is a finite limit of the kind. -/
theorem C58_general_flags (s : QPC K) :
    (s.setupSubjectToType.cons.noLower = true ↔ ¬ ∃ k < s.nC, -INFTY < s.lbA k) ∧
    (s.setupSubjectToType.cons.noUpper = true ↔ ¬ ∃ k < s.nC, s.ubA k < INFTY) := by
  unfold setupSubjectToType
  dsimp only
  constructor <;> simp

/-- Working set and solution are not changed by the classification. -/
theorem C58_general_frame (s : QPC K) :
    s.setupSubjectToType.active = s.active ∧ s.setupSubjectToType.cons.free = s.cons.free ∧
    s.setupSubjectToType.cons.fixed = s.cons.fixed ∧ s.setupSubjectToType.x = s.x ∧ s.setupSubjectToType.y = s.y :=
  ⟨rfl, rfl, rfl, rfl, rfl⟩

/-! ### C52 -/

/-- Between the two configured values. -/
def Between (s : QPC K) (r : K) : Prop := min s.ramp0 s.ramp1 ≤ r ∧ r ≤ max s.ramp0 s.ramp1

/-- New limits `l'`, `u'` and multiplier `y'` of a variable or constraint with the value `v`, limits `l`, `u` and multiplier `y`: limits that are not
active are moved to a relative distance between the ramp values, multipliers of active limits get a size between them.  Equalities are
fixed to the current value; what is unbounded or disabled keeps everything. -/
def RampedTo (s : QPC K) (t : SubjectToType) (st : SubjectToStatus) (v l u y l' u' y' : K) : Prop :=
  match t with
  | ST_BOUNDED => ∃ rP rD, Between s rP ∧ Between s rD ∧
      l' = (if st = ST_LOWER then v else v - max |v| 1 * rP) ∧ u' = (if st = ST_UPPER then v else v + max |v| 1 * rP) ∧
      y' = (match st with | ST_LOWER => rD | ST_UPPER => -rD | ST_INACTIVE => 0 | _ => y)
  | ST_EQUALITY => l' = v ∧ u' = v ∧ y' = y
  | _ => l' = l ∧ u' = u ∧ y' = y

theorem rampVal_ok (s : QPC K) (i : Nat) {n : Nat} (h : 2 ≤ n) : ∃ v, s.toQPB.rampVal i n = .ok v ∧ Between s v := by
  obtain ⟨t, v, t0, t1, e, rfl⟩ := QPB.rampVal_between s.toQPB i h
  refine ⟨_, e, ?_, ?_⟩
  · have a := mul_le_mul_of_nonneg_left (min_le_left s.ramp0 s.ramp1) (sub_nonneg.2 t1)
    have b := mul_le_mul_of_nonneg_left (min_le_right s.ramp0 s.ramp1) t0
    linarith
  · have a := mul_le_mul_of_nonneg_left (le_max_left s.ramp0 s.ramp1) (sub_nonneg.2 t1)
    have b := mul_le_mul_of_nonneg_left (le_max_right s.ramp0 s.ramp1) t0
    linarith

theorem rampOne_bounded {s : QPC K} (st : SubjectToStatus) (v l u y : K) {rP rD : K} (hP : Between s rP) (hD : Between s rD) :
    RampedTo s ST_BOUNDED st v l u y (rampOne st v l u y rP rD).1 (rampOne st v l u y rP rD).2.1 (rampOne st v l u y rP rD).2.2 := by
  have e : getMax (getAbs v) 1 = max |v| 1 := QPB.getMax_eq _ _
  refine ⟨rP, rD, hP, hD, ?_, ?_, ?_⟩
  · unfold rampOne; rw [e]
  · unfold rampOne; rw [e]
  · unfold rampOne; cases st <;> simp

/-- The loop over the variables. -/
theorem rampB_ok : ∀ (m i : Nat) (s : QPC K), 0 < s.nV → i + m = s.nV → ∃ l u y, rampB m i s = .ok { s with lb := l, ub := u, y := y } ∧
    (∀ j, j < i ∨ s.nV ≤ j → l j = s.lb j ∧ u j = s.ub j ∧ y j = s.y j) ∧
    ∀ j, i ≤ j → j < s.nV → RampedTo s (s.bounds.type j) (s.bounds.getStatus j) (s.x j) (s.lb j) (s.ub j) (s.y j) (l j) (u j) (y j) := by
  intro m
  induction m with
  | zero => exact fun i s _ h => ⟨s.lb, s.ub, s.y, rfl, fun _ _ => ⟨rfl, rfl, rfl⟩, fun j h1 h2 => by omega⟩
  | succ m ih =>
    intro i s hn hm
    have step : ∀ (a b c : K), RampedTo s (s.bounds.type i) (s.bounds.getStatus i) (s.x i) (s.lb i) (s.ub i) (s.y i) a b c →
        ∃ l u y, rampB m (i+1) { s with lb := updA s.lb i a, ub := updA s.ub i b, y := updA s.y i c } = .ok { s with lb := l, ub := u, y := y } ∧
        (∀ j, j < i ∨ s.nV ≤ j → l j = s.lb j ∧ u j = s.ub j ∧ y j = s.y j) ∧
        ∀ j, i ≤ j → j < s.nV → RampedTo s (s.bounds.type j) (s.bounds.getStatus j) (s.x j) (s.lb j) (s.ub j) (s.y j) (l j) (u j) (y j) := by
      intro a b c hr
      obtain ⟨l, u, y, e, h1, h2⟩ := ih (i+1) { s with lb := updA s.lb i a, ub := updA s.ub i b, y := updA s.y i c } hn (by simpa using by omega)
      refine ⟨l, u, y, e, fun j hj => ?_, fun j hj hj' => ?_⟩
      · have hne : j ≠ i := by omega
        obtain ⟨q1, q2, q3⟩ := h1 j (by rcases hj with hj | hj; exact Or.inl (by omega); exact Or.inr hj)
        exact ⟨q1.trans (updA_ne _ _ hne), q2.trans (updA_ne _ _ hne), q3.trans (updA_ne _ _ hne)⟩
      · by_cases hji : j = i
        · subst hji
          obtain ⟨q1, q2, q3⟩ := h1 j (Or.inl (by omega))
          rw [q1, q2, q3]
          show RampedTo s _ _ _ _ _ _ (updA s.lb j a j) (updA s.ub j b j) (updA s.y j c j)
          rw [updA_same, updA_same, updA_same]
          exact hr
        · have := h2 j (by omega) hj'
          have e1 : updA s.lb i a j = s.lb j := updA_ne _ _ hji
          have e2 : updA s.ub i b j = s.ub j := updA_ne _ _ hji
          have e3 : updA s.y i c j = s.y j := updA_ne _ _ hji
          dsimp only at this
          rw [e1, e2, e3] at this
          exact this
    have same : (∀ t, s.bounds.type i = t → t ≠ ST_EQUALITY → t ≠ ST_BOUNDED →
        ∃ l u y, rampB m (i+1) s = .ok { s with lb := l, ub := u, y := y } ∧
        (∀ j, j < i ∨ s.nV ≤ j → l j = s.lb j ∧ u j = s.ub j ∧ y j = s.y j) ∧
        ∀ j, i ≤ j → j < s.nV → RampedTo s (s.bounds.type j) (s.bounds.getStatus j) (s.x j) (s.lb j) (s.ub j) (s.y j) (l j) (u j) (y j)) := by
      intro t ht n1 n2
      obtain ⟨l, u, y, e, h1, h2⟩ := ih (i+1) s hn (by omega)
      refine ⟨l, u, y, e, fun j hj => h1 j (by omega), fun j hj hj' => ?_⟩
      by_cases hji : j = i
      · subst hji
        obtain ⟨q1, q2, q3⟩ := h1 j (Or.inl (by omega))
        rw [q1, q2, q3, ht]
        cases t <;> first | exact absurd rfl n1 | exact absurd rfl n2 | exact ⟨rfl, rfl, rfl⟩
      · exact h2 j (by omega) hj'
    rw [rampB]
    cases ht : s.bounds.type i
    case ST_EQUALITY =>
      have := step (s.x i) (s.x i) (s.y i) (by rw [ht]; exact ⟨rfl, rfl, rfl⟩)
      rw [show updA s.y i (s.y i) = s.y from by funext j; unfold updA; split <;> simp_all] at this
      exact this
    case ST_BOUNDED =>
      obtain ⟨rP, e1, hP⟩ := rampVal_ok s i (n := 2 * s.nV + 2 * s.nC) (by omega)
      obtain ⟨rD, e2, hD⟩ := rampVal_ok s (s.nV + s.nC + s.nC + i) (n := 2 * s.nV + 2 * s.nC) (by omega)
      dsimp only
      rw [e1, Res.bind_ok, e2, Res.bind_ok]
      exact step _ _ _ (by rw [ht]; exact rampOne_bounded _ _ _ _ _ hP hD)
    all_goals exact same _ ht (by decide) (by decide)

/-- The loop over the constraints. -/
theorem rampC_ok : ∀ (m i : Nat) (s : QPC K), 0 < s.nV → i + m = s.nC → ∃ l u y a b,
    rampC m i s = .ok { s with lbA := l, ubA := u, y := y, Axl := a, Axu := b } ∧
    (∀ j, j < i → l j = s.lbA j ∧ u j = s.ubA j) ∧ (∀ j, j < s.nV + i → y j = s.y j) ∧
    ∀ j, i ≤ j → j < s.nC →
      RampedTo s (s.cons.type j) (s.cons.getStatus j) (s.Ax j) (s.lbA j) (s.ubA j) (s.y (s.nV + j)) (l j) (u j) (y (s.nV + j)) := by
  intro m
  induction m with
  | zero => exact fun i s _ h => ⟨s.lbA, s.ubA, s.y, s.Axl, s.Axu, rfl, fun _ _ => ⟨rfl, rfl⟩, fun _ _ => rfl, fun j h1 h2 => by omega⟩
  | succ m ih =>
    intro i s hn hm
    have step : ∀ (a b c : K) (p q : Nat → K),
        RampedTo s (s.cons.type i) (s.cons.getStatus i) (s.Ax i) (s.lbA i) (s.ubA i) (s.y (s.nV + i)) a b c →
        ∃ l u y p' q', rampC m (i+1) { s with lbA := updA s.lbA i a, ubA := updA s.ubA i b, y := updA s.y (s.nV + i) c, Axl := p, Axu := q } =
          .ok { s with lbA := l, ubA := u, y := y, Axl := p', Axu := q' } ∧
        (∀ j, j < i → l j = s.lbA j ∧ u j = s.ubA j) ∧ (∀ j, j < s.nV + i → y j = s.y j) ∧
        ∀ j, i ≤ j → j < s.nC →
          RampedTo s (s.cons.type j) (s.cons.getStatus j) (s.Ax j) (s.lbA j) (s.ubA j) (s.y (s.nV + j)) (l j) (u j) (y (s.nV + j)) := by
      intro a b c p q hr
      obtain ⟨l, u, y, p', q', e, h1, h1', h2⟩ := ih (i+1)
        { s with lbA := updA s.lbA i a, ubA := updA s.ubA i b, y := updA s.y (s.nV + i) c, Axl := p, Axu := q } hn (by simpa using by omega)
      refine ⟨l, u, y, p', q', e, fun j hj => ?_, fun j hj => ?_, fun j hj hj' => ?_⟩
      · obtain ⟨q1, q2⟩ := h1 j (by omega)
        exact ⟨q1.trans (updA_ne _ _ (by omega)), q2.trans (updA_ne _ _ (by omega))⟩
      · exact (h1' j (by show j < s.nV + (i+1); omega)).trans (updA_ne _ _ (by omega))
      · by_cases hji : j = i
        · subst hji
          obtain ⟨q1, q2⟩ := h1 j (by omega)
          rw [q1, q2, h1' (s.nV + j) (by show s.nV + j < s.nV + (j+1); omega)]
          show RampedTo s _ _ _ _ _ _ (updA s.lbA j a j) (updA s.ubA j b j) (updA s.y (s.nV + j) c (s.nV + j))
          rw [updA_same, updA_same, updA_same]
          exact hr
        · have := h2 j (by omega) hj'
          have e1 : updA s.lbA i a j = s.lbA j := updA_ne _ _ hji
          have e2 : updA s.ubA i b j = s.ubA j := updA_ne _ _ hji
          have e3 : updA s.y (s.nV + i) c (s.nV + j) = s.y (s.nV + j) := updA_ne _ _ (by omega)
          dsimp only at this
          rw [e1, e2, e3] at this
          exact this
    have same : (∀ t, s.cons.type i = t → t ≠ ST_EQUALITY → t ≠ ST_BOUNDED →
        ∃ l u y p' q', rampC m (i+1) s = .ok { s with lbA := l, ubA := u, y := y, Axl := p', Axu := q' } ∧
        (∀ j, j < i → l j = s.lbA j ∧ u j = s.ubA j) ∧ (∀ j, j < s.nV + i → y j = s.y j) ∧
        ∀ j, i ≤ j → j < s.nC →
          RampedTo s (s.cons.type j) (s.cons.getStatus j) (s.Ax j) (s.lbA j) (s.ubA j) (s.y (s.nV + j)) (l j) (u j) (y (s.nV + j))) := by
      intro t ht n1 n2
      obtain ⟨l, u, y, p', q', e, h1, h1', h2⟩ := ih (i+1) s hn (by omega)
      refine ⟨l, u, y, p', q', e, fun j hj => h1 j (by omega), fun j hj => h1' j (by omega), fun j hj hj' => ?_⟩
      by_cases hji : j = i
      · subst hji
        obtain ⟨q1, q2⟩ := h1 j (by omega)
        rw [q1, q2, h1' (s.nV + j) (by omega), ht]
        cases t <;> first | exact absurd rfl n1 | exact absurd rfl n2 | exact ⟨rfl, rfl, rfl⟩
      · exact h2 j (by omega) hj'
    rw [rampC]
    cases ht : s.cons.type i
    case ST_EQUALITY =>
      have := step (s.Ax i) (s.Ax i) (s.y (s.nV + i)) s.Axl s.Axu (by rw [ht]; exact ⟨rfl, rfl, rfl⟩)
      rw [show updA s.y (s.nV + i) (s.y (s.nV + i)) = s.y from by funext j; unfold updA; split <;> simp_all] at this
      exact this
    case ST_BOUNDED =>
      obtain ⟨rP, e1, hP⟩ := rampVal_ok s (s.nV + i) (n := 2 * s.nV + 2 * s.nC) (by omega)
      obtain ⟨rD, e2, hD⟩ := rampVal_ok s (s.nV + s.nC + i) (n := 2 * s.nV + 2 * s.nC) (by omega)
      dsimp only
      rw [e1, Res.bind_ok, e2, Res.bind_ok]
      exact step _ _ _ _ _ (by rw [ht]; exact rampOne_bounded _ _ _ _ _ hP hD)
    all_goals exact same _ ht (by decide) (by decide)

/-- **C52** (part), ramping of the solver for general constraints: it is defined for every number of variables and constraints, also for a
single variable, and for every ramp offset; values and working set are kept, and limits and multipliers are set as specified. -/
theorem C52_general_partial {s : QPC K} (hn : 0 < s.nV) (hH : ¬ s.scalarH → s.H ≠ none) :
    ∃ s', performRamping s = .ok s' ∧ s'.x = s.x ∧ s'.Ax = s.Ax ∧ s'.bounds = s.bounds ∧ s'.cons = s.cons ∧
      (∀ i < s.nV, RampedTo s (s.bounds.type i) (s.bounds.getStatus i) (s.x i) (s.lb i) (s.ub i) (s.y i) (s'.lb i) (s'.ub i) (s'.y i)) ∧
      ∀ k < s.nC, RampedTo s (s.cons.type k) (s.cons.getStatus k) (s.Ax k) (s.lbA k) (s.ubA k) (s.y (s.nV + k))
        (s'.lbA k) (s'.ubA k) (s'.y (s.nV + k)) := by
  obtain ⟨l, u, y, e1, a1, a2⟩ := rampB_ok s.nV 0 s hn (by omega)
  obtain ⟨lA, uA, y', p, q, e2, b1, b2, b3⟩ := rampC_ok s.nC 0 { s with lb := l, ub := u, y := y } hn (by simp)
  obtain ⟨g', e3, _⟩ := setupAuxiliaryQPgradient_spec
    (s := { s with lb := l, ub := u, lbA := lA, ubA := uA, y := y', Axl := p, Axu := q }) hH
  refine ⟨{ s with lb := l, ub := u, lbA := lA, ubA := uA, y := y', Axl := p, Axu := q, g := g', rampOffset := s.rampOffset + 1 },
    ?_, rfl, rfl, rfl, rfl, fun i hi => ?_, fun k hk => ?_⟩
  · unfold performRamping
    rw [e1, Res.bind_ok]
    dsimp only
    rw [e2, Res.bind_ok, e3]
    rfl
  · have := a2 i (Nat.zero_le _) hi
    have e : y' i = y i := b2 i (by simpa using hi)
    show RampedTo s _ _ _ _ _ _ (l i) (u i) (y' i)
    rw [e]
    exact this
  · have := b3 k (Nat.zero_le _) hk
    have e : y (s.nV + k) = s.y (s.nV + k) := (a1 (s.nV + k) (Or.inr (by omega))).2.2
    dsimp only at this
    rw [e] at this
    exact this

/-- **C52 violated**: the ramped far bounds divide zero by zero for one variable without constraints. -/
theorem C52_general_far_violation {s : QPC K} (hn : s.nV = 1) (hm : s.nC = 0) (hr : s.options.enableRamping = true) (far : K)
    (lbNew ubNew lbANew ubANew : Option (Nat → K)) (f : Far K) :
    updateFarBounds s far lbNew ubNew lbANew ubANew f = .ub .divByZero := by
  have hv : s.toQPB.rampVal 0 (s.nV + s.nC) = .ub .divByZero := by
    unfold QPB.rampVal
    rw [hn, hm]
    unfold cdiv
    rw [if_pos (by simp)]
    rfl
  have hf : s.toQPB.farVal far (s.nV + s.nC) 0 = .ub .divByZero := by
    unfold QPB.farVal
    rw [if_pos hr, hv]
    rfl
  unfold updateFarBounds
  have : ∀ m, m = 0 + 1 → QPB.updateFarBounds s.toQPB far (s.nV + s.nC) lbNew ubNew m 0 f.lb f.ub = .ub .divByZero := by
    rintro _ rfl
    unfold QPB.updateFarBounds
    rw [hf]
    rfl
  rw [this s.nV hn]
  rfl

/-! ### C56 -/

/-- **C56** (part): the data after a step.  Absent limits are infinite. -/
theorem C56_general_step_partial {s s' : QPC K} {gNew : Nat → K} {lbNew ubNew lbANew ubANew : Option (Nat → K)}
    {d : Dir K} {bc : Option Change}
    (e : performStep s (s.dataShift gNew lbNew ubNew lbANew ubANew) d = .ok (s', bc)) (ht : s'.tau = 0 ∨ ZERO < s'.tau) :
    (∀ i, gNew i - s'.g i = (1 - s'.tau) * (gNew i - s.g i)) ∧
    (∀ i, lbNew.getD (fun _ => -INFTY) i - s'.lb i = (1 - s'.tau) * (lbNew.getD (fun _ => -INFTY) i - s.lb i)) ∧
    (∀ i, ubNew.getD (fun _ => INFTY) i - s'.ub i = (1 - s'.tau) * (ubNew.getD (fun _ => INFTY) i - s.ub i)) ∧
    (∀ i, lbANew.getD (fun _ => -INFTY) i - s'.lbA i = (1 - s'.tau) * (lbANew.getD (fun _ => -INFTY) i - s.lbA i)) ∧
    (∀ i, ubANew.getD (fun _ => INFTY) i - s'.ubA i = (1 - s'.tau) * (ubANew.getD (fun _ => INFTY) i - s.ubA i)) ∧
    (s'.tau = 1 → s'.g = gNew ∧ s'.lb = lbNew.getD (fun _ => -INFTY) ∧ s'.ub = ubNew.getD (fun _ => INFTY) ∧
      s'.lbA = lbANew.getD (fun _ => -INFTY) ∧ s'.ubA = ubANew.getD (fun _ => INFTY)) := by
  unfold performStep at e
  obtain ⟨⟨tau, bc'⟩, _, e⟩ := (Res.bind_eq_ok).1 e
  cases e
  set h := s.dataShift gNew lbNew ubNew lbANew ubANew with hh
  have htau : (takeStep s h d tau).tau = tau := by unfold takeStep; split <;> rfl
  rw [htau] at ht ⊢
  have hf : (∀ i, (takeStep s h d tau).g i = s.g i + tau * h.g i) ∧ (∀ i, (takeStep s h d tau).lb i = s.lb i + tau * h.lb i) ∧
      (∀ i, (takeStep s h d tau).ub i = s.ub i + tau * h.ub i) ∧ (∀ i, (takeStep s h d tau).lbA i = s.lbA i + tau * h.lbA i) ∧
      (∀ i, (takeStep s h d tau).ubA i = s.ubA i + tau * h.ubA i) := by
    unfold takeStep
    rcases ht with rfl | ht
    · rw [if_neg (not_lt.2 ZERO_pos.le)]
      simp
    · rw [if_pos ht]
      exact ⟨fun _ => rfl, fun _ => rfl, fun _ => rfl, fun _ => rfl, fun _ => rfl⟩
  obtain ⟨eg, el, eu, eA, eB⟩ := hf
  have hg : ∀ i, h.g i = gNew i - s.g i := fun _ => rfl
  have hl : ∀ i, h.lb i = lbNew.getD (fun _ => -INFTY) i - s.lb i := fun _ => rfl
  have hu : ∀ i, h.ub i = ubNew.getD (fun _ => INFTY) i - s.ub i := fun _ => rfl
  have hA : ∀ i, h.lbA i = lbANew.getD (fun _ => -INFTY) i - s.lbA i := fun _ => rfl
  have hB : ∀ i, h.ubA i = ubANew.getD (fun _ => INFTY) i - s.ubA i := fun _ => rfl
  refine ⟨fun i => ?_, fun i => ?_, fun i => ?_, fun i => ?_, fun i => ?_, fun h1 => ⟨?_, ?_, ?_, ?_, ?_⟩⟩
  · rw [eg, hg]; ring
  · rw [el, hl]; ring
  · rw [eu, hu]; ring
  · rw [eA, hA]; ring
  · rw [eB, hB]; ring
  · funext i; rw [eg, h1, hg]; ring
  · funext i; rw [el, h1, hl]; ring
  · funext i; rw [eu, h1, hu]; ring
  · funext i; rw [eA, h1, hA]; ring
  · funext i; rw [eB, h1, hB]; ring

/-- **C56** (part): the relative length of the homotopy is nonnegative, and zero exactly if the data agree, when all vectors of limits are
given. -/
theorem C56_general_length_partial (s : QPC K) (gNew l u lA uA : Nat → K) :
    0 ≤ s.homotopyLength gNew (some l) (some u) (some lA) (some uA) ∧
    (s.homotopyLength gNew (some l) (some u) (some lA) (some uA) = 0 ↔
      (∀ i < s.nV, gNew i = s.g i ∧ l i = s.lb i ∧ u i = s.ub i) ∧ ∀ k < s.nC, lA k = s.lbA k ∧ uA k = s.ubA k) := by
  obtain ⟨a, a'⟩ := C56_length_partial s.toQPB gNew l u
  have b := a.trans (QPB.relLen_spec lA s.lbA s.nC (s.toQPB.homotopyLength gNew (some l) (some u))).1
  have c := b.trans (QPB.relLen_spec uA s.ubA s.nC (QPB.relLen lA s.lbA s.nC (s.toQPB.homotopyLength gNew (some l) (some u)))).1
  refine ⟨c, ?_⟩
  show QPB.relLen uA s.ubA s.nC (QPB.relLen lA s.lbA s.nC (s.toQPB.homotopyLength gNew (some l) (some u))) = 0 ↔ _
  rw [relLen_zero _ _ _ b, relLen_zero _ _ _ a, a']
  constructor
  · rintro ⟨⟨h1, h2⟩, h3⟩
    exact ⟨h1, fun k hk => ⟨h2 k hk, h3 k hk⟩⟩
  · rintro ⟨h1, h2⟩
    exact ⟨⟨h1, fun k hk => (h2 k hk).1⟩, fun k hk => (h2 k hk).2⟩

/-- **C56 violated**: limits of constraints that are not given are ignored by the length. -/
theorem C56_general_null_violation (s : QPC K) : s.homotopyLength s.g (some s.lb) (some s.ub) none none = 0 :=
  (C56_length_partial s.toQPB s.g s.lb s.ub).2.2 fun _ _ => ⟨rfl, rfl, rfl⟩

/-! ### the hypotheses are met -/
section
open QpOASES.Runs

/-- One variable in [0,1], one constraint, active at its upper limit 1, whose row is 4; ramping enabled. -/
def ramping : QPC ℚ :=
  { startC 1 1 HST_IDENTITY (Options.setToDefault : Options ℚ) with
    x := vec [1/4]
    y := vec [0, -1]
    lb := vec [0]
    ub := vec [1]
    A := fun _ _ => 4
    Ax := vec [1]
    lbA := vec [0]
    ubA := vec [1]
    bounds := { (WS.init 1) with type := fun _ => ST_BOUNDED, status := fun _ => ST_INACTIVE, free := [0], noLower := false, noUpper := false }
    cons := { (WS.init 1) with type := fun _ => ST_BOUNDED, status := fun _ => ST_UPPER, fixed := [0] } }

example : 0 < ramping.nV ∧ ramping.hessianType = HST_IDENTITY ∧ ramping.options.enableRamping = true ∧
    holds (performRamping ramping) (fun s => decide (s.lb 0 = -1/4 ∧ s.ub 0 = 3/4 ∧ s.ubA 0 = 1 ∧ s.y 1 < 0)) = true := by decide +kernel

example : ∃ o, coldC (startC 2 1 HST_IDENTITY plain) none [-1,-1] [3,4] [-100,-100] [100,100] [-50] [5] = .ok o ∧ HasSolved o.s.toQPB ∧
    o.s.usingRegularisation = false ∧ o.s.nV ≠ 0 ∧ o.s.hessianType = HST_IDENTITY ∧ o.s.cons.getStatus 0 = ST_UPPER ∧
    o.s.cons.type 0 = ST_BOUNDED := by
  obtain ⟨o, e, h⟩ := of_holds (r := coldC (startC 2 1 HST_IDENTITY plain) none [-1,-1] [3,4] [-100,-100] [100,100] [-50] [5])
    (p := fun o => decide (o.s.status = QPS_SOLVED ∧ o.s.usingRegularisation = false ∧ o.s.nV ≠ 0 ∧ o.s.hessianType = HST_IDENTITY ∧
      o.s.cons.getStatus 0 = ST_UPPER ∧ o.s.cons.type 0 = ST_BOUNDED)) (by decide +kernel)
  obtain ⟨h1, h2⟩ := of_decide_eq_true h
  exact ⟨o, e, Or.inr (Or.inr h1), h2⟩

/-- Steps of length 1/2 and 1: the constraint x ≤ 1/4, not active, meets its limit half way when the variable moves to 1/2, and does not meet it
when the variable moves to 1/5. -/
def stepping : QPC ℚ :=
  { ramping with
      x := vec [0]
      y := vec [0, 0]
      A := fun _ _ => 1
      lb := vec [-1]
      lbA := vec [-1]
      ubA := vec [1/4]
      Ax := vec [0]
      Axl := vec [1]
      Axu := vec [1/4]
      cons := { (WS.init 1) with type := fun _ => ST_BOUNDED, status := fun _ => ST_INACTIVE, free := [0], noLower := false, noUpper := false } }

example : holds (performStep stepping (stepping.dataShift (vec [-1/2]) (some (vec [-1])) (some (vec [1])) (some (vec [-1])) (some (vec [1/4])))
      ⟨fun _ => 0, fun _ => 1/2, fun _ => 0, fun _ => 0⟩) (fun r => decide (r.1.tau = 1/2 ∧ r.2.map (fun c => (c.isBound, c.idx, c.st)) = some (false, 0, ST_UPPER))) = true ∧
    holds (performStep stepping (stepping.dataShift (vec [-1/5]) (some (vec [-1])) (some (vec [1])) (some (vec [-1])) (some (vec [1/4])))
      ⟨fun _ => 0, fun _ => 1/5, fun _ => 0, fun _ => 0⟩) (fun r => decide (r.1.tau = 1 ∧ r.2.isNone)) = true := by decide +kernel

end

end QpOASES.Props.General
