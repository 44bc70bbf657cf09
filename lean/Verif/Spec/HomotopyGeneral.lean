import Verif.Spec.Homotopy

/-!
Steps along the homotopy between two QPs with bounds and general constraints: vectors of variables are indexed by the variables, vectors of
constraints by the constraints; multipliers of the constraints follow those of the variables.
-/
namespace QpOASES.Spec
open Finset SubjectToStatus SubjectToType

variable {K : Type} [Field K] [LinearOrder K] [IsStrictOrderedRing K]

/-- `(dx,dy)` satisfies the linearised optimality conditions of the working set for a change of gradient and limits. -/
structure DirectionGeneral (n m : Nat) (H A : Nat → Nat → K) (status statusA : Nat → SubjectToStatus) (dg dlb dub dlbA dubA dx dy : Nat → K) :
    Prop where
  stat : ∀ i < n, QP.row n H dx i + dg i = dy i + ∑ k ∈ range m, A k i * dy (n + k)
  lower : ∀ i < n, status i = ST_LOWER → dx i = dlb i
  upper : ∀ i < n, status i = ST_UPPER → dx i = dub i
  inactive : ∀ i < n, status i = ST_INACTIVE → dy i = 0
  lowerA : ∀ k < m, statusA k = ST_LOWER → QP.row n A dx k = dlbA k
  upperA : ∀ k < m, statusA k = ST_UPPER → QP.row n A dx k = dubA k
  inactiveA : ∀ k < m, statusA k = ST_INACTIVE → dy (n + k) = 0

/-- Limits `l`, `u`, values `v` and multipliers `y` of the variables, or of the constraints, fit together and to the statuses: active limits
are attained with multipliers of the right sign, inactive ones have multiplier zero, and no limit is violated (if it is watched at all). -/
structure SideOptimal (n : Nat) (status : Nat → SubjectToStatus) (type : Nat → SubjectToType) (watchLower watchUpper : Nat → Prop)
    (l u v y : Nat → K) : Prop where
  above : ∀ i < n, watchLower i → l i ≤ v i
  below : ∀ i < n, watchUpper i → v i ≤ u i
  consistent : ∀ i < n, l i ≤ u i
  lower : ∀ i < n, status i = ST_LOWER → v i = l i ∧ (type i ≠ ST_EQUALITY → 0 ≤ y i)
  upper : ∀ i < n, status i = ST_UPPER → v i = u i ∧ (type i ≠ ST_EQUALITY → y i ≤ 0)
  inactive : ∀ i < n, status i = ST_INACTIVE → y i = 0
  equality : ∀ i < n, type i = ST_EQUALITY → status i ≠ ST_INACTIVE ∧ l i = u i
  proper : ∀ i < n, status i = ST_INACTIVE ∨ status i = ST_LOWER ∨ status i = ST_UPPER

theorem SideOptimal.signs {n : Nat} {status : Nat → SubjectToStatus} {type : Nat → SubjectToType} {wl wu : Nat → Prop} {l u v y : Nat → K}
    (h : SideOptimal n status type wl wu l u v y) : ∀ i < n, (0 < y i → v i = l i) ∧ (y i < 0 → v i = u i) := by
  intro i hi
  rcases h.proper i hi with hs | hs | hs
  · rw [h.inactive i hi hs]
    exact ⟨fun e => absurd e (lt_irrefl _), fun e => absurd e (lt_irrefl _)⟩
  · obtain ⟨e1, e2⟩ := h.lower i hi hs
    refine ⟨fun _ => e1, fun hy => ?_⟩
    by_cases ht : type i = ST_EQUALITY
    · rw [e1, (h.equality i hi ht).2]
    · exact absurd hy (not_lt.2 (e2 ht))
  · obtain ⟨e1, e2⟩ := h.upper i hi hs
    refine ⟨fun hy => ?_, fun _ => e1⟩
    by_cases ht : type i = ST_EQUALITY
    · rw [e1, (h.equality i hi ht).2]
    · exact absurd hy (not_lt.2 (e2 ht))

/-- The primal-dual pair is optimal for the QP and the working set explains it. -/
structure OptimalGeneral (P : QP K) (status statusA : Nat → SubjectToStatus) (type typeA : Nat → SubjectToType)
    (watchLower watchUpper watchLowerA watchUpperA : Nat → Prop) (x y : Nat → K) : Prop where
  stat : ∀ i < P.nV, QP.row P.nV P.H x i + P.g i = y i + ∑ k ∈ range P.nC, P.A k i * y (P.nV + k)
  bounds : SideOptimal P.nV status type watchLower watchUpper P.lb P.ub x y
  constraints : SideOptimal P.nC statusA typeA watchLowerA watchUpperA P.lbA P.ubA (QP.row P.nV P.A x) (fun k => y (P.nV + k))

/-- If all limits are watched, these are the optimality conditions. -/
theorem OptimalGeneral.kkt {P : QP K} {status statusA : Nat → SubjectToStatus} {type typeA : Nat → SubjectToType} {x y : Nat → K}
    (h : OptimalGeneral P status statusA type typeA (fun _ => True) (fun _ => True) (fun _ => True) (fun _ => True) x y) : P.KKT x y :=
  ⟨⟨h.stat, fun i hi => (h.bounds.signs i hi).1, fun i hi => (h.bounds.signs i hi).2, fun k hk => (h.constraints.signs k hk).1,
      fun k hk => (h.constraints.signs k hk).2⟩,
    ⟨fun i hi => h.bounds.above i hi trivial, fun i hi => h.bounds.below i hi trivial, fun k hk => h.constraints.above k hk trivial,
      fun k hk => h.constraints.below k hk trivial⟩⟩

end QpOASES.Spec
