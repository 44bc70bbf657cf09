import Verif.Props.C34_Solved
import Mathlib.Tactic.IntervalCases
import Mathlib.Tactic.LinearCombination

/-!
C52: ramping; C56: the data along the homotopy (bound-constrained solver).
-/
namespace QpOASES.Props
open Finset Spec QPB ReturnValue SubjectToStatus SubjectToType HessianType QProblemStatus

set_option linter.unusedSectionVars false

variable {K : Type} [Field K] [LinearOrder K] [IsStrictOrderedRing K]

/-! ### C52 -/

/-- New limits and multiplier of one variable at `x`: a bounded variable gets limits in distance `v`, and a multiplier of
this size when it is active. -/
def Ramped (v x : K) (st : SubjectToStatus) (l u y : K) : Prop :=
  match st with
  | ST_LOWER => l = x ∧ u = x + v ∧ y = v
  | ST_UPPER => l = x - v ∧ u = x ∧ y = -v
  | _ => l = x - v ∧ u = x + v ∧ (st = ST_INACTIVE → y = 0)

/-- **C52** (part): with at least two variables, ramping is defined, and gives every bounded variable limits and multiplier between
the two ramp values.  Equalities are fixed to the current point, all other variables keep limits and multiplier. -/
theorem C52_partial {s : QPB K} (hnV : 2 ≤ s.nV) (h0 : 0 ≤ s.ramp0) (h1 : 0 ≤ s.ramp1) (hH : ¬ s.scalarH → s.H ≠ none) :
    ∃ s', performRamping s = .ok s' ∧ s'.x = s.x ∧ s'.bounds = s.bounds ∧ ∀ i < s.nV,
      match s.bounds.type i with
      | ST_BOUNDED => ∃ v, min s.ramp0 s.ramp1 ≤ v ∧ v ≤ max s.ramp0 s.ramp1 ∧
          Ramped v (s.x i) (s.bounds.getStatus i) (s'.lb i) (s'.ub i) (s'.y i)
      | ST_UNKNOWN => ∃ v, min s.ramp0 s.ramp1 ≤ v ∧ v ≤ max s.ramp0 s.ramp1 ∧
          Ramped v (s.x i) (s.bounds.getStatus i) (s'.lb i) (s'.ub i) (s'.y i)
      | ST_EQUALITY => s'.lb i = s.x i ∧ s'.ub i = s.x i ∧ s'.y i = s.y i
      | _ => s'.lb i = s.lb i ∧ s'.ub i = s.ub i ∧ s'.y i = s.y i := by
  obtain ⟨l, u, y, e, _, hj⟩ := rampLoop_spec s.nV 0 s hnV h0 h1
  obtain ⟨g', e', hg⟩ := setupAuxiliaryQPgradient_spec (s := { s with lb := l, ub := u, y := y }) hH
  refine ⟨{ s with g := g', lb := l, ub := u, y := y, rampOffset := s.rampOffset + 1 }, ?_, rfl, rfl, fun i hi => ?_⟩
  · unfold performRamping
    rw [e]
    simp only [Res.bind_ok]
    rw [e']
    rfl
  · obtain ⟨v, _, v1, v2, ht⟩ := hj i (Nat.zero_le _) (by omega)
    unfold rampTriple at ht
    cases hty : s.bounds.type i <;> simp only [hty] at ht ⊢
    case ST_BOUNDED =>
      refine ⟨v, v1, v2, ?_⟩
      unfold Ramped
      cases hst : s.bounds.getStatus i <;> simp only [hst, Prod.mk.injEq] at ht ⊢ <;> simp [ht]
    case ST_UNKNOWN =>
      refine ⟨v, v1, v2, ?_⟩
      unfold Ramped
      cases hst : s.bounds.getStatus i <;> simp only [hst, Prod.mk.injEq] at ht ⊢ <;> simp [ht]
    all_goals simpa only [Prod.mk.injEq] using ht

/-- **C52 violated**: with one bounded variable, ramping divides zero by zero, in every state. -/
theorem C52_single_violation {s : QPB K} (hn : s.nV = 1) (ht : s.bounds.type 0 = ST_BOUNDED) :
    performRamping s = .ub .divByZero := by
  have hv : s.rampVal 0 s.nV = .ub .divByZero := by
    unfold rampVal
    rw [hn]
    unfold cdiv
    rw [if_pos (by simp)]
    rfl
  have h1 : rampOne s 0 = .ub .divByZero := by
    unfold rampOne
    rw [ht]
    dsimp only
    rw [hv]
    rfl
  unfold performRamping
  have : rampLoop s.nV 0 s = .ub .divByZero := by
    rw [hn, rampLoop, h1]
    rfl
  rw [this]
  rfl

section
open Runs

/-- **C52 violated**: minimising x²/2 - 3x over [0,1], the solver, with default options without far bounds, divides zero by zero. -/
theorem C52_run_violation :
    cold (start 1 HST_IDENTITY { (Options.setToDefault : Options ℚ) with enableFarBounds := false }) none [-3] [0] [1] = .ub .divByZero :=
  of_dividesByZero (by decide +kernel)

end

/-! ### C56 -/

/-- **C56** (part): the data after a step.  `gNew`, `lbNew` and `ubNew` are the requested data, absent limits being infinite. -/
theorem C56_step_partial {s s' : QPB K} (hw : s.bounds.OK) (hn : s.bounds.n = s.nV) {gNew : Nat → K} {lbNew ubNew : Option (Nat → K)}
    {d : Dir K} {bc : Option (Nat × SubjectToStatus)}
    (e : performStep s (fun i => gNew i - s.g i) (fun i => lowerOf lbNew i - s.lb i) (fun i => upperOf ubNew i - s.ub i) d = .ok (s', bc))
    (ht : s'.tau = 0 ∨ ZERO < s'.tau) :
    (∀ i, gNew i - s'.g i = (1 - s'.tau) * (gNew i - s.g i)) ∧
    (∀ i, lbNew.getD (fun _ => -INFTY) i - s'.lb i = (1 - s'.tau) * (lbNew.getD (fun _ => -INFTY) i - s.lb i)) ∧
    (∀ i, ubNew.getD (fun _ => INFTY) i - s'.ub i = (1 - s'.tau) * (ubNew.getD (fun _ => INFTY) i - s.ub i)) ∧
    (s'.tau = 1 → s'.g = gNew ∧ s'.lb = lbNew.getD (fun _ => -INFTY) ∧ s'.ub = ubNew.getD (fun _ => INFTY)) := by
  unfold performStep at e
  obtain ⟨⟨tau, bc'⟩, _, e⟩ := (Res.bind_eq_ok).1 e
  cases e
  have hf := takeStep_fields s (fun i => gNew i - s.g i) (fun i => lowerOf lbNew i - s.lb i) (fun i => upperOf ubNew i - s.ub i) d tau
  have htau : (takeStep s (fun i => gNew i - s.g i) (fun i => lowerOf lbNew i - s.lb i) (fun i => upperOf ubNew i - s.ub i) d tau).tau = tau := by
    rw [hf]
  rw [htau] at ht ⊢
  obtain ⟨_, _, eg, el, eu⟩ := takeStep_data hw hn (fun i => gNew i - s.g i) (fun i => lowerOf lbNew i - s.lb i)
    (fun i => upperOf ubNew i - s.ub i) d ht
  have a1 : ∀ i, lbNew.getD (fun _ => -INFTY) i = lowerOf lbNew i := fun _ => rfl
  have a2 : ∀ i, ubNew.getD (fun _ => INFTY) i = upperOf ubNew i := fun _ => rfl
  refine ⟨fun i => ?_, fun i => ?_, fun i => ?_, fun h1 => ⟨?_, ?_, ?_⟩⟩
  · rw [eg]; ring
  · rw [el, a1]; ring
  · rw [eu, a2]; ring
  · funext i; rw [eg, h1]; ring
  · funext i; rw [el, h1, a1]; ring
  · funext i; rw [eu, h1, a2]; ring

/-- The length is zero exactly if the vectors agree. -/
theorem relLen_zero (new old : Nat → K) (n : Nat) {len : K} (hl : 0 ≤ len) :
    relLen new old n len = 0 ↔ len = 0 ∧ ∀ i < n, new i = old i := by
  obtain ⟨h1, h2, h3⟩ := relLen_spec new old n len
  constructor
  · intro h
    rw [h] at h1 h2
    refine ⟨le_antisymm h1 hl, fun i hi => ?_⟩
    have := h2 i hi
    rw [zero_mul] at this
    exact sub_eq_zero.1 (abs_eq_zero.1 (le_antisymm this (abs_nonneg _)))
  · rintro ⟨rfl, h⟩
    rcases h3 with h3 | ⟨i, hi, h3⟩
    · exact h3
    · rw [h i hi, sub_self, abs_zero] at h3
      rcases mul_eq_zero.1 h3 with h3 | h3
      · exact h3
      · exact absurd h3 (lt_of_lt_of_le one_pos (le_max_left _ _)).ne'

/-- **C56** (part): the relative length of the homotopy is nonnegative, and zero exactly if the data agree, when both vectors of
limits are given. -/
theorem C56_length_partial (s : QPB K) (gNew l u : Nat → K) :
    0 ≤ s.homotopyLength gNew (some l) (some u) ∧
    (s.homotopyLength gNew (some l) (some u) = 0 ↔ ∀ i < s.nV, gNew i = s.g i ∧ l i = s.lb i ∧ u i = s.ub i) := by
  have a := (relLen_spec gNew s.g s.nV 0).1
  have b := a.trans (relLen_spec l s.lb s.nV (relLen gNew s.g s.nV 0)).1
  have c := b.trans (relLen_spec u s.ub s.nV (relLen l s.lb s.nV (relLen gNew s.g s.nV 0))).1
  refine ⟨c, ?_⟩
  show relLen u s.ub s.nV (relLen l s.lb s.nV (relLen gNew s.g s.nV 0)) = 0 ↔ _
  rw [relLen_zero _ _ _ b, relLen_zero _ _ _ a, relLen_zero _ _ _ le_rfl]
  constructor
  · rintro ⟨⟨⟨_, h1⟩, h2⟩, h3⟩ i hi
    exact ⟨h1 i hi, h2 i hi, h3 i hi⟩
  · intro h
    exact ⟨⟨⟨rfl, fun i hi => (h i hi).1⟩, fun i hi => (h i hi).2.1⟩, fun i hi => (h i hi).2.2⟩

/-- It is nonnegative also when vectors of limits are absent. -/
theorem C56_length_nonneg (s : QPB K) (gNew : Nat → K) (lbNew ubNew : Option (Nat → K)) : 0 ≤ s.homotopyLength gNew lbNew ubNew := by
  have a := (relLen_spec gNew s.g s.nV 0).1
  unfold homotopyLength
  dsimp only
  cases lbNew <;> cases ubNew <;> dsimp only
  · exact a
  · exact a.trans (relLen_spec _ _ _ _).1
  · exact a.trans (relLen_spec _ _ _ _).1
  · exact (a.trans (relLen_spec _ _ _ _).1).trans (relLen_spec _ _ _ _).1

/-- **C56 violated**: absent limits are ignored by the length: it is zero for every current limits when the gradients agree. -/
theorem C56_null_violation (s : QPB K) : s.homotopyLength s.g none none = 0 :=
  (relLen_zero s.g s.g s.nV le_rfl).2 ⟨rfl, fun _ _ => rfl⟩

/-! ### the hypotheses are met -/
section
open Runs

/-- Two variables, one at its lower limit. -/
def dataDemo : QPB ℚ := { start 2 HST_IDENTITY { (Options.setToDefault : Options ℚ) with enableFarBounds := false } with
  g := vec [1, 0]
  x := vec [0, 0]
  y := vec [1, 0]
  lb := vec [0, -1]
  ub := vec [1, 1]
  haveCholesky := true
  status := QPS_PERFORMINGHOMOTOPY
  bounds :=
    { n := 2
      type := fun _ => ST_BOUNDED
      status := fun i => if i = 0 then ST_LOWER else ST_INACTIVE
      noLower := false
      noUpper := false
      free := [1]
      fixed := [0] } }

example : 2 ≤ dataDemo.nV ∧ 0 ≤ dataDemo.ramp0 ∧ 0 ≤ dataDemo.ramp1 ∧ ∀ i < 2, dataDemo.bounds.type i = ST_BOUNDED := by decide +kernel

example : dataDemo.scalarH := Or.inr rfl

/-- A step of length 1/2: the second variable meets its limit. -/
example : holds (performStep dataDemo (fun i => vec [1, -2] i - dataDemo.g i) (fun i => lowerOf (some (vec [0, -1])) i - dataDemo.lb i)
    (fun i => upperOf (some (vec [1, 1])) i - dataDemo.ub i) ⟨fun _ => 0, fun _ => 2, fun _ => 0⟩)
    (fun r => decide (r.1.tau = 1/2 ∧ r.2 = some (1, ST_UPPER) ∧ r.1.g 1 = -1)) = true := by decide +kernel

/-- A full step. -/
example : holds (performStep dataDemo (fun i => vec [1, -1/2] i - dataDemo.g i) (fun i => lowerOf (some (vec [0, -1])) i - dataDemo.lb i)
    (fun i => upperOf (some (vec [1, 1])) i - dataDemo.ub i) ⟨fun _ => 0, fun _ => 1/2, fun _ => 0⟩)
    (fun r => decide (r.1.tau = 1 ∧ r.2 = none ∧ r.1.g 1 = -1/2)) = true := by decide +kernel

example : dataDemo.bounds.OK ∧ dataDemo.bounds.n = dataDemo.nV := by refine ⟨⟨?_, ?_, ?_⟩, ?_⟩ <;> decide +kernel

end

end QpOASES.Props
