import Verif.Spec.Options
import Mathlib.Tactic.NormNum
import Mathlib.Tactic.Positivity
import Mathlib.Tactic.Linarith
import Mathlib.Algebra.Order.Field.Rat

/-!
Properties C11-C13: options.
-/
namespace QpOASES.Props
open QpOASES QpOASES.Spec ReturnValue SubjectToStatus
open QpOASES.Options

section
variable {K : Type} [Field K] [LinearOrder K] [IsStrictOrderedRing K]

theorem EPS_pos : (0 : K) < EPS := by unfold EPS; positivity

/-- Closed form of validation: every member by itself. -/
def fixed (o : Options K) : Options K :=
  { o with
    enableDriftCorrection := if o.enableDriftCorrection < 0 then 0 else o.enableDriftCorrection
    enableCholeskyRefactorisation := if o.enableCholeskyRefactorisation < 0 then 0 else o.enableCholeskyRefactorisation
    terminationTolerance := if o.terminationTolerance ≤ 0 then EPS else o.terminationTolerance
    epsIterRef := if o.epsIterRef ≤ 0 then EPS else o.epsIterRef
    epsRegularisation := if o.epsRegularisation ≤ 0 then EPS else o.epsRegularisation
    boundTolerance := if o.boundTolerance ≤ 0 then EPS else o.boundTolerance
    boundRelaxation := if o.boundRelaxation ≤ 0 then EPS else o.boundRelaxation
    maxPrimalJump := if o.maxPrimalJump ≤ 0 then EPS else o.maxPrimalJump
    maxDualJump := if o.maxDualJump ≤ 0 then EPS else o.maxDualJump
    initialRamping := if o.initialRamping < 0 then 0 else o.initialRamping
    finalRamping := if o.finalRamping < 0 then 0 else o.finalRamping
    initialFarBounds := if o.initialFarBounds ≤ (if o.boundRelaxation ≤ 0 then EPS else o.boundRelaxation) then (if o.boundRelaxation ≤ 0 then EPS else o.boundRelaxation) + EPS else o.initialFarBounds
    growFarBounds := if o.growFarBounds < 11 / 10 then 11 / 10 else o.growFarBounds
    epsFlipping := if o.epsFlipping ≤ 0 then EPS else o.epsFlipping
    numRegularisationSteps := if o.numRegularisationSteps < 0 then 0 else o.numRegularisationSteps
    numRefinementSteps := if o.numRefinementSteps < 0 then 0 else o.numRefinementSteps
    epsLITests := if o.epsLITests < 0 then EPS else o.epsLITests
    epsNZCTests := if o.epsNZCTests < 0 then EPS else o.epsNZCTests }

/-- Some member is out of range. -/
def outOfRange (o : Options K) : Prop :=
  o.enableDriftCorrection < 0 ∨
  o.enableCholeskyRefactorisation < 0 ∨
  o.terminationTolerance ≤ 0 ∨
  o.epsIterRef ≤ 0 ∨
  o.epsRegularisation ≤ 0 ∨
  o.boundTolerance ≤ 0 ∨
  o.boundRelaxation ≤ 0 ∨
  o.maxPrimalJump ≤ 0 ∨
  o.maxDualJump ≤ 0 ∨
  o.initialRamping < 0 ∨
  o.finalRamping < 0 ∨
  o.initialFarBounds ≤ (if o.boundRelaxation ≤ 0 then EPS else o.boundRelaxation) ∨
  o.growFarBounds < 11 / 10 ∨
  o.epsFlipping ≤ 0 ∨
  o.numRegularisationSteps < 0 ∨
  o.numRefinementSteps < 0 ∨
  o.epsLITests < 0 ∨
  o.epsNZCTests < 0

omit [IsStrictOrderedRing K] in
theorem adjust_eq (cond : Options K → Bool) (set : Options K → Options K) (o : Options K) (b : Bool) :
    adjust cond set (o, b) = (if cond o then set o else o, b || cond o) := by
  unfold adjust
  by_cases h : cond o = true <;> simp [h]

omit [IsStrictOrderedRing K] in
theorem adj0 (o : Options K) (b : Bool) :
    adjust (fun o : Options K => decide (o.enableDriftCorrection < 0)) (fun o : Options K => { o with enableDriftCorrection := 0 }) (o, b) =
      ({ o with enableDriftCorrection := if o.enableDriftCorrection < 0 then 0 else o.enableDriftCorrection }, b || decide (o.enableDriftCorrection < 0)) := by
  rw [adjust_eq]
  by_cases h : o.enableDriftCorrection < 0 <;> simp [h]

omit [IsStrictOrderedRing K] in
theorem adj1 (o : Options K) (b : Bool) :
    adjust (fun o : Options K => decide (o.enableCholeskyRefactorisation < 0)) (fun o : Options K => { o with enableCholeskyRefactorisation := 0 }) (o, b) =
      ({ o with enableCholeskyRefactorisation := if o.enableCholeskyRefactorisation < 0 then 0 else o.enableCholeskyRefactorisation }, b || decide (o.enableCholeskyRefactorisation < 0)) := by
  rw [adjust_eq]
  by_cases h : o.enableCholeskyRefactorisation < 0 <;> simp [h]

omit [IsStrictOrderedRing K] in
theorem adj2 (o : Options K) (b : Bool) :
    adjust (fun o : Options K => decide (o.terminationTolerance ≤ 0)) (fun o : Options K => { o with terminationTolerance := EPS }) (o, b) =
      ({ o with terminationTolerance := if o.terminationTolerance ≤ 0 then EPS else o.terminationTolerance }, b || decide (o.terminationTolerance ≤ 0)) := by
  rw [adjust_eq]
  by_cases h : o.terminationTolerance ≤ 0 <;> simp [h]

omit [IsStrictOrderedRing K] in
theorem adj3 (o : Options K) (b : Bool) :
    adjust (fun o : Options K => decide (o.epsIterRef ≤ 0)) (fun o : Options K => { o with epsIterRef := EPS }) (o, b) =
      ({ o with epsIterRef := if o.epsIterRef ≤ 0 then EPS else o.epsIterRef }, b || decide (o.epsIterRef ≤ 0)) := by
  rw [adjust_eq]
  by_cases h : o.epsIterRef ≤ 0 <;> simp [h]

omit [IsStrictOrderedRing K] in
theorem adj4 (o : Options K) (b : Bool) :
    adjust (fun o : Options K => decide (o.epsRegularisation ≤ 0)) (fun o : Options K => { o with epsRegularisation := EPS }) (o, b) =
      ({ o with epsRegularisation := if o.epsRegularisation ≤ 0 then EPS else o.epsRegularisation }, b || decide (o.epsRegularisation ≤ 0)) := by
  rw [adjust_eq]
  by_cases h : o.epsRegularisation ≤ 0 <;> simp [h]

omit [IsStrictOrderedRing K] in
theorem adj5 (o : Options K) (b : Bool) :
    adjust (fun o : Options K => decide (o.boundTolerance ≤ 0)) (fun o : Options K => { o with boundTolerance := EPS }) (o, b) =
      ({ o with boundTolerance := if o.boundTolerance ≤ 0 then EPS else o.boundTolerance }, b || decide (o.boundTolerance ≤ 0)) := by
  rw [adjust_eq]
  by_cases h : o.boundTolerance ≤ 0 <;> simp [h]

omit [IsStrictOrderedRing K] in
theorem adj6 (o : Options K) (b : Bool) :
    adjust (fun o : Options K => decide (o.boundRelaxation ≤ 0)) (fun o : Options K => { o with boundRelaxation := EPS }) (o, b) =
      ({ o with boundRelaxation := if o.boundRelaxation ≤ 0 then EPS else o.boundRelaxation }, b || decide (o.boundRelaxation ≤ 0)) := by
  rw [adjust_eq]
  by_cases h : o.boundRelaxation ≤ 0 <;> simp [h]

omit [IsStrictOrderedRing K] in
theorem adj7 (o : Options K) (b : Bool) :
    adjust (fun o : Options K => decide (o.maxPrimalJump ≤ 0)) (fun o : Options K => { o with maxPrimalJump := EPS }) (o, b) =
      ({ o with maxPrimalJump := if o.maxPrimalJump ≤ 0 then EPS else o.maxPrimalJump }, b || decide (o.maxPrimalJump ≤ 0)) := by
  rw [adjust_eq]
  by_cases h : o.maxPrimalJump ≤ 0 <;> simp [h]

omit [IsStrictOrderedRing K] in
theorem adj8 (o : Options K) (b : Bool) :
    adjust (fun o : Options K => decide (o.maxDualJump ≤ 0)) (fun o : Options K => { o with maxDualJump := EPS }) (o, b) =
      ({ o with maxDualJump := if o.maxDualJump ≤ 0 then EPS else o.maxDualJump }, b || decide (o.maxDualJump ≤ 0)) := by
  rw [adjust_eq]
  by_cases h : o.maxDualJump ≤ 0 <;> simp [h]

omit [IsStrictOrderedRing K] in
theorem adj9 (o : Options K) (b : Bool) :
    adjust (fun o : Options K => decide (o.initialRamping < 0)) (fun o : Options K => { o with initialRamping := 0 }) (o, b) =
      ({ o with initialRamping := if o.initialRamping < 0 then 0 else o.initialRamping }, b || decide (o.initialRamping < 0)) := by
  rw [adjust_eq]
  by_cases h : o.initialRamping < 0 <;> simp [h]

omit [IsStrictOrderedRing K] in
theorem adj10 (o : Options K) (b : Bool) :
    adjust (fun o : Options K => decide (o.finalRamping < 0)) (fun o : Options K => { o with finalRamping := 0 }) (o, b) =
      ({ o with finalRamping := if o.finalRamping < 0 then 0 else o.finalRamping }, b || decide (o.finalRamping < 0)) := by
  rw [adjust_eq]
  by_cases h : o.finalRamping < 0 <;> simp [h]

omit [IsStrictOrderedRing K] in
theorem adj11 (o : Options K) (b : Bool) :
    adjust (fun o : Options K => decide (o.initialFarBounds ≤ o.boundRelaxation)) (fun o : Options K => { o with initialFarBounds := o.boundRelaxation + EPS }) (o, b) =
      ({ o with initialFarBounds := if o.initialFarBounds ≤ o.boundRelaxation then o.boundRelaxation + EPS else o.initialFarBounds }, b || decide (o.initialFarBounds ≤ o.boundRelaxation)) := by
  rw [adjust_eq]
  by_cases h : o.initialFarBounds ≤ o.boundRelaxation <;> simp [h]

omit [IsStrictOrderedRing K] in
theorem adj12 (o : Options K) (b : Bool) :
    adjust (fun o : Options K => decide (o.growFarBounds < 11 / 10)) (fun o : Options K => { o with growFarBounds := 11 / 10 }) (o, b) =
      ({ o with growFarBounds := if o.growFarBounds < 11 / 10 then 11 / 10 else o.growFarBounds }, b || decide (o.growFarBounds < 11 / 10)) := by
  rw [adjust_eq]
  by_cases h : o.growFarBounds < 11 / 10 <;> simp [h]

omit [IsStrictOrderedRing K] in
theorem adj13 (o : Options K) (b : Bool) :
    adjust (fun o : Options K => decide (o.epsFlipping ≤ 0)) (fun o : Options K => { o with epsFlipping := EPS }) (o, b) =
      ({ o with epsFlipping := if o.epsFlipping ≤ 0 then EPS else o.epsFlipping }, b || decide (o.epsFlipping ≤ 0)) := by
  rw [adjust_eq]
  by_cases h : o.epsFlipping ≤ 0 <;> simp [h]

omit [IsStrictOrderedRing K] in
theorem adj14 (o : Options K) (b : Bool) :
    adjust (fun o : Options K => decide (o.numRegularisationSteps < 0)) (fun o : Options K => { o with numRegularisationSteps := 0 }) (o, b) =
      ({ o with numRegularisationSteps := if o.numRegularisationSteps < 0 then 0 else o.numRegularisationSteps }, b || decide (o.numRegularisationSteps < 0)) := by
  rw [adjust_eq]
  by_cases h : o.numRegularisationSteps < 0 <;> simp [h]

omit [IsStrictOrderedRing K] in
theorem adj15 (o : Options K) (b : Bool) :
    adjust (fun o : Options K => decide (o.epsRegularisation < 0)) (fun o : Options K => { o with epsRegularisation := EPS }) (o, b) =
      ({ o with epsRegularisation := if o.epsRegularisation < 0 then EPS else o.epsRegularisation }, b || decide (o.epsRegularisation < 0)) := by
  rw [adjust_eq]
  by_cases h : o.epsRegularisation < 0 <;> simp [h]

omit [IsStrictOrderedRing K] in
theorem adj16 (o : Options K) (b : Bool) :
    adjust (fun o : Options K => decide (o.numRefinementSteps < 0)) (fun o : Options K => { o with numRefinementSteps := 0 }) (o, b) =
      ({ o with numRefinementSteps := if o.numRefinementSteps < 0 then 0 else o.numRefinementSteps }, b || decide (o.numRefinementSteps < 0)) := by
  rw [adjust_eq]
  by_cases h : o.numRefinementSteps < 0 <;> simp [h]

omit [IsStrictOrderedRing K] in
theorem adj17 (o : Options K) (b : Bool) :
    adjust (fun o : Options K => decide (o.epsIterRef < 0)) (fun o : Options K => { o with epsIterRef := EPS }) (o, b) =
      ({ o with epsIterRef := if o.epsIterRef < 0 then EPS else o.epsIterRef }, b || decide (o.epsIterRef < 0)) := by
  rw [adjust_eq]
  by_cases h : o.epsIterRef < 0 <;> simp [h]

omit [IsStrictOrderedRing K] in
theorem adj18 (o : Options K) (b : Bool) :
    adjust (fun o : Options K => decide (o.epsLITests < 0)) (fun o : Options K => { o with epsLITests := EPS }) (o, b) =
      ({ o with epsLITests := if o.epsLITests < 0 then EPS else o.epsLITests }, b || decide (o.epsLITests < 0)) := by
  rw [adjust_eq]
  by_cases h : o.epsLITests < 0 <;> simp [h]

omit [IsStrictOrderedRing K] in
theorem adj19 (o : Options K) (b : Bool) :
    adjust (fun o : Options K => decide (o.epsNZCTests < 0)) (fun o : Options K => { o with epsNZCTests := EPS }) (o, b) =
      ({ o with epsNZCTests := if o.epsNZCTests < 0 then EPS else o.epsNZCTests }, b || decide (o.epsNZCTests < 0)) := by
  rw [adjust_eq]
  by_cases h : o.epsNZCTests < 0 <;> simp [h]

theorem ensureConsistency_eq (o : Options K) [Decidable (outOfRange o)] :
    ensureConsistency o = (if outOfRange o then RET_OPTIONS_ADJUSTED else SUCCESSFUL_RETURN, fixed o) := by
  have hE : (0 : K) < EPS := EPS_pos
  have hE' : ¬ (EPS : K) ≤ 0 := not_le.2 hE
  have hE'' : ¬ (EPS : K) < 0 := not_lt.2 hE.le
  have hn : ∀ x : K, ¬ (if x ≤ 0 then EPS else x) < 0 := by
    intro x h
    split at h
    · exact hE'' h
    · rename_i h'; exact h' h.le
  unfold ensureConsistency
  simp only [adj0, adj1, adj2, adj3, adj4, adj5, adj6, adj7, adj8, adj9, adj10, adj11, adj12, adj13, adj14, adj15, adj16, adj17, adj18, adj19]
  simp only [hn, if_false, decide_false, Bool.or_false, Bool.false_or]
  by_cases h : outOfRange o
  · have h' := h
    simp only [outOfRange] at h'
    rw [if_pos (by simpa [or_assoc] using h'), if_pos h]
    rfl
  · have h' := h
    simp only [outOfRange] at h'
    rw [if_neg (by simpa [or_assoc] using h'), if_neg h]
    rfl

theorem valid_fixed (o : Options K) : ValidOptions (fixed o) := by
  have hE : (0 : K) < EPS := EPS_pos
  constructor <;> simp only [fixed] <;> split <;> (try split) <;>
    first
      | exact le_refl _
      | exact hE
      | exact hE.le
      | (exact not_lt.1 (by assumption))
      | (exact not_le.1 (by assumption))
      | (exact lt_add_of_pos_right _ hE)

omit [IsStrictOrderedRing K] in
theorem fixed_of_valid {o : Options K} (V : ValidOptions o) : fixed o = o ∧ ¬ outOfRange o := by
  have h_enableDriftCorrection := not_lt.2 V.enableDriftCorrection
  have h_enableCholeskyRefactorisation := not_lt.2 V.enableCholeskyRefactorisation
  have h_terminationTolerance := not_le.2 V.terminationTolerance
  have h_epsIterRef := not_le.2 V.epsIterRef
  have h_epsRegularisation := not_le.2 V.epsRegularisation
  have h_boundTolerance := not_le.2 V.boundTolerance
  have h_boundRelaxation := not_le.2 V.boundRelaxation
  have h_maxPrimalJump := not_le.2 V.maxPrimalJump
  have h_maxDualJump := not_le.2 V.maxDualJump
  have h_initialRamping := not_lt.2 V.initialRamping
  have h_finalRamping := not_lt.2 V.finalRamping
  have h_initialFarBounds := not_le.2 V.initialFarBounds
  have h_growFarBounds := not_lt.2 V.growFarBounds
  have h_epsFlipping := not_le.2 V.epsFlipping
  have h_numRegularisationSteps := not_lt.2 V.numRegularisationSteps
  have h_numRefinementSteps := not_lt.2 V.numRefinementSteps
  have h_epsLITests := not_lt.2 V.epsLITests
  have h_epsNZCTests := not_lt.2 V.epsNZCTests
  constructor
  · simp only [fixed, h_enableDriftCorrection, h_enableCholeskyRefactorisation, h_terminationTolerance, h_epsIterRef, h_epsRegularisation, h_boundTolerance, h_boundRelaxation, h_maxPrimalJump, h_maxDualJump, h_initialRamping, h_finalRamping, h_initialFarBounds, h_growFarBounds, h_epsFlipping, h_numRegularisationSteps, h_numRefinementSteps, h_epsLITests, h_epsNZCTests, if_false]
  · simp only [outOfRange, h_enableDriftCorrection, h_enableCholeskyRefactorisation, h_terminationTolerance, h_epsIterRef, h_epsRegularisation, h_boundTolerance, h_boundRelaxation, h_maxPrimalJump, h_maxDualJump, h_initialRamping, h_finalRamping, h_initialFarBounds, h_growFarBounds, h_epsFlipping, h_numRegularisationSteps, h_numRefinementSteps, h_epsLITests, h_epsNZCTests, if_false, or_self, not_false_eq_true]

theorem valid_of_not_outOfRange {o : Options K} (h : ¬ outOfRange o) : ValidOptions o := by
  have e : fixed o = o := by
    simp only [outOfRange, not_or] at h
    obtain ⟨h0, h1, h2, h3, h4, h5, h6, h7, h8, h9, h10, h11, h12, h13, h14, h15, h16, h17⟩ := h
    simp only [fixed, h0, h1, h2, h3, h4, h5, h6, h7, h8, h9, h10, h11, h12, h13, h14, h15, h16, h17, if_false]
    by_cases hb : o.boundRelaxation ≤ 0
    · exact absurd hb h6
    · simp only [hb, if_false] at h11 ⊢
      simp only [h11, if_false]
  rw [← e]; exact valid_fixed o

/-- **C11.** For every assignment of values to all options, validation
* yields options in their documented ranges,
* reports `RET_OPTIONS_ADJUSTED` exactly if it changed something and otherwise success,
* changes exactly those options that are out of range (all others keep their value),
* leaves valid options alone, hence validating twice is the same as validating once;
and the options stored by `setOptions` are valid. -/
theorem C11_validation (o stored : Options K) :
    let r := ensureConsistency o
    ValidOptions r.2 ∧
    (r.1 = RET_OPTIONS_ADJUSTED ∧ r.2 ≠ o ∨ r.1 = SUCCESSFUL_RETURN ∧ r.2 = o) ∧
    (ValidOptions o ↔ r.1 = SUCCESSFUL_RETURN) ∧
    ensureConsistency r.2 = (SUCCESSFUL_RETURN, r.2) ∧
    ValidOptions (setOptions stored o) ∧ (ValidOptions o → setOptions stored o = o) ∧
    ((0 ≤ o.enableDriftCorrection → r.2.enableDriftCorrection = o.enableDriftCorrection) ∧
     (0 ≤ o.enableCholeskyRefactorisation → r.2.enableCholeskyRefactorisation = o.enableCholeskyRefactorisation) ∧
     (0 < o.terminationTolerance → r.2.terminationTolerance = o.terminationTolerance) ∧
     (0 < o.epsIterRef → r.2.epsIterRef = o.epsIterRef) ∧
     (0 < o.epsRegularisation → r.2.epsRegularisation = o.epsRegularisation) ∧
     (0 < o.boundTolerance → r.2.boundTolerance = o.boundTolerance) ∧
     (0 < o.boundRelaxation → r.2.boundRelaxation = o.boundRelaxation) ∧
     (0 < o.maxPrimalJump → r.2.maxPrimalJump = o.maxPrimalJump) ∧
     (0 < o.maxDualJump → r.2.maxDualJump = o.maxDualJump) ∧
     (0 ≤ o.initialRamping → r.2.initialRamping = o.initialRamping) ∧
     (0 ≤ o.finalRamping → r.2.finalRamping = o.finalRamping) ∧
     (r.2.boundRelaxation < o.initialFarBounds → r.2.initialFarBounds = o.initialFarBounds) ∧
     (11 / 10 ≤ o.growFarBounds → r.2.growFarBounds = o.growFarBounds) ∧
     (0 < o.epsFlipping → r.2.epsFlipping = o.epsFlipping) ∧
     (0 ≤ o.numRegularisationSteps → r.2.numRegularisationSteps = o.numRegularisationSteps) ∧
     (0 ≤ o.numRefinementSteps → r.2.numRefinementSteps = o.numRefinementSteps) ∧
     (0 ≤ o.epsLITests → r.2.epsLITests = o.epsLITests) ∧
     (0 ≤ o.epsNZCTests → r.2.epsNZCTests = o.epsNZCTests) ∧
     r.2.printLevel = o.printLevel ∧
     r.2.enableRamping = o.enableRamping ∧
     r.2.enableFarBounds = o.enableFarBounds ∧
     r.2.enableFlippingBounds = o.enableFlippingBounds ∧
     r.2.enableRegularisation = o.enableRegularisation ∧
     r.2.enableFullLITests = o.enableFullLITests ∧
     r.2.enableNZCTests = o.enableNZCTests ∧
     r.2.enableEqualities = o.enableEqualities ∧
     r.2.epsNum = o.epsNum ∧
     r.2.epsDen = o.epsDen ∧
     r.2.initialStatusBounds = o.initialStatusBounds ∧
     r.2.rcondSMin = o.rcondSMin ∧
     r.2.enableInertiaCorrection = o.enableInertiaCorrection ∧
     r.2.enableDropInfeasibles = o.enableDropInfeasibles ∧
     r.2.dropBoundPriority = o.dropBoundPriority ∧
     r.2.dropEqConPriority = o.dropEqConPriority ∧
     r.2.dropIneqConPriority = o.dropIneqConPriority) := by
  intro r
  classical
  have hr : r = _ := ensureConsistency_eq o
  have hr2 : r.2 = fixed o := by rw [hr]
  have hcopy : ∀ a b : Options K, copy a b = b := fun a b => rfl
  have hset : setOptions stored o = fixed o := by
    unfold setOptions
    rw [hcopy, ensureConsistency_eq]
  refine ⟨hr2 ▸ valid_fixed o, ?_, ?_, ?_, hset ▸ valid_fixed o, ?_, ?_⟩
  · by_cases h : outOfRange o
    · left
      refine ⟨by rw [hr]; simp [h], ?_⟩
      intro e
      rw [hr2] at e
      have V := valid_fixed o
      rw [e] at V
      exact (fixed_of_valid V).2 h
    · right
      exact ⟨by rw [hr]; simp [h], by rw [hr2]; exact (fixed_of_valid (valid_of_not_outOfRange h)).1⟩
  · constructor
    · intro V; rw [hr]; simp [(fixed_of_valid V).2]
    · intro h
      by_contra hV
      have : outOfRange o := by
        by_contra h2; exact hV (valid_of_not_outOfRange h2)
      rw [hr] at h
      simp [this] at h
  · rw [hr2, ensureConsistency_eq]
    obtain ⟨h1, h2⟩ := fixed_of_valid (valid_fixed o)
    simp [h1, h2]
  · intro V; rw [hset]; exact (fixed_of_valid V).1
  · rw [hr2]
    refine ⟨?_, ?_, ?_, ?_, ?_, ?_, ?_, ?_, ?_, ?_, ?_, ?_, ?_, ?_, ?_, ?_, ?_, ?_, rfl, rfl, rfl, rfl, rfl, rfl, rfl, rfl, rfl, rfl, rfl, rfl, rfl, rfl, rfl, rfl, rfl⟩ <;> intro h <;> simp only [fixed] at h ⊢ <;>
      first
        | exact if_neg (not_lt.2 h)
        | exact if_neg (not_le.2 h)

/-- Non-vacuity of C11: an options object with several values out of range; it is adjusted. -/
example : ¬ ValidOptions ({ (setToDefault : Options ℚ) with terminationTolerance := 0, growFarBounds := 1 }) ∧
    ValidOptions (setToDefault : Options ℚ) := by
  constructor
  · intro h; exact absurd h.terminationTolerance (lt_irrefl _)
  · constructor <;> simp only [setToDefault, EPS] <;> norm_num

/-- **C12, presets are valid**: validation leaves each preset unchanged. -/
theorem C12_presets_valid :
    ensureConsistency (setToDefault : Options K) = (SUCCESSFUL_RETURN, setToDefault) ∧
    ensureConsistency (setToReliable : Options K) = (SUCCESSFUL_RETURN, setToReliable) ∧
    ensureConsistency (setToMPC : Options K) = (SUCCESSFUL_RETURN, setToMPC) ∧
    ensureConsistency (setToFast : Options K) = (SUCCESSFUL_RETURN, setToFast) := by
  have key : ∀ o : Options K, ValidOptions o → ensureConsistency o = (SUCCESSFUL_RETURN, o) := by
    intro o V
    classical
    rw [ensureConsistency_eq, (fixed_of_valid V).1, if_neg (fixed_of_valid V).2]
  have hE : (0 : K) < EPS := EPS_pos
  have d : ValidOptions (setToDefault : Options K) := by
    constructor <;> simp only [setToDefault] <;> first | positivity | norm_num
  have rl : ValidOptions (setToReliable : Options K) := by
    constructor <;> simp only [setToReliable, setToDefault] <;> first | positivity | norm_num
  have m : ValidOptions (setToMPC : Options K) := by
    constructor <;> simp only [setToMPC, setToDefault] <;> first | positivity | norm_num
  exact ⟨key _ d, key _ rl, key _ m, key _ m⟩

end

section
variable {K : Type} [Field K]

/-- The C++ preset belonging to a mode of the C interface. -/
def presetOf (mode : Int) : Options K :=
  if mode = 0 then setToDefault else if mode = 1 then setToReliable else setToMPC

/-- The full statement of C12 for the C interface. -/
def C12_statement (K : Type) [Field K] : Prop :=
  ∀ (p : COptions K) (mode : Int), 0 ≤ mode → mode ≤ 2 →
    COptions.init (some p) mode = (0, some (toC (presetOf mode)))

/-- **C12 (violated by the code).** Mode 1 of `qpOASES_Options_init` does not yield the settings of
`setToReliable`: the switch lacks a `break`. -/
theorem C12_c_presets_violated : ¬ C12_statement K := by
  intro h
  have h1 := h COptions.defaults 1 (by omega) (by omega)
  simp only [COptions.init, presetOf] at h1
  have h2 := congrArg (fun p => p.2.map (fun o => o.enableRamping)) h1
  simp [COptions.case2, COptions.case1, toC, setToReliable, setToDefault, boolCode] at h2

/-- **C12, what holds for the C interface**: modes 0 and 2 are correct; mode 1 yields the MPC preset with
full linear independence tests and a Cholesky refactorisation in every iteration; other modes and null
pointers are rejected without effect. -/
theorem C12_c_presets_partial (p : COptions K) :
    COptions.init (some p) 0 = (0, some (toC setToDefault)) ∧
    COptions.init (some p) 2 = (0, some (toC setToMPC)) ∧
    COptions.init (some p) 1 = (0, some (toC
      { (setToMPC : Options K) with enableFullLITests := true, enableCholeskyRefactorisation := 1 })) ∧
    (∀ mode : Int, mode < 0 ∨ mode > 2 → COptions.init (some p) mode = (-1, some p)) ∧
    (∀ mode : Int, COptions.init (none : Option (COptions K)) mode = (-1, none)) := by
  refine ⟨rfl, rfl, rfl, ?_, ?_⟩
  · intro mode h
    rw [COptions.init, if_pos h]
  · intro mode
    unfold COptions.init
    split <;> rfl

/-- **C13.** Copying preserves every setting; handing options through the C interface preserves every setting
that the C struct carries (all but `rcondSMin` and `enableInertiaCorrection`, which keep the target's
values). -/
theorem C13_copy (self rhs : Options K) :
    copy self rhs = rhs ∧
    COptions.copyTo (toC rhs) self =
      { rhs with rcondSMin := self.rcondSMin, enableInertiaCorrection := self.enableInertiaCorrection } := by
  refine ⟨rfl, ?_⟩
  have hb : ∀ b, COptions.toBool (boolCode b) = b := by intro b; cases b <;> rfl
  have hp : ∀ p : PrintLevel, COptions.toPrintLevel p.code = p := by intro p; cases p <;> rfl
  have hs : ∀ s : SubjectToStatus, COptions.toStatus s.code = s := by intro s; cases s <;> rfl
  simp only [COptions.copyTo, toC, hb, hp, hs]

/-- The C interface hands over the default values for the two settings the struct does not carry, provided the
target was default-constructed. -/
theorem C13_copy_default (rhs : Options K) :
    (COptions.copyTo (toC rhs) setToDefault).rcondSMin = 1 / 10^14 ∧
    (COptions.copyTo (toC rhs) setToDefault).enableInertiaCorrection = true := ⟨rfl, rfl⟩

end
end QpOASES.Props
