import Verif.Proofs.QPCFarLoop
import Verif.Proofs.QPCRuns
import Verif.Props.C42_C44_Limits

/-!
C42: far bounds (solver for general constraints).
-/
namespace QpOASES.Props.General
open Spec QpOASES.QPC QpOASES.Runs QpOASES.Props.Runs ReturnValue SubjectToStatus SubjectToType HessianType QProblemStatus

set_option linter.unusedSectionVars false

variable {K : Type} [Field K] [LinearOrder K] [IsStrictOrderedRing K]

/-- `far` is a far bound used by `hotstart`: the first one, multiplied by the growth factor any number of times. -/
def FarBound (s : QPC K) (lbNew ubNew lbANew ubANew : Option (Nat → K)) (far : K) : Prop :=
  ∃ k : Nat, far = s.initialFar lbNew ubNew lbANew ubANew * s.options.growFarBounds ^ k

/-- The limits `lf`, `uf` of `n` variables or constraints replace the user's limits `lo`, `up` for the far bound `far`, enlarged
by at most the factor `r`: they are never wider than the user's, finite limits are kept as they are, absent and infinite ones
are replaced by the far bound. -/
structure Replaces (n : Nat) (far r : K) (lo up : Option (Nat → K)) (lf uf : Nat → K) : Prop where
  lower_within : ∀ l, lo = some l → ∀ i < n, l i ≤ lf i
  upper_within : ∀ u, up = some u → ∀ i < n, uf i ≤ u i
  lower_kept : ∀ i < n, ∀ a, HasLower lo i a → lf i = a
  upper_kept : ∀ i < n, ∀ a, HasUpper up i a → uf i = a
  lower_far : far * r < INFTY → ∀ i < n, (∀ a, ¬ HasLower lo i a) → -(far * r) ≤ lf i ∧ lf i ≤ -far
  upper_far : far * r < INFTY → ∀ i < n, (∀ a, ¬ HasUpper up i a) → far ≤ uf i ∧ uf i ≤ far * r

theorem replaces {n : Nat} {far r : K} {lo up : Option (Nat → K)} {lf uf : Nat → K}
    (i2 : ∀ u, up = some u → ∀ i < n, u i < INFTY → u i ≤ far) (i3 : ∀ l, lo = some l → ∀ i < n, -INFTY < l i → -(l i) ≤ far)
    (S : ∀ j < n, ∃ v, far ≤ v ∧ v ≤ far * r ∧ lf j = QPB.farLower v lo j ∧ uf j = QPB.farUpper v up j) : Replaces n far r lo up lf uf := by
  refine ⟨fun l hl i hi => ?_, fun u hu i hi => ?_, fun i hi a ha => ?_, fun i hi a ha => ?_, fun hr i hi ha => ?_, fun hr i hi ha => ?_⟩
  · obtain ⟨v, _, _, e, _⟩ := S i hi
    subst hl
    rw [e]
    exact le_max_right _ _
  · obtain ⟨v, _, _, _, e⟩ := S i hi
    subst hu
    rw [e]
    exact min_le_right _ _
  · obtain ⟨v, v1, _, e, _⟩ := S i hi
    obtain ⟨l, rfl, rfl, hl⟩ := ha
    have := i3 l rfl i hi hl
    rw [e]
    exact max_eq_right (by linarith)
  · obtain ⟨v, v1, _, _, e⟩ := S i hi
    obtain ⟨u, rfl, rfl, hu⟩ := ha
    have := i2 u rfl i hi hu
    rw [e]
    exact min_eq_right (by linarith)
  · obtain ⟨v, v1, v2, e, _⟩ := S i hi
    rw [e]
    cases lo with
    | none => exact ⟨neg_le_neg v2, neg_le_neg v1⟩
    | some l =>
      have : l i ≤ -INFTY := not_lt.1 fun h => ha (l i) ⟨l, rfl, rfl, h⟩
      have e : QPB.farLower v (some l) i = -v := max_eq_left (by linarith)
      rw [e]
      exact ⟨neg_le_neg v2, neg_le_neg v1⟩
  · obtain ⟨v, v1, v2, _, e⟩ := S i hi
    rw [e]
    cases up with
    | none => exact ⟨v1, v2⟩
    | some u =>
      have : INFTY ≤ u i := not_lt.1 fun h => ha (u i) ⟨u, rfl, rfl, h⟩
      have e : QPB.farUpper v (some u) i = v := min_eq_left (by linarith)
      rw [e]
      exact ⟨v1, v2⟩

/-- C42, the limits passed to the homotopy in place of the user's limits, in every round, for bounds and constraints.  Nothing
is assumed about the order of the limits. -/
theorem C42_limits {s : QPC K} {lbNew ubNew lbANew ubANew : Option (Nat → K)} {far : K} {f0 f : Far K} (hv : ValidOptions s.options)
    (h0 : 0 ≤ s.ramp0) (h1 : 0 ≤ s.ramp1) (hn : s.options.enableRamping = true → 2 ≤ s.nV + s.nC)
    (hf : FarBound s lbNew ubNew lbANew ubANew far) (h : updateFarBounds s far lbNew ubNew lbANew ubANew f0 = .ok f) :
    Replaces s.nV far (maxRamp s.toQPB) lbNew ubNew f.lb f.ub ∧ Replaces s.nC far (maxRamp s.toQPB) lbANew ubANew f.lbA f.ubA := by
  have hi : 0 < s.options.initialFarBounds := hv.boundRelaxation.trans hv.initialFarBounds
  have hg : 1 ≤ s.options.growFarBounds := le_trans (by norm_num) hv.growFarBounds
  obtain ⟨i1, i2, i3, -⟩ := QPB.initialFar_spec s.toQPB lbNew ubNew
  obtain ⟨j1, j2, j3, -⟩ := QPC.initialFar_spec s lbNew ubNew lbANew ubANew
  have hfar : s.initialFar lbNew ubNew lbANew ubANew ≤ far := by
    obtain ⟨k, rfl⟩ := hf
    exact le_mul_of_one_le_right (hi.le.trans (i1.trans j1)) (one_le_pow₀ hg)
  have hpos : 0 < far := lt_of_lt_of_le (lt_of_lt_of_le hi (i1.trans j1)) hfar
  unfold updateFarBounds at h
  obtain ⟨lf, uf, e, -, S⟩ := QPB.updateFarBounds_spec s.toQPB far hn lbNew ubNew s.nV 0 f0.lb f0.ub
  obtain ⟨lfA, ufA, eA, -, SA⟩ := farC_spec s far hn lbANew ubANew s.nC 0 f0.lbA f0.ubA
  rw [e, Res.bind_ok] at h
  dsimp only at h
  rw [eA, Res.bind_ok] at h
  cases h
  constructor
  · refine replaces (fun u hu i hi hf => (i2 u hu i hi hf).trans (j1.trans hfar)) (fun l hl i hi hf => ?_) (fun j hj => ?_)
    · have := i3 l hl i hi hf
      have := j1.trans hfar
      linarith
    · obtain ⟨f, F, a, b⟩ := S j (by omega) (by omega)
      obtain ⟨f1, f2⟩ := FarFactor.range F h0 h1
      exact ⟨far * f, le_mul_of_one_le_right hpos.le f1, mul_le_mul_of_nonneg_left f2 hpos.le, a, b⟩
  · refine replaces (fun u hu i hi hf => (j2 u hu i hi hf).trans hfar) (fun l hl i hi hf => (j3 l hl i hi hf).trans hfar) (fun j hj => ?_)
    obtain ⟨f, F, a, b⟩ := SA j (by omega) (by omega)
    obtain ⟨f1, f2⟩ := FarFactor.range F h0 h1
    exact ⟨far * f, le_mul_of_one_le_right hpos.le f1, mul_le_mul_of_nonneg_left f2 hpos.le, a, b⟩

/-- C42, without ramping: the first far bound is finite. -/
theorem C42_finite_partial {s : QPC K} {lbNew ubNew lbANew ubANew : Option (Nat → K)} (hr : s.options.enableRamping = false)
    (hi : s.options.initialFarBounds < INFTY) : s.initialFar lbNew ubNew lbANew ubANew * maxRamp s.toQPB < INFTY := by
  unfold maxRamp
  rw [if_neg (by rw [hr]; decide), mul_one]
  exact (QPC.initialFar_spec s lbNew ubNew lbANew ubANew).2.2.2 hi

/-- C42: the loop enlarging the far bounds ends, whatever the state of the object and the arguments: there is a number of
rounds, depending on the options only, that is never exceeded by `hotstart` or `init`. -/
theorem C42_terminates [Archimedean K] (o : Options K) (hv : ValidOptions o) : ∃ N : Nat, ∀ (sq : K → K) (rounds : Nat), N ≤ rounds →
    ∀ s : QPC K, s.options.initialFarBounds = o.initialFarBounds → s.options.growFarBounds = o.growFarBounds →
    ∀ (nWSR : Int), 0 ≤ nWSR → ∀ c : Option K,
      (∀ gNew lbNew ubNew lbANew ubANew gB gC, hotstart sq rounds s gNew lbNew ubNew lbANew ubANew nWSR c gB gC ≠ .ub .diverge) ∧
      (∀ H g A lb ub lbA ubA xOpt yOpt gB gC R, init sq rounds s H g A lb ub lbA ubA nWSR c xOpt yOpt gB gC R ≠ .ub .diverge) := by
  have h0 : 0 < o.initialFarBounds := hv.boundRelaxation.trans hv.initialFarBounds
  have hg : 1 < o.growFarBounds := lt_of_lt_of_le (by norm_num) hv.growFarBounds
  obtain ⟨N, hN⟩ := pow_unbounded_of_one_lt (INFTY / o.initialFarBounds) hg
  refine ⟨N + 1, fun sq rounds hr s hs1 hs2 nWSR hb c => ?_⟩
  have hI : INFTY ≤ s.options.initialFarBounds * s.options.growFarBounds ^ rounds := by
    rw [hs1, hs2, ← div_le_iff₀' h0]
    exact hN.le.trans (pow_le_pow_right₀ hg.le (by omega))
  have hz : rounds ≠ 0 := by omega
  exact ⟨fun gNew lbNew ubNew lbANew ubANew gB gC => QPC.hotstart_noDiv sq rounds s gNew lbNew ubNew lbANew ubANew nWSR c gB gC hb
      (by rw [hs1]; exact h0) (by rw [hs2]; exact hg.le) hI hz,
    fun H g A lb ub lbA ubA xOpt yOpt gB gC R => QPC.init_noDiv sq rounds s H g A lb ub lbA ubA nWSR c xOpt yOpt gB gC R hb
      (by rw [hs1]; exact h0) (by rw [hs2]; exact hg.le) hI hz⟩

/-- C42_limits for a new object with the default options, two variables and one constraint: the far bound 10⁶ is raised to the
finite limit 5·10⁶ of the constraint; the variable without lower limit gets one between the far bound and twice that. -/
example : (startC 2 1 HST_IDENTITY (Options.setToDefault : Options ℚ)).initialFar (some (vec [-INFTY, 0])) (some (vec [1, 1])) none (some (vec [5000000])) = 5000000 ∧
    (match updateFarBounds (startC 2 1 HST_IDENTITY (Options.setToDefault : Options ℚ)) 5000000 (some (vec [-INFTY, 0])) (some (vec [1, 1])) none (some (vec [5000000]))
        ⟨fun _ => 0, fun _ => 0, fun _ => 0, fun _ => 0⟩ with
      | .ok f => decide (-10000000 ≤ f.lb 0 ∧ f.lb 0 ≤ -5000000 ∧ f.ub 0 = 1 ∧ f.lb 1 = 0 ∧ f.lbA 0 ≤ -5000000 ∧ f.ubA 0 = 5000000)
      | .ub _ => false) = true := by
  decide +kernel

end QpOASES.Props.General
