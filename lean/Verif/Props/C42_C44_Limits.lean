import Verif.Proofs.QPBFar
import Verif.Proofs.QPBRuns
import Verif.Spec.Options
import Verif.Props.C38_C41_Protocol
import Mathlib.Algebra.Order.Archimedean.Basic

/-!
C42: far bounds; C44: the limit on CPU time (bound-constrained solver).
-/
namespace QpOASES.Props
open Spec QPB ReturnValue SubjectToStatus SubjectToType HessianType QProblemStatus

set_option linter.unusedSectionVars false

variable {K : Type} [Field K] [LinearOrder K] [IsStrictOrderedRing K]

/-! ### C42 -/

/-- `far` is a far bound used by `hotstart`: the first one, multiplied by the growth factor any number of times. -/
def FarBound (s : QPB K) (lbNew ubNew : Option (Nat → K)) (far : K) : Prop :=
  ∃ k : Nat, far = s.initialFar lbNew ubNew * s.options.growFarBounds ^ k

/-- The lower limit of variable `i` is given and finite. -/
def HasLower (lbNew : Option (Nat → K)) (i : Nat) (a : K) : Prop := ∃ l, lbNew = some l ∧ l i = a ∧ -INFTY < a
def HasUpper (ubNew : Option (Nat → K)) (i : Nat) (a : K) : Prop := ∃ u, ubNew = some u ∧ u i = a ∧ a < INFTY

/-- The largest ramping factor. -/
def maxRamp (s : QPB K) : K := if s.options.enableRamping = true then 1 + max s.ramp0 s.ramp1 else 1

theorem FarFactor.range {s : QPB K} {f : K} (h : FarFactor s f) (h0 : 0 ≤ s.ramp0) (h1 : 0 ≤ s.ramp1) : 1 ≤ f ∧ f ≤ maxRamp s := by
  unfold FarFactor at h
  unfold maxRamp
  split at h
  · rename_i hr
    rw [if_pos hr]
    obtain ⟨t, t0, t1, rfl⟩ := h
    have a := mul_nonneg (sub_nonneg.2 t1) h0
    have b := mul_nonneg t0 h1
    have c := mul_le_mul_of_nonneg_left (le_max_left s.ramp0 s.ramp1) (sub_nonneg.2 t1)
    have d := mul_le_mul_of_nonneg_left (le_max_right s.ramp0 s.ramp1) t0
    exact ⟨by linarith, by nlinarith⟩
  · rename_i hr
    rw [if_neg hr, h]
    exact ⟨le_refl _, le_refl _⟩

theorem FarBound.initial_le {s : QPB K} {lbNew ubNew : Option (Nat → K)} {far : K} (h : FarBound s lbNew ubNew far)
    (hi : 0 < s.options.initialFarBounds) (hg : 1 ≤ s.options.growFarBounds) : s.initialFar lbNew ubNew ≤ far := by
  obtain ⟨k, rfl⟩ := h
  have h0 := lt_of_lt_of_le hi (initialFar_spec s lbNew ubNew).1
  exact le_mul_of_one_le_right h0.le (one_le_pow₀ hg)

/-- C42, the limits passed to the homotopy in place of the user's limits, in every round: they are never wider than the
user's, finite limits are kept as they are, absent and infinite ones are replaced by the far bound (up to the ramping factor).
Nothing is assumed about the order of the limits. -/
theorem C42_limits {s : QPB K} {lbNew ubNew : Option (Nat → K)} {far : K} {lf0 uf0 lf uf : Nat → K} (hv : ValidOptions s.options)
    (h0 : 0 ≤ s.ramp0) (h1 : 0 ≤ s.ramp1) (hn : s.options.enableRamping = true → 2 ≤ s.nV) (hf : FarBound s lbNew ubNew far)
    (h : updateFarBounds s far s.nV lbNew ubNew s.nV 0 lf0 uf0 = .ok (lf, uf)) :
    (∀ l, lbNew = some l → ∀ i < s.nV, l i ≤ lf i) ∧ (∀ u, ubNew = some u → ∀ i < s.nV, uf i ≤ u i) ∧
    (∀ i < s.nV, ∀ a, HasLower lbNew i a → lf i = a) ∧ (∀ i < s.nV, ∀ a, HasUpper ubNew i a → uf i = a) ∧
    (far * maxRamp s < INFTY → ∀ i < s.nV, (∀ a, ¬ HasLower lbNew i a) → -(far * maxRamp s) ≤ lf i ∧ lf i ≤ -far) ∧
    (far * maxRamp s < INFTY → ∀ i < s.nV, (∀ a, ¬ HasUpper ubNew i a) → far ≤ uf i ∧ uf i ≤ far * maxRamp s) := by
  have hi : 0 < s.options.initialFarBounds := hv.boundRelaxation.trans hv.initialFarBounds
  have hg : 1 ≤ s.options.growFarBounds := le_trans (by norm_num) hv.growFarBounds
  obtain ⟨i1, i2, i3, -⟩ := initialFar_spec s lbNew ubNew
  have hfar := hf.initial_le hi hg
  have hpos : 0 < far := lt_of_lt_of_le (lt_of_lt_of_le hi i1) hfar
  obtain ⟨lf', uf', e, -, S⟩ := updateFarBounds_spec s far hn lbNew ubNew s.nV 0 lf0 uf0
  rw [e] at h
  cases h
  have S : ∀ j < s.nV, ∃ v, far ≤ v ∧ v ≤ far * maxRamp s ∧ lf j = farLower v lbNew j ∧ uf j = farUpper v ubNew j := by
    intro j hj
    obtain ⟨f, F, a, b⟩ := S j (by omega) (by omega)
    obtain ⟨f1, f2⟩ := FarFactor.range F h0 h1
    exact ⟨far * f, le_mul_of_one_le_right hpos.le f1, mul_le_mul_of_nonneg_left f2 hpos.le, a, b⟩
  refine ⟨fun l hl i hi => ?_, fun u hu i hi => ?_, fun i hi a ha => ?_, fun i hi a ha => ?_, fun hr i hi ha => ?_, fun hr i hi ha => ?_⟩
  · obtain ⟨v, _, _, e, _⟩ := S i hi
    subst hl
    rw [e]
    exact le_max_right _ _
  · obtain ⟨v, _, _, _, e⟩ := S i hi
    subst hu
    rw [e]
    exact min_le_right _ _
  · obtain ⟨v, v1, _, e, _⟩ := S i hi
    obtain ⟨l, rfl, rfl, hl⟩ := ha
    have := i3 l rfl i hi hl
    rw [e]
    exact max_eq_right (by linarith)
  · obtain ⟨v, v1, _, _, e⟩ := S i hi
    obtain ⟨u, rfl, rfl, hu⟩ := ha
    have := i2 u rfl i hi hu
    rw [e]
    exact min_eq_right (by linarith)
  · obtain ⟨v, v1, v2, e, _⟩ := S i hi
    rw [e]
    cases lbNew with
    | none => exact ⟨neg_le_neg v2, neg_le_neg v1⟩
    | some l =>
      have : l i ≤ -INFTY := not_lt.1 fun h => ha (l i) ⟨l, rfl, rfl, h⟩
      have e : farLower v (some l) i = -v := max_eq_left (by linarith)
      rw [e]
      exact ⟨neg_le_neg v2, neg_le_neg v1⟩
  · obtain ⟨v, v1, v2, _, e⟩ := S i hi
    rw [e]
    cases ubNew with
    | none => exact ⟨v1, v2⟩
    | some u =>
      have : INFTY ≤ u i := not_lt.1 fun h => ha (u i) ⟨u, rfl, rfl, h⟩
      have e : farUpper v (some u) i = v := min_eq_left (by linarith)
      rw [e]
      exact ⟨v1, v2⟩

/-- C42, without ramping: the first far bound is finite. -/
theorem C42_finite_partial {s : QPB K} {lbNew ubNew : Option (Nat → K)} (hr : s.options.enableRamping = false)
    (hi : s.options.initialFarBounds < INFTY) : s.initialFar lbNew ubNew * maxRamp s < INFTY := by
  unfold maxRamp
  rw [if_neg (by rw [hr]; decide), mul_one]
  exact (initialFar_spec s lbNew ubNew).2.2.2 hi

/-- C42: the loop enlarging the far bounds ends, whatever the state of the object and the arguments: there is a number of
rounds, depending on the options only, that is never exceeded by `hotstart` or `init`. -/
theorem C42_terminates [Archimedean K] (o : Options K) (hv : ValidOptions o) : ∃ N : Nat, ∀ (sq : K → K) (rounds : Nat), N ≤ rounds →
    ∀ s : QPB K, s.options.initialFarBounds = o.initialFarBounds → s.options.growFarBounds = o.growFarBounds →
    ∀ (nWSR : Int), 0 ≤ nWSR → ∀ c : Option K,
      (∀ gNew lbNew ubNew guess, hotstart sq rounds s gNew lbNew ubNew nWSR c guess ≠ .ub .diverge) ∧
      (∀ H g lb ub xOpt yOpt guess R, init sq rounds s H g lb ub nWSR c xOpt yOpt guess R ≠ .ub .diverge) := by
  have h0 : 0 < o.initialFarBounds := hv.boundRelaxation.trans hv.initialFarBounds
  have hg : 1 < o.growFarBounds := lt_of_lt_of_le (by norm_num) hv.growFarBounds
  obtain ⟨N, hN⟩ := pow_unbounded_of_one_lt (INFTY / o.initialFarBounds) hg
  refine ⟨N + 1, fun sq rounds hr s hs1 hs2 nWSR hb c => ?_⟩
  have hI : INFTY ≤ s.options.initialFarBounds * s.options.growFarBounds ^ rounds := by
    rw [hs1, hs2, ← div_le_iff₀' h0]
    exact hN.le.trans (pow_le_pow_right₀ hg.le (by omega))
  have hz : rounds ≠ 0 := by omega
  exact ⟨fun gNew lbNew ubNew guess => hotstart_noDiv sq rounds s gNew lbNew ubNew nWSR c guess hb (by rw [hs1]; exact h0) (by rw [hs2]; exact hg.le) hI hz,
    fun H g lb ub xOpt yOpt guess R => init_noDiv sq rounds s H g lb ub nWSR c xOpt yOpt guess R hb (by rw [hs1]; exact h0) (by rw [hs2]; exact hg.le) hI hz⟩

/-- The default options, which have far bounds and ramping enabled, are valid; with the growth factor 10³ the first far
bound 10⁶ is below infinity. -/
example : ValidOptions (Options.setToDefault : Options ℚ) ∧ (Options.setToDefault : Options ℚ).enableFarBounds = true ∧
    (Options.setToDefault : Options ℚ).initialFarBounds < INFTY := by
  refine ⟨?_, by decide +kernel, by decide +kernel⟩
  constructor <;> decide +kernel

/-- C42 fails, 1: the far limit of a variable can be infinite although the far bound is finite.  Default options, one
variable with the upper limit 9·10¹⁹ < 10²⁰ and one without limits. -/
theorem C42_infinite_violated :
    (Runs.start 2 HST_IDENTITY Options.setToDefault).initialFar (some (Runs.vec [-INFTY, 0])) (some (Runs.vec [INFTY, 90000000000000000000])) < INFTY ∧
    ∃ lf uf, updateFarBounds (Runs.start 2 HST_IDENTITY Options.setToDefault)
      ((Runs.start 2 HST_IDENTITY Options.setToDefault).initialFar (some (Runs.vec [-INFTY, 0])) (some (Runs.vec [INFTY, 90000000000000000000])))
      2 (some (Runs.vec [-INFTY, 0])) (some (Runs.vec [INFTY, 90000000000000000000])) 2 0 (fun _ => 0) (fun _ => 0) = .ok (lf, uf) ∧
      uf 0 = INFTY ∧ lf 0 < -90000000000000000000 := by
  refine ⟨by decide +kernel, ?_⟩
  obtain ⟨lf, uf, e, -⟩ := updateFarBounds_spec (Runs.start 2 HST_IDENTITY Options.setToDefault)
    ((Runs.start 2 HST_IDENTITY Options.setToDefault).initialFar (some (Runs.vec [-INFTY, 0])) (some (Runs.vec [INFTY, 90000000000000000000])))
    (n := 2) (fun _ => le_refl _) (some (Runs.vec [-INFTY, 0])) (some (Runs.vec [INFTY, 90000000000000000000])) 2 0 (fun _ => 0) (fun _ => 0)
  have key : ∀ r : Res ((Nat → ℚ) × (Nat → ℚ)), r = .ok (lf, uf) →
      (match r with | .ok p => decide (p.2 0 = INFTY ∧ p.1 0 < -90000000000000000000) | .ub _ => false) = true →
      uf 0 = INFTY ∧ lf 0 < -90000000000000000000 := by
    rintro _ rfl h
    simpa using h
  exact ⟨lf, uf, e, key _ e (by decide +kernel)⟩

/-- A cold start and a hot start with the limits on the number of rounds and recalculations used below. -/
def Runs.farCold (o : Options ℚ) (g l u : List ℚ) : Res (Out ℚ) :=
  QPB.init Runs.root 40 (Runs.start 2 HST_IDENTITY o) none (some (Runs.vec g)) (some (Runs.vec l)) (some (Runs.vec u)) 100 none none none none none
def Runs.farHot (r : Res (Out ℚ)) (g l u : List ℚ) : Res (Out ℚ) := do
  let o ← r
  QPB.hotstart Runs.root 40 o.s (Runs.vec g) (some (Runs.vec l)) (some (Runs.vec u)) 100 none .null

/-- The default options without drift correction. -/
def Runs.noDrift : Options ℚ := { (Options.setToDefault : Options ℚ) with enableDriftCorrection := 0 }

/-- C42 fails, 2: the far limits can cross the user's limits.  Only limits that exceed the far bound in the direction away
from zero are considered when the far bound is chosen (src/QProblemB.cpp:489-494): with the upper limit -3·10⁶ and no lower
limit, the lower far limit lies above the upper limit.  In this hot start success is reported for a point that violates
the upper limit by 10⁶. -/
theorem C42_crossing_violated :
    Runs.holds (Runs.farHot (Runs.farCold Runs.noDrift [2000000, 0] [-1500000, 0] [0, 1]) [2000000, 0] [-INFTY, 0] [-3000000, 1])
      (fun o => o.rv = SUCCESSFUL_RETURN ∧ o.s.status = QPS_SOLVED ∧ o.s.x 0 = -2000000) = true := by
  decide +kernel

/-! ### C44 -/

/-- Predicted time after one more iteration: `j` iterations have taken the time from reading `k` to reading `k + j` of the
clock, and the next one is expected to take 5/4 of their average. -/
def predicted (clk : Nat → K) (k j : Nat) : K := (clk (k + j) - clk k) + (clk (k + j) - clk k) / (j : K) * (5/4)

/-- C44, `hotstart` without far bounds, regularisation and guess: let `k` be the number of the reading of the clock at the
start.  If the problem is solved, all predictions were within the limit.  If the maximum is said to be reached and `n`
recalculations are reported, then either `n` is the maximum given, or there is a limit, the prediction after `n ≥ 1`
iterations exceeds it, and all earlier predictions were within it.  In particular the first iteration is always made, and
without limit the solver stops only when the maximum is reached. -/
theorem C44_hotstart_partial {sq : K → K} {fuel : Nat} {s : QPB K} {gNew : Nat → K} {lbNew ubNew : Option (Nat → K)} {nWSR : Int}
    {c : Option K} {o : Out K} (hn : s.nV ≠ 0) (hb : 0 ≤ nWSR) (hu : ¬ NotInitialised s) (hc : Ordered s.nV lbNew ubNew)
    (hC : s.haveCholesky = true) (hfar : s.options.enableFarBounds = false) (hreg : s.usingRegularisation = false)
    (h : hotstart sq fuel s gNew lbNew ubNew nWSR c .null = .ok o) :
    (o.rv = SUCCESSFUL_RETURN → ∃ n : Nat, o.nWSR = n ∧ ∀ t, c = some t → ∀ i, 1 ≤ i → i ≤ n → predicted s.clk s.now i ≤ t) ∧
    (o.rv = RET_MAX_NWSR_REACHED → ∃ n : Nat, o.nWSR = n ∧ (∀ t, c = some t → ∀ i, 1 ≤ i → i < n → predicted s.clk s.now i ≤ t) ∧
      (o.nWSR = nWSR ∨ (1 ≤ n ∧ ∃ t, c = some t ∧ t < predicted s.clk s.now n))) := by
  have hl : ∃ (s1 : QPB K) (t : K), s1.infeasible = false ∧ s1.unbounded = false ∧ s1.clk = s.clk ∧ (c.isSome = true → s1.now = s.now + 1) ∧
      (c.isSome = true → t = s.clk s.now) ∧ solveLoop sq gNew lbNew ubNew nWSR 0 c t (nWSR - 0).toNat 0 s1 = .ok o := by
    unfold hotstart at h
    rw [if_neg hn] at h
    dsimp only at h
    unfold hotstartMain at h
    rw [if_neg (by rw [hc.consistent]; decide)] at h
    dsimp only at h
    rw [if_neg (show ¬ s.haveCholesky = false by rw [hC]; decide)] at h
    simp only [Res.bind_ok, ne_eq, not_true_eq_false, if_false] at h
    rw [if_pos hfar] at h
    unfold solveRegularisedQP at h
    rw [if_pos (by exact hreg)] at h
    unfold solveQP at h
    rw [if_neg (by exact hu)] at h
    dsimp only at h
    cases c with
    | none =>
      refine ⟨_, _, ?_, ?_, ?_, fun h => (by cases h), fun h => (by cases h), h⟩ <;> rfl
    | some c =>
      refine ⟨_, _, ?_, ?_, ?_, ?_, ?_, h⟩ <;> first | rfl | exact fun _ => rfl
  obtain ⟨s1, t, a1, a2, a3, a4, a5, e⟩ := hl
  have T := solveLoop_timed sq gNew lbNew ubNew nWSR 0 c s.clk s.now t a5 (nWSR - 0).toNat 0 s1 o a1 a2 (by omega) a3
        (fun h => by rw [a4 h]; rfl) (by simpa using e)
  refine ⟨fun h => ?_, fun h => ?_⟩
  · obtain ⟨n, e, T⟩ := T.1 h
    refine ⟨n, by omega, fun t ht i h1 h2 => ?_⟩
    by_cases hi : i = n
    · subst hi
      exact T.last rfl h1 t ht
    · exact T.passed i h1 (by omega) (by omega) t ht
  · obtain ⟨n, e, T, S⟩ := T.2 h
    refine ⟨n, by omega, fun t ht i h1 h2 => T i h1 (by omega) h2 t ht, ?_⟩
    rcases S with S | ⟨S, S'⟩
    · exact Or.inl S
    · refine Or.inr ⟨S, ?_⟩
      unfold InTime at S'
      rw [not_forall] at S'
      obtain ⟨t, S'⟩ := S'
      rw [Classical.not_imp, not_le] at S'
      exact ⟨t, S'.1, S'.2⟩

/-- The same problem with different limits, on a clock that advances by one per reading: the third hot start is stopped by the
limit, the last by the budget. -/
def Runs.timed (clk : Nat → ℚ) (o : Options ℚ) (n : Int) (t : Option ℚ) (g l u : List ℚ) : Res (Out ℚ) :=
  QPB.init Runs.root 20 ((QPB.new 2 HST_IDENTITY clk).setOptions o) none (some (Runs.vec g)) (some (Runs.vec l)) (some (Runs.vec u)) n t
    none none none none

def Runs.timedHot (r : Res (Out ℚ)) (n : Int) (t : Option ℚ) (g l u : List ℚ) : Res (Out ℚ) := do
  let o ← r
  QPB.hotstart Runs.root 20 o.s (Runs.vec g) (some (Runs.vec l)) (some (Runs.vec u)) n t .null

def Runs.seconds (n : Nat) : ℚ := n
def Runs.squares (n : Nat) : ℚ := n * n

example :
    let r := Runs.timed Runs.seconds Runs.plain 10 none [5, 7] [0, 0] [1, 1]
    Runs.holds r (fun o => o.rv = SUCCESSFUL_RETURN ∧ o.s.status = QPS_SOLVED ∧ o.s.haveCholesky = true ∧ o.s.options.enableFarBounds = false ∧
      o.s.usingRegularisation = false) = true ∧
    Runs.holds (Runs.timedHot r 10 (some 9) [-5, -7] [0, 0] [1, 1]) (fun o => o.rv = SUCCESSFUL_RETURN ∧ o.nWSR = 4) = true ∧
    Runs.holds (Runs.timedHot r 10 (some 4) [-5, -7] [0, 0] [1, 1]) (fun o => o.rv = RET_MAX_NWSR_REACHED ∧ o.nWSR = 3) = true ∧
    Runs.holds (Runs.timedHot r 10 (some 0) [-5, -7] [0, 0] [1, 1]) (fun o => o.rv = RET_MAX_NWSR_REACHED ∧ o.nWSR = 1) = true ∧
    Runs.holds (Runs.timedHot r 2 (some 9) [-5, -7] [0, 0] [1, 1]) (fun o => o.rv = RET_MAX_NWSR_REACHED ∧ o.nWSR = 2) = true := by
  refine ⟨?_, ?_, ?_, ?_, ?_⟩ <;> decide +kernel

/-- C44 fails with far bounds, that is with default options: although no limit is given, the time used by one round of the
far bound loop becomes the limit for the next one (`cputime_remaining`, src/QProblemB.cpp:500-520).  The same call with
the same data succeeds or claims that the maximum of 10 recalculations is reached (after 5), depending on the clock. -/
theorem C44_far_violated :
    Runs.holds (Runs.timed Runs.seconds Options.setToDefault 10 none [-5000000, -5000000] [-INFTY, -INFTY] [INFTY, INFTY])
      (fun o => o.rv = SUCCESSFUL_RETURN ∧ o.nWSR = 6) = true ∧
    Runs.holds (Runs.timed Runs.squares Options.setToDefault 10 none [-5000000, -5000000] [-INFTY, -INFTY] [INFTY, INFTY])
      (fun o => o.rv = RET_MAX_NWSR_REACHED ∧ o.nWSR = 5) = true := by
  refine ⟨?_, ?_⟩ <;> decide +kernel

end QpOASES.Props
