import Verif.Props.C34_Solved
import Mathlib.Tactic.IntervalCases

/-!
C27: the Cholesky factor of the bound-constrained solver belongs to the current free variables.
-/
namespace QpOASES.Props
open Finset Spec QPB ReturnValue SubjectToStatus SubjectToType HessianType QProblemStatus

set_option linter.unusedSectionVars false

variable {K : Type} [Field K] [LinearOrder K] [IsStrictOrderedRing K]

/-- The upper triangle of the stored factor `R` satisfies R'R = H, restricted to the free variables in list order. -/
def FactorOfFree (s : QPB K) (H : Nat → Nat → K) : Prop :=
  ∀ r c, r ≤ c → c < s.bounds.free.length →
    ∑ q ∈ range (r + 1), s.R q r * s.R q c = H (s.bounds.free.getD r 0) (s.bounds.free.getD c 0)

/-- `s'` is reached from `s` by adding and removing bounds and by refactorising, all of them successful.  A bound is added to a free
variable, and removed from a fixed one. -/
inductive Changes (sq : K → K) (s : QPB K) : QPB K → Prop
  | refl : Changes sq s s
  | add {s' s'' : QPB K} {r : ReturnValue} (h : Changes sq s s') {i : Nat} {st : SubjectToStatus} (hi : i ∈ s'.bounds.free)
      (hst : st = ST_LOWER ∨ st = ST_UPPER) (e : addBound sq s' i st true = (r, s'')) : Changes sq s s''
  | remove {s' s'' : QPB K} (h : Changes sq s s') {i : Nat} (hi : i ∈ s'.bounds.fixed)
      (e : removeBound sq s' i true = .ok (SUCCESSFUL_RETURN, s'')) : Changes sq s s''
  | refactor {s' s'' : QPB K} (h : Changes sq s s') (e : computeCholesky sq s' = .ok (SUCCESSFUL_RETURN, s''))
      (hd : ∀ r < s''.bounds.free.length, ZERO < |s''.R r r|) : Changes sq s s''

/-- What is kept by the changes. -/
structure Kept (s0 s : QPB K) : Prop where
  ws : s.bounds.OK
  n : s.bounds.n = s.nV
  factor : s.Factor
  nV : s.nV = s0.nV
  hess : s.Heff = s0.Heff
  status : s.status = QPS_PERFORMINGHOMOTOPY
  options : s.options = s0.options
  ident : SameScalar s s0

theorem Changes.kept {sq : K → K} {s s' : QPB K} (h : Changes sq s s') (hsq : s.SqrtFor sq) (h0 : Kept s s)
    (hsym : QP.Symmetric s.nV s.Heff) (heps : ZERO * ZERO ≤ s.options.epsFlipping) : Kept s s' := by
  induction h with
  | refl => exact h0
  | @add s' s'' r h i st hi hst e ih =>
    have hsq' : s'.SqrtFor sq := ih.ident.sqrt hsq
    have hf := ih.factor.addBound hsq' ih.ws ih.status hi st
    rw [e] at hf
    rw [addBound_eq sq ih.status] at e
    cases e
    exact ⟨ih.ws.moveFreeToFixed hi hst, ih.n, hf, ih.nV, ih.hess, ih.status, ih.options, ih.ident⟩
  | @remove s' s'' h i hi e ih =>
    have hsq' : s'.SqrtFor sq := ih.ident.sqrt hsq
    obtain ⟨r, s2, e2, hr⟩ := removeBound_spec hsq' ih.factor ih.ws ih.n (by rw [ih.nV, ih.hess]; exact hsym) ih.status hi
      (by rw [ih.options]; exact heps)
    rw [e] at e2
    cases e2
    cases hr with
    | failed r s' hr => rcases hr with hr | hr <;> cases hr
    | removed s1 R hd hb hf =>
      refine ⟨?_, ?_, hf, hd.nV.trans ih.nV, ?_, hd.status.trans ih.status, hd.options.trans ih.options, hd.ident.trans ih.ident⟩
      · show (s1.bounds.moveFixedToFree i).OK
        rw [hb]; exact ih.ws.moveFixedToFree hi
      · show s1.bounds.n = s1.nV
        rw [hb, hd.nV]; exact ih.n
      · exact hd.hess.trans ih.hess
    | flipped s1 hd hb hf he =>
      refine ⟨?_, ?_, hf, hd.nV.trans ih.nV, ?_, hd.status.trans ih.status, hd.options.trans ih.options, hd.ident.trans ih.ident⟩
      · show (s1.bounds.flipFixed i).OK
        rw [hb]; exact ih.ws.flipFixed hi
      · show (s1.bounds.flipFixed i).n = s1.nV
        rw [(s1.bounds.flipFixed_fields i).1, hb, hd.nV]; exact ih.n
      · exact hd.hess.trans ih.hess
  | @refactor s' s'' h e hd ih =>
    have hsq' : s'.SqrtFor sq := ih.ident.sqrt hsq
    obtain ⟨r, s2, e2, hb, hr, _⟩ := computeCholesky_spec hsq' ih.ws ih.n (fun hs => (ih.factor.stored hs).1)
    rw [e] at e2
    cases e2
    obtain ⟨⟨R, eR⟩, h1, h2, h3⟩ := hr rfl
    have hf := h3 (Or.inr hd)
    subst eR
    exact ⟨ih.ws, ih.n, hf, ih.nV, ih.hess, ih.status, ih.options, ih.ident⟩

/-- **C27** (part): starting with a factor of the Hessian of the free variables (for example a successful factorisation), it stays
one after any sequence of added and removed bounds, provided that no pivot is below `ZERO` in the beginning and after
refactorisations.  The Hessian, of any definiteness, is not changed. -/
theorem C27_changes_partial {sq : K → K} {s s' : QPB K} (hsq : s.SqrtFor sq) (hw : s.bounds.OK) (hn : s.bounds.n = s.nV)
    (hF : s.Factor) (hst : s.status = QPS_PERFORMINGHOMOTOPY) (hsym : QP.Symmetric s.nV s.Heff)
    (heps : ZERO * ZERO ≤ s.options.epsFlipping) (h : Changes sq s s') :
    FactorOfFree s' s.Heff ∧ (∀ r < s'.bounds.free.length, s'.R r r ≠ 0) ∧ s'.Heff = s.Heff := by
  have k := h.kept hsq ⟨hw, hn, hF, rfl, rfl, hst, rfl, ⟨Iff.rfl, Iff.rfl, rfl⟩⟩ hsym heps
  obtain ⟨h1, h2⟩ := k.factor.gram k.ws k.n
  rw [k.hess] at h1
  exact ⟨h1, h2.ne_zero, k.hess⟩

/-- **C27** (part): a successful factorisation from scratch yields the factor. -/
theorem C27_factorisation {sq : K → K} {s s' : QPB K} (hsq : s.SqrtFor sq) (hw : s.bounds.OK) (hn : s.bounds.n = s.nV)
    (hH : ¬ s.scalarH → s.H ≠ none) (e : computeCholesky sq s = .ok (SUCCESSFUL_RETURN, s')) :
    FactorOfFree s' s.Heff ∧ (∀ r < s'.bounds.free.length, 0 < s'.R r r) ∧ s'.bounds = s.bounds := by
  obtain ⟨r, s2, e2, hb, hr, _⟩ := computeCholesky_spec hsq hw hn hH
  rw [e] at e2
  cases e2
  obtain ⟨⟨R, eR⟩, h1, h2, h3⟩ := hr rfl
  subst eR
  exact ⟨h1, h2, hb⟩

/-- **C27** (part): between the calls of any session of cold start and hotstarts (see C34) the factor belongs to the current
free variables. -/
theorem C27_session_partial {sq : K → K} {fuel n : Nat} {M : Nat → Nat → K} {s : QPB K} (h : Session sq fuel n M s) :
    ∃ H' : Nat → Nat → K, (∀ i < n, ∀ j < n, |H' i j - M i j| ≤ EPS) ∧ FactorOfFree s H' ∧
      (∀ r < s.bounds.free.length, s.R r r ≠ 0) := by
  have hl := h.live
  obtain ⟨h1, h2⟩ := hl.inv.factor.gram hl.inv.ws hl.inv.n
  exact ⟨s.Heff, hl.hess, h1, h2.ne_zero⟩

/-! ### the hypotheses are met -/
section
open Runs

/-- Three variables, all free, with the factor of the Hessian. -/
def facDemo : QPB ℚ := { start 3 HST_POSDEF plain with
  H := some fun i j => vec [4,2,0, 2,2,1, 0,1,10] (3 * i + j)
  R := fun i j => vec [2,1,0, 0,1,1, 0,0,3] (3 * i + j)
  bounds :=
    { n := 3
      type := fun _ => ST_BOUNDED
      status := fun _ => ST_INACTIVE
      noLower := false
      noUpper := false
      free := [0, 1, 2]
      fixed := [] }
  status := QPS_PERFORMINGHOMOTOPY }

example : facDemo.bounds.OK := by refine ⟨?_, ?_, ?_⟩ <;> decide +kernel

example : facDemo.Factor := by
  refine ⟨fun h => ?_, fun _ => ⟨fun h => (by cases h), fun r c hrc hc => ?_, fun r hr => ?_⟩⟩
  · rcases h with h | h <;> exact absurd h (by decide)
  · have hc : c < 3 := hc
    interval_cases c <;> interval_cases r <;> decide +kernel
  · have hr : r < 3 := hr
    interval_cases r <;> decide +kernel

example : QP.Symmetric facDemo.nV facDemo.Heff := by
  intro i hi j hj
  have hi : i < 3 := hi
  have hj : j < 3 := hj
  interval_cases i <;> interval_cases j <;> decide +kernel

/-- Adding a bound to the last variable and removing it again. -/
example : holds (removeBound root (addBound root facDemo 2 ST_UPPER true).2 2 true) (fun r => decide (r.1 = SUCCESSFUL_RETURN ∧
    r.2.bounds.free = [0, 1, 2] ∧ r.2.R 2 2 = 3 ∧ r.2.R 1 2 = 1)) = true := by decide +kernel

example : Changes root facDemo (addBound root facDemo 2 ST_UPPER true).2 := .add .refl (by decide +kernel) (Or.inr rfl) rfl

end

/-! ### violations -/
section
open Runs

/-- Two variables with Hessian diag(1,10⁻⁶⁰). -/
def tinyDemo : QPB ℚ := { facDemo with
  nV := 2
  H := some fun i j => if i = j then (if i = 0 then 1 else 1/10^60) else 0
  R := fun i j => if i = j then (if i = 0 then 1 else 1/10^30) else 0
  bounds :=
    { n := 2
      type := fun _ => ST_BOUNDED
      status := fun _ => ST_INACTIVE
      noLower := false
      noUpper := false
      free := [0, 1]
      fixed := [] } }

/-- Square roots for this example. -/
def tinyRoot (r : ℚ) : ℚ := if r = 1 then 1 else if r = 1/10^60 then 1/10^30 else 0

/-- **C27 violated**: rotations with numbers below `ZERO` are skipped; after adding a bound to the first variable, the stored factor
of the second is zero. -/
theorem C27_tiny_violation : ∃ s1 s2 : QPB ℚ, computeCholesky tinyRoot tinyDemo = .ok (SUCCESSFUL_RETURN, s1) ∧
    FactorOfFree s1 tinyDemo.Heff ∧ addBound tinyRoot s1 0 ST_LOWER true = (SUCCESSFUL_RETURN, s2) ∧ ¬ FactorOfFree s2 tinyDemo.Heff := by
  obtain ⟨⟨r, s1⟩, e, h⟩ := of_holds (r := computeCholesky tinyRoot tinyDemo) (p := fun r => decide (r.1 = SUCCESSFUL_RETURN ∧
    r.2.bounds.free = [0,1] ∧ r.2.R 0 0 = 1 ∧ r.2.R 0 1 = 0 ∧ r.2.R 1 1 = 1/10^30 ∧
    (addBound tinyRoot r.2 0 ST_LOWER true).1 = SUCCESSFUL_RETURN ∧ (addBound tinyRoot r.2 0 ST_LOWER true).2.bounds.free = [1] ∧
    (addBound tinyRoot r.2 0 ST_LOWER true).2.R 0 0 = 0)) (by decide +kernel)
  obtain ⟨h1, h2, h3, h4, h5, h6, h7, h8⟩ := of_decide_eq_true h
  dsimp only at h1 h2 h3 h4 h5 h6 h7 h8
  subst h1
  refine ⟨s1, (addBound tinyRoot s1 0 ST_LOWER true).2, e, ?_, Prod.ext h6 rfl, fun hf => ?_⟩
  · intro r c hrc hc
    rw [h2] at hc ⊢
    have hc : c < 2 := hc
    interval_cases c
    · interval_cases r
      rw [sum_range_one, h3]
      decide +kernel
    · interval_cases r
      · rw [sum_range_one, h3, h4]
        decide +kernel
      · rw [sum_range_succ, sum_range_one, h4, h5]
        decide +kernel
  · have := hf 0 0 (Nat.le_refl _) (by rw [h7]; decide)
    rw [h7, zero_add, sum_range_one, h8] at this
    revert this
    decide +kernel

/-- **C27 violated**: a hotstart with a guessed working set keeps the factor of the old free variables, if only few variables
change status. -/
theorem C27_guess_violation : ∃ o o', cold (start 3 HST_POSDEF plain) (some [1,0,0, 0,4,0, 0,0,9]) [1,0,0] [0,-5,-5] [10,10,10] = .ok o ∧
    o.rv = SUCCESSFUL_RETURN ∧ hot (.ok o) [1,50,-9] (some [0,-5,-5]) (some [10,10,10]) (.other guessed) = .ok o' ∧
    o'.rv = SUCCESSFUL_RETURN ∧ ¬ FactorOfFree o'.s o'.s.Heff := by
  obtain ⟨o, e, h⟩ := of_holds (r := cold (start 3 HST_POSDEF plain) (some [1,0,0, 0,4,0, 0,0,9]) [1,0,0] [0,-5,-5] [10,10,10])
    (p := fun o => decide (o.rv = SUCCESSFUL_RETURN) && holds (hot (.ok o) [1,50,-9] (some [0,-5,-5]) (some [10,10,10]) (.other guessed))
      (fun o' => decide (o'.rv = SUCCESSFUL_RETURN ∧ o'.s.bounds.free = [2] ∧ o'.s.R 0 0 * o'.s.R 0 0 ≠ o'.s.Heff 2 2))) (by decide +kernel)
  rw [Bool.and_eq_true] at h
  obtain ⟨o', e', h'⟩ := of_holds h.2
  obtain ⟨r1, h1, h2⟩ := of_decide_eq_true h'
  refine ⟨o, o', e, of_decide_eq_true h.1, e', r1, fun hf => h2 ?_⟩
  have := hf 0 0 (Nat.le_refl _) (by rw [h1]; decide)
  rw [h1, zero_add, sum_range_one] at this
  exact this

end

end QpOASES.Props
