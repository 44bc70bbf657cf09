import Verif.Model.Kkt
import Verif.Spec.Residuals
import Verif.Proofs.QPBSession
import Verif.Proofs.QPBRuns
import Verif.Props.C34_Solved
import Mathlib.Tactic.Ring
import Mathlib.Tactic.IntervalCases

/-!
C37: residuals of the optimality conditions.
-/
namespace QpOASES.Props
open Finset Spec ReturnValue SubjectToStatus SubjectToType HessianType QProblemStatus

set_option linter.unusedSectionVars false

variable {K : Type} [Field K] [LinearOrder K] [IsStrictOrderedRing K]

theorem le_raiseTo (m v : K) : m ≤ raiseTo m v := by
  unfold raiseTo; split
  · exact le_of_lt ‹_›
  · exact le_refl _

theorem raiseTo_ge (m v : K) : v ≤ raiseTo m v := by
  unfold raiseTo; split
  · exact le_refl _
  · exact not_lt.1 ‹_›

theorem raiseTo_eq (m v : K) : raiseTo m v = m ∨ raiseTo m v = v := by
  unfold raiseTo; split
  · exact Or.inr rfl
  · exact Or.inl rfl

/-- One more set of values. -/
theorem _root_.QpOASES.Spec.MaxOf.raise {S T : K → Prop} {m v : K} (h : MaxOf S m) (hT : ∀ w, T w ↔ S w ∨ w = v) : MaxOf T (raiseTo m v) := by
  refine ⟨h.1.trans (le_raiseTo _ _), fun w hw => ?_, ?_⟩
  · rcases (hT w).1 hw with hw | hw
    · exact (h.2.1 w hw).trans (le_raiseTo _ _)
    · rw [hw]; exact raiseTo_ge _ _
  · rcases raiseTo_eq m v with e | e
    · rw [e]
      rcases h.2.2 with h | h
      · exact Or.inl h
      · exact Or.inr ((hT _).2 (Or.inl h))
    · rw [e]
      exact Or.inr ((hT _).2 (Or.inr rfl))

theorem _root_.QpOASES.Spec.MaxOf.congr {S T : K → Prop} {m : K} (h : MaxOf S m) (hT : ∀ w, T w ↔ S w) : MaxOf T m :=
  ⟨h.1, fun w hw => h.2.1 w ((hT w).1 hw), h.2.2.imp id fun h => (hT _).2 h⟩

/-- Zero does not count. -/
theorem _root_.QpOASES.Spec.MaxOf.or_zero {S T : K → Prop} {m : K} (h : MaxOf S m) (hT : ∀ w, S w → T w ∨ w = 0) (hT' : ∀ w, T w → S w) : MaxOf T m := by
  refine ⟨h.1, fun w hw => h.2.1 w (hT' w hw), ?_⟩
  rcases h.2.2 with h | h
  · exact Or.inl h
  · rcases hT _ h with h | h
    · exact Or.inr h
    · exact Or.inl h

theorem maxLoop {f : Nat → K} {S : K → Prop} : ∀ (n : Nat) (m : K), MaxOf S m →
    MaxOf (fun v => S v ∨ ∃ i < n, v = f i) (loop (fun i m => raiseTo m (f i)) n m) := by
  intro n m h
  induction n with
  | zero => exact h.congr fun w => ⟨fun h => h.elim id fun ⟨_, hi, _⟩ => absurd hi (Nat.not_lt_zero _), Or.inl⟩
  | succ n ih =>
    refine ih.raise fun w => ⟨?_, ?_⟩
    · rintro (h | ⟨i, hi, e⟩)
      · exact Or.inl (Or.inl h)
      · rcases Nat.lt_succ_iff_lt_or_eq.1 hi with hi | hi
        · exact Or.inl (Or.inr ⟨i, hi, e⟩)
        · rw [← hi]; exact Or.inr e
    · rintro ((h | ⟨i, hi, e⟩) | e)
      · exact Or.inl h
      · exact Or.inr ⟨i, by omega, e⟩
      · exact Or.inr ⟨n, by omega, e⟩

theorem feasLoop {lo up : Option (Nat → K)} {a : Nat → K} {S : K → Prop} : ∀ (n : Nat) (m : K), MaxOf S m →
    MaxOf (fun v => S v ∨ LimitRes n lo up a v) (loop (fun i m => kktFeas lo up (a i) i m) n m) := by
  intro n m h
  induction n with
  | zero => exact h.congr fun w => ⟨fun h => h.elim id fun ⟨_, hi, _⟩ => absurd hi (Nat.not_lt_zero _), Or.inl⟩
  | succ n ih =>
    have key : ∀ w, (S w ∨ LimitRes (n+1) lo up a w) ↔
        ((S w ∨ LimitRes n lo up a w) ∨ (∃ l, lo = some l ∧ w = l n - a n)) ∨ (∃ u, up = some u ∧ w = a n - u n) := by
      intro w
      constructor
      · rintro (h | ⟨i, hi, e⟩)
        · exact Or.inl (Or.inl (Or.inl h))
        · rcases Nat.lt_succ_iff_lt_or_eq.1 hi with hi | hi
          · exact Or.inl (Or.inl (Or.inr ⟨i, hi, e⟩))
          · subst hi
            rcases e with e | e
            · exact Or.inl (Or.inr e)
            · exact Or.inr e
      · rintro (((h | ⟨i, hi, e⟩) | e) | e)
        · exact Or.inl h
        · exact Or.inr ⟨i, by omega, e⟩
        · exact Or.inr ⟨n, by omega, Or.inl e⟩
        · exact Or.inr ⟨n, by omega, Or.inr e⟩
    refine MaxOf.congr ?_ key
    show MaxOf _ (kktFeas lo up (a n) n _)
    unfold kktFeas
    dsimp only
    have step : ∀ {S : K → Prop} {m : K} (o : Option (Nat → K)) (f : (Nat → K) → K), MaxOf S m →
        MaxOf (fun w => S w ∨ ∃ l, o = some l ∧ w = f l) (match o with | some l => raiseTo m (f l) | none => m) := by
      intro S m o f h
      cases o with
      | none => exact h.congr fun w => ⟨fun h => h.elim id fun ⟨_, e, _⟩ => (by cases e), Or.inl⟩
      | some l =>
        refine h.raise fun w => ⟨fun h => h.imp id fun ⟨_, e, e'⟩ => (by cases e; exact e'), fun h => h.imp id fun e => ⟨l, rfl, e⟩⟩
    exact step up (fun u => a n - u n) (step lo (fun l => l n - a n) ih)

theorem tol_pos : (0 : K) < dualActiveTolerance := mul_pos (by norm_num) EPS_pos'

theorem prodLoop {lo up : Option (Nat → K)} {a y : Nat → K} {S : K → Prop} (n : Nat) (m : K) (h : MaxOf S m) :
    MaxOf (fun v => S v ∨ ProductRes n lo up dualActiveTolerance a y v)
      (loop (fun i m => raiseTo m (getAbs (kktProd lo up none (a i) (y i) i))) n m) := by
  have ht : (0 : K) < dualActiveTolerance := tol_pos
  refine (maxLoop (f := fun i => getAbs (kktProd lo up none (a i) (y i) i)) n m h).or_zero ?_ ?_
  · rintro w (h | ⟨i, hi, e⟩)
    · exact Or.inl (Or.inl h)
    · by_cases h0 : w = 0
      · exact Or.inr h0
      · left; right
        refine ⟨i, hi, ?_⟩
        unfold kktProd getAbs at e
        cases lo with
        | none =>
          cases up with
          | none => exact absurd (by simpa using e) h0
          | some u =>
            dsimp only at e
            split at e
            · exact Or.inr ⟨u, rfl, ‹_›, e⟩
            · exact absurd (by simpa using e) h0
        | some l =>
          cases up with
          | none =>
            dsimp only at e
            split at e
            · exact Or.inl ⟨l, rfl, ‹_›, e⟩
            · exact absurd (by simpa using e) h0
          | some u =>
            dsimp only at e
            split at e
            · exact Or.inr ⟨u, rfl, ‹_›, e⟩
            · split at e
              · exact Or.inl ⟨l, rfl, ‹_›, e⟩
              · exact absurd (by simpa using e) h0
  · rintro w (h | ⟨i, hi, ⟨l, rfl, h1, e⟩ | ⟨u, rfl, h1, e⟩⟩)
    · exact Or.inl h
    · refine Or.inr ⟨i, hi, ?_⟩
      rw [e]
      unfold kktProd getAbs
      cases up with
      | none => dsimp only; rw [if_pos h1]
      | some u => dsimp only; rw [if_neg (by linarith), if_pos h1]
    · refine Or.inr ⟨i, hi, ?_⟩
      rw [e]
      unfold kktProd getAbs
      cases lo <;> (dsimp only; rw [if_pos h1])

/-- The matrix stored in an array by rows. -/
def ofRows (n : Nat) (H : Nat → K) (i j : Nat) : K := H (i * n + j)

/-- The Hessian meant by the arguments. -/
def hessianArg (n : Nat) (H : Option (Nat → K)) (ident : Bool) : Nat → Nat → K :=
  match H with
  | some H => ofRows n H
  | none => fun i j => if ident = true ∧ i = j then 1 else 0

/-- A missing constraint matrix is zero. -/
def matrixArg (n : Nat) (A : Option (Nat → K)) : Nat → Nat → K :=
  match A with
  | some A => ofRows n A
  | none => fun _ _ => 0

theorem loop_add (f : Nat → K) (n : Nat) (s : K) : loop (fun j s => s + f j) n s = s + ∑ j ∈ range n, f j := by
  induction n with
  | zero => simp [loop]
  | succ n ih => rw [sum_range_succ, ← add_assoc, ← ih]; rfl

theorem loop_sub (f : Nat → K) (n : Nat) (s : K) : loop (fun j s => s - f j) n s = s - ∑ j ∈ range n, f j := by
  induction n with
  | zero => simp [loop]
  | succ n ih => rw [sum_range_succ, ← sub_sub, ← ih]; rfl

theorem kktSum_eq (nV nC : Nat) (H g A : Option (Nat → K)) (x y : Nat → K) (ident : Bool) {i : Nat} (hi : i < nV) :
    kktSum nV nC H g A x y ident i = QP.row nV (hessianArg nV H ident) x i + g.getD (fun _ => 0) i -
      (y i + ∑ k ∈ range nC, matrixArg nV A k i * y (nV + k)) := by
  have e1 : (match H with
      | some H => loop (fun j s => s + H (i*nV+j) * x j) nV (g.getD (fun _ => 0) i - y i)
      | none => if ident then (g.getD (fun _ => 0) i - y i) + x i else g.getD (fun _ => 0) i - y i) =
      g.getD (fun _ => 0) i - y i + QP.row nV (hessianArg nV H ident) x i := by
    cases H with
    | some H => exact loop_add _ _ _
    | none =>
      unfold QP.row hessianArg
      cases ident with
      | true =>
        simp only [true_and, ite_mul, one_mul, zero_mul]
        rw [sum_ite_eq, if_pos (mem_range.2 hi)]
        simp
      | false => simp
  have e2 : kktSum nV nC H g A x y ident i = match A with
      | some A => loop (fun j s => s - A (j*nV+i) * y (nV+j)) nC (g.getD (fun _ => 0) i - y i + QP.row nV (hessianArg nV H ident) x i)
      | none => g.getD (fun _ => 0) i - y i + QP.row nV (hessianArg nV H ident) x i := by
    rw [← e1]
    unfold kktSum
    cases g <;> cases H <;> cases A <;> rfl
  rw [e2]
  cases A with
  | none =>
    unfold matrixArg
    simp
    ring
  | some A =>
    dsimp only
    rw [loop_sub]
    unfold matrixArg ofRows
    ring

theorem kktRow_eq (nV : Nat) (A : Option (Nat → K)) (x : Nat → K) (i : Nat) : kktRow nV A x i = QP.row nV (matrixArg nV A) x i := by
  unfold kktRow QP.row
  cases A with
  | none => unfold matrixArg; simp
  | some A => dsimp only; rw [loop_add, zero_add]; rfl

theorem _root_.QpOASES.Spec.MaxOf.zero : MaxOf (fun _ : K => False) 0 := ⟨le_refl _, fun _ h => h.elim, Or.inl rfl⟩

/-- **C37** (part): without a working set, the three numbers reported are the largest residual of the stationarity condition, the
largest violation of a limit, and the largest product of a multiplier (not counting those in `[-tol,tol]`) and the distance to the
limit it belongs to.  Missing matrices and gradients are zero (or the identity). -/
theorem C37_residuals_partial (nV nC : Nat) (H g A lb ub lbA ubA : Option (Nat → K)) (x y : Nat → K) (ident : Bool) :
    MaxOf (StatRes nV nC (hessianArg nV H ident) (g.getD fun _ => 0) (matrixArg nV A) x y)
      (getKktViolation nV nC H g A lb ub lbA ubA x y none none ident).stat ∧
    MaxOf (fun v => LimitRes nV lb ub x v ∨ LimitRes nC lbA ubA (QP.row nV (matrixArg nV A) x) v)
      (getKktViolation nV nC H g A lb ub lbA ubA x y none none ident).feas ∧
    MaxOf (fun v => ProductRes nV lb ub dualActiveTolerance x y v ∨
        ProductRes nC lbA ubA dualActiveTolerance (QP.row nV (matrixArg nV A) x) (fun k => y (nV + k)) v)
      (getKktViolation nV nC H g A lb ub lbA ubA x y none none ident).cmpl := by
  have er : kktRow nV A x = QP.row nV (matrixArg nV A) x := funext fun i => kktRow_eq nV A x i
  refine ⟨?_, ?_, ?_⟩
  · refine (maxLoop (f := fun i => getAbs (kktSum nV nC H g A x y ident i)) nV 0 MaxOf.zero).congr fun w => ?_
    unfold StatRes
    constructor
    · rintro ⟨i, hi, e⟩
      exact Or.inr ⟨i, hi, by rw [e, kktSum_eq _ _ _ _ _ _ _ _ hi]; rfl⟩
    · rintro (h | ⟨i, hi, e⟩)
      · exact h.elim
      · exact ⟨i, hi, by rw [e, kktSum_eq _ _ _ _ _ _ _ _ hi]; rfl⟩
  · have h1 := feasLoop (lo := lb) (up := ub) (a := x) nV 0 MaxOf.zero
    have h2 := feasLoop (lo := lbA) (up := ubA) (a := kktRow nV A x) nC _ h1
    rw [er] at h2
    unfold getKktViolation
    dsimp only
    rw [er]
    exact h2.congr fun w => by simp
  · have h1 := prodLoop (lo := lb) (up := ub) (a := x) (y := y) nV 0 MaxOf.zero
    have h2 := prodLoop (lo := lbA) (up := ubA) (a := kktRow nV A x) (y := fun k => y (nV + k)) nC _ h1
    rw [er] at h2
    unfold getKktViolation
    dsimp only
    rw [er]
    exact h2.congr fun w => by simp

theorem _root_.QpOASES.Spec.MaxOf.le_zero {S : K → Prop} {m v : K} (h : MaxOf S m) (h0 : m = 0) (hv : S v) : v ≤ 0 := h0 ▸ h.2.1 v hv

/-- **C37**: if all limits are given, all three numbers are zero if and only if the pair satisfies the optimality conditions, where
multipliers in `[-tol,tol]` count as zero. -/
theorem C37_zero_partial (P : QP K) (H g A : Nat → K) (hH : P.H = ofRows P.nV H) (hg : P.g = g) (hA : P.A = ofRows P.nV A) (x y : Nat → K) :
    (let r := getKktViolation P.nV P.nC (some H) (some g) (some A) (some P.lb) (some P.ub) (some P.lbA) (some P.ubA) x y none none false
     r.stat = 0 ∧ r.feas = 0 ∧ r.cmpl = 0) ↔ KKTUpTo P dualActiveTolerance x y := by
  obtain ⟨h1, h2, h3⟩ := C37_residuals_partial P.nV P.nC (some H) (some g) (some A) (some P.lb) (some P.ub) (some P.lbA) (some P.ubA) x y false
  have e1 : hessianArg P.nV (some H) false = P.H := hH.symm
  have e2 : matrixArg P.nV (some A) = P.A := hA.symm
  have e3 : (some g).getD (fun _ => 0) = P.g := hg.symm
  rw [e1, e2, e3] at h1
  rw [e2] at h2 h3
  have ht : (0 : K) < dualActiveTolerance := tol_pos
  dsimp only
  generalize getKktViolation P.nV P.nC (some H) (some g) (some A) (some P.lb) (some P.ub) (some P.lbA) (some P.ubA) x y none none false = r at *
  have prod0 : ∀ a b : K, |a * b| ≤ 0 → b ≠ 0 → a = 0 := fun a b h hb =>
    (mul_eq_zero.1 (abs_eq_zero.1 (le_antisymm h (abs_nonneg _)))).resolve_right hb
  constructor
  · rintro ⟨z1, z2, z3⟩
    refine ⟨⟨fun i hi => ?_, fun i hi => ?_, fun k hk => ?_, fun k hk => ?_⟩, fun i hi => ?_, fun i hi hp => ?_, fun i hi hp => ?_,
      fun k hk hp => ?_, fun k hk hp => ?_⟩
    · have := h2.le_zero z2 (Or.inl ⟨i, hi, Or.inl ⟨P.lb, rfl, rfl⟩⟩); linarith
    · have := h2.le_zero z2 (Or.inl ⟨i, hi, Or.inr ⟨P.ub, rfl, rfl⟩⟩); linarith
    · have := h2.le_zero z2 (Or.inr ⟨k, hk, Or.inl ⟨P.lbA, rfl, rfl⟩⟩); linarith
    · have := h2.le_zero z2 (Or.inr ⟨k, hk, Or.inr ⟨P.ubA, rfl, rfl⟩⟩); linarith
    · have := h1.le_zero z1 ⟨i, hi, rfl⟩
      exact sub_eq_zero.1 (abs_eq_zero.1 (le_antisymm this (abs_nonneg _)))
    · exact sub_eq_zero.1 (prod0 _ _ (h3.le_zero z3 (Or.inl ⟨i, hi, Or.inl ⟨P.lb, rfl, hp, rfl⟩⟩)) (by linarith))
    · exact sub_eq_zero.1 (prod0 _ _ (h3.le_zero z3 (Or.inl ⟨i, hi, Or.inr ⟨P.ub, rfl, hp, rfl⟩⟩)) (by linarith))
    · exact sub_eq_zero.1 (prod0 _ _ (h3.le_zero z3 (Or.inr ⟨k, hk, Or.inl ⟨P.lbA, rfl, hp, rfl⟩⟩)) (by dsimp only; linarith))
    · exact sub_eq_zero.1 (prod0 _ _ (h3.le_zero z3 (Or.inr ⟨k, hk, Or.inr ⟨P.ubA, rfl, hp, rfl⟩⟩)) (by dsimp only; linarith))
  · intro k
    refine ⟨?_, ?_, ?_⟩
    · rcases h1.2.2 with h | ⟨i, hi, e⟩
      · exact h
      · rw [e, k.stat i hi, sub_self, abs_zero]
    · refine le_antisymm ?_ h2.1
      rcases h2.2.2 with h | ⟨i, hi, ⟨l, el, e⟩ | ⟨u, eu, e⟩⟩ | ⟨i, hi, ⟨l, el, e⟩ | ⟨u, eu, e⟩⟩
      · exact h.le
      · cases el; have := k.lower i hi; linarith
      · cases eu; have := k.upper i hi; linarith
      · cases el; have := k.lowerA i hi; linarith
      · cases eu; have := k.upperA i hi; linarith
    · rcases h3.2.2 with h | ⟨i, hi, ⟨l, el, hp, e⟩ | ⟨u, eu, hp, e⟩⟩ | ⟨i, hi, ⟨l, el, hp, e⟩ | ⟨u, eu, hp, e⟩⟩
      · exact h
      · cases el; rw [e, k.pos i hi hp, sub_self, zero_mul, abs_zero]
      · cases eu; rw [e, k.neg i hi hp, sub_self, zero_mul, abs_zero]
      · cases el; rw [e, k.posA i hi hp, sub_self, zero_mul, abs_zero]
      · cases eu; rw [e, k.negA i hi hp, sub_self, zero_mul, abs_zero]

/-- The hypotheses are met by a QP with two variables and one constraint; the pair is optimal and the multiplier of the
constraint is positive. -/
example : ∃ (P : QP ℚ) (H g A : Nat → ℚ) (x y : Nat → ℚ), P.H = ofRows P.nV H ∧ P.g = g ∧ P.A = ofRows P.nV A ∧ P.nV = 2 ∧ P.nC = 1 ∧
    0 < y 2 ∧ getKktViolation P.nV P.nC (some H) (some g) (some A) (some P.lb) (some P.ub) (some P.lbA) (some P.ubA) x y none none false =
      ⟨0, 0, 0⟩ := by
  let H := Runs.vec [1, 0, 0, 1]
  let g := Runs.vec [0, 0]
  let A := Runs.vec [1, 1]
  refine ⟨{ nV := 2, nC := 1, H := ofRows 2 H, g := g, lb := fun _ => -10, ub := fun _ => 10, A := ofRows 2 A, lbA := fun _ => 2, ubA := fun _ => 9 },
    H, g, A, Runs.vec [1, 1], Runs.vec [0, 0, 1], rfl, rfl, rfl, rfl, rfl, ?_, ?_⟩ <;> decide +kernel

/-- The residuals of another point. -/
example : getKktViolation 2 1 (some (Runs.vec [1, 0, 0, 1])) (some (Runs.vec [0, 0])) (some (Runs.vec [1, 1])) (some fun _ => 0) (some fun _ => 10)
    (some fun _ => 2) (some fun _ => (9 : ℚ)) (Runs.vec [-1, 2]) (Runs.vec [0, 0, 3]) none none false = ⟨4, 1, 3⟩ := by decide +kernel

/-! ### violations -/

/-- **C37 is violated** for missing limits: a positive multiplier of a variable without lower limit is not reported.  For
minimising `x` without limits, the pair (0,1) is reported to have no residuals, although there is no minimiser. -/
theorem C37_missing_violated : getKktViolation 1 0 none (some fun _ => (1 : ℚ)) none none none none none (fun _ => 0) (fun _ => 1) none none false = ⟨0, 0, 0⟩ ∧
    ∀ x : ℚ, ∃ z : ℚ, 1 * z < 1 * x := by
  refine ⟨by decide +kernel, fun x => ⟨x - 1, by linarith⟩⟩

/-- **C37 is violated** if a working set is given: the sign of the multiplier is not checked.  For minimising ½x²-x over [0,5],
the pair (0,-1) with the lower limit in the working set is reported to have no residuals, although the minimiser is 1. -/
theorem C37_sign_violated :
    getKktViolation 1 0 (some fun _ => 1) (some fun _ => -1) none (some fun _ => 0) (some fun _ => (5 : ℚ)) none none (fun _ => 0) (fun _ => -1)
      (some fun _ => -1) none false = ⟨0, 0, 0⟩ ∧
    ¬ KKTUpTo (QP.box 1 (fun _ _ => 1) (fun _ => -1) (fun _ => 0) (fun _ => (5 : ℚ))) dualActiveTolerance (fun _ => 0) (fun _ => -1) := by
  refine ⟨by decide +kernel, fun h => ?_⟩
  have := h.neg 0 (by decide) (by decide +kernel)
  exact absurd this (by decide +kernel)

/-- **C37 is violated** if a working set is given: multipliers outside the working set are not reported.  For minimising ½x²-x
over [0,5], the pair (0,-1) with an empty working set is reported to have no residuals. -/
theorem C37_outside_violated :
    getKktViolation 1 0 (some fun _ => 1) (some fun _ => -1) none (some fun _ => 0) (some fun _ => (5 : ℚ)) none none (fun _ => 0) (fun _ => -1)
      (some fun _ => 0) none false = ⟨0, 0, 0⟩ := by decide +kernel

/-! ### analysis of a solved QP -/

theorem loop_id {f : Nat → K → K} {m : K} : ∀ (n : Nat), (∀ i < n, f i m = m) → loop f n m = m := by
  intro n h
  induction n with
  | zero => rfl
  | succ n ih =>
    show f n (loop f n m) = m
    rw [ih fun i hi => h i (by omega)]
    exact h n (by omega)

/-- **C37**: for an object that satisfies the invariant of the solver and is not regularised, all residuals reported by the solution
analysis are zero, provided some lower and some upper limit is finite. -/
theorem C37_solved {s : QPB K} (h : s.Inv) (hr : s.usingRegularisation = false) (hl : s.bounds.noLower = false) (hu : s.bounds.noUpper = false) :
    s.kktViolation = .ok (0, ⟨0, 0, 0⟩) := by
  have hO := h.opt
  have W := hO.within h.ws h.n
  have raise0 : raiseTo (0 : K) (getAbs 0) = 0 := by unfold raiseTo getAbs; simp
  have key : ∀ (H : Option (Nat → K)), (∀ i < s.nV, ∀ j < s.nV, hessianArg s.nV H (decide (s.hessianType = HST_IDENTITY)) i j = s.Heff i j) →
      getKktViolation s.nV 0 H (some s.g) none (some s.lb) (some s.ub) none none s.x s.y (s.getWorkingSetBounds (some fun _ => 0)).2 none
        (decide (s.hessianType = HST_IDENTITY)) = ⟨0, 0, 0⟩ := by
    intro H hH
    unfold getKktViolation
    dsimp only
    congr 1
    · refine loop_id _ fun i hi => ?_
      rw [kktSum_eq _ _ _ _ _ _ _ _ hi]
      have : QP.row s.nV (hessianArg s.nV H (decide (s.hessianType = HST_IDENTITY))) s.x i = ∑ j ∈ range s.nV, s.Heff i j * s.x j :=
        sum_congr rfl fun j hj => by rw [hH i hi j (mem_range.1 hj)]
      rw [this]
      have e : (some s.g).getD (fun _ => 0) i = s.g i := rfl
      rw [e, hO.stat i hi]
      have : s.y i - (s.y i + ∑ k ∈ range 0, matrixArg s.nV (none : Option (Nat → K)) k i * s.y (s.nV + k)) = 0 := by simp
      rw [this, raise0]
    · show loop _ s.nV 0 = 0
      refine loop_id _ fun i hi => ?_
      have h1 := W.1 hl i hi
      have h2 := W.2 hu i hi
      unfold kktFeas raiseTo
      dsimp only
      have n1 : ¬ s.lb i - s.x i > 0 := by linarith
      rw [if_neg n1]
      have n2 : ¬ s.x i - s.ub i > 0 := by linarith
      rw [if_neg n2]
    · show loop _ s.nV 0 = 0
      refine loop_id _ fun i hi => ?_
      have hp : kktProd (some s.lb) (some s.ub) (s.getWorkingSetBounds (some fun _ => 0)).2 (s.x i) (s.y i) i = 0 := by
        have hg : s.bounds.getStatus i = s.bounds.status i := WS.getStatus_of_lt (by rw [h.n]; exact hi)
        have z0 : (0 : K) < ZERO := ZERO_pos
        have z1 : (ZERO : K) < 1 := QPB.ZERO_lt_one
        have step : ∀ c : K, (if i < s.nV then (match s.bounds.getStatus i with | ST_LOWER => -1 | ST_UPPER => 1 | _ => 0) else 0) = c →
            (|c - 1| ≤ ZERO → s.x i = s.ub i) → (¬ |c - 1| ≤ ZERO → |c - -1| ≤ ZERO → s.x i = s.lb i) →
            kktProd (some s.lb) (some s.ub) (s.getWorkingSetBounds (some fun _ => 0)).2 (s.x i) (s.y i) i = 0 := by
          intro c e h1 h2
          have : kktProd (some s.lb) (some s.ub) (s.getWorkingSetBounds (some fun _ => 0)).2 (s.x i) (s.y i) i =
              if isEqual c 1 then (s.x i - s.ub i) * s.y i else if isEqual c (-1) then (s.x i - s.lb i) * s.y i else 0 := by
            rw [← e]; rfl
          rw [this]
          by_cases c1 : |c - 1| ≤ ZERO
          · rw [if_pos (isEqual_iff.2 c1), h1 c1, sub_self, zero_mul]
          · rw [if_neg fun h => c1 (isEqual_iff.1 h)]
            by_cases c2 : |c - -1| ≤ ZERO
            · rw [if_pos (isEqual_iff.2 c2), h2 c1 c2, sub_self, zero_mul]
            · rw [if_neg fun h => c2 (isEqual_iff.1 h)]
        by_cases c1 : s.bounds.status i = ST_LOWER
        · refine step (-1) (by rw [if_pos hi, hg, c1]) (fun h => ?_) (fun _ _ => (hO.lower i hi c1).1)
          exfalso
          have : |(-1 : K) - 1| = 2 := by norm_num
          rw [this] at h
          linarith
        · by_cases c2 : s.bounds.status i = ST_UPPER
          · exact step 1 (by rw [if_pos hi, hg, c2]) (fun _ => (hO.upper i hi c2).1) (fun h => absurd (by simpa using z0.le) h)
          · refine step 0 (by rw [if_pos hi, hg]; split <;> simp_all) (fun h => ?_) (fun _ h => ?_) <;> exfalso
            · have : |(0 : K) - 1| = 1 := by norm_num
              rw [this] at h
              linarith
            · have : |(0 : K) - -1| = 1 := by norm_num
              rw [this] at h
              linarith
      rw [hp, raise0]
  have fin : ∀ r : Kkt K, r = ⟨0, 0, 0⟩ → (Res.ok (getMax (getMax (getMax 0 r.stat) r.feas) r.cmpl, r) : Res (K × Kkt K)) = .ok (0, ⟨0, 0, 0⟩) := by
    rintro r rfl
    unfold getMax
    simp
  unfold QPB.kktViolation
  by_cases hz : s.hessianType = HST_ZERO
  · rw [show s.kktHessian = .ok none by unfold QPB.kktHessian; rw [hz], Res.bind_ok]
    refine fin _ (key none fun i _ j _ => ?_)
    rw [QPB.Heff_scalar (Or.inl hz)]
    unfold QPB.scal hessianArg
    rw [if_pos hz, hr]
    simp [hz]
  by_cases hi : s.hessianType = HST_IDENTITY
  · rw [show s.kktHessian = .ok none by unfold QPB.kktHessian; rw [hi], Res.bind_ok]
    refine fin _ (key none fun i _ j _ => ?_)
    rw [QPB.Heff_scalar (Or.inr hi)]
    unfold QPB.scal hessianArg
    rw [if_neg hz]
    simp [hi]
  have hs : ¬ s.scalarH := fun h => h.elim hz hi
  obtain ⟨H, eH⟩ := Option.ne_none_iff_exists'.1 (h.factor.stored hs).1
  have hg : s.getH = .ok H := by unfold QPB.getH; rw [eH]
  have fin2 : ∀ q : Nat → K, (∀ i < s.nV, ∀ j < s.nV, q (i * s.nV + j) = H i j) →
      getKktViolation s.nV 0 (some q) (some s.g) none (some s.lb) (some s.ub) none none s.x s.y (s.getWorkingSetBounds (some fun _ => 0)).2 none
        (decide (s.hessianType = HST_IDENTITY)) = ⟨0, 0, 0⟩ :=
    fun q hq => key (some q) fun i h1 j h2 => (hq i h1 j h2).trans (QPB.Heff_of_H hs eH i j).symm
  have hq : ∀ i < s.nV, ∀ j < s.nV, (if s.usingRegularisation = true ∧ (i * s.nV + j) / s.nV = (i * s.nV + j) % s.nV then
      H ((i * s.nV + j) / s.nV) ((i * s.nV + j) % s.nV) - s.regVal else H ((i * s.nV + j) / s.nV) ((i * s.nV + j) % s.nV)) = H i j := by
    intro i h1 j h2
    have e1 : (i * s.nV + j) / s.nV = i := by
      rw [Nat.add_comm, Nat.add_mul_div_right _ _ (by omega), Nat.div_eq_of_lt h2, Nat.zero_add]
    have e2 : (i * s.nV + j) % s.nV = j := by rw [Nat.add_comm, Nat.add_mul_mod_self_right, Nat.mod_eq_of_lt h2]
    rw [if_neg (by rw [hr]; simp), e1, e2]
  have eK : s.kktHessian = .ok (some fun q => if s.usingRegularisation = true ∧ q / s.nV = q % s.nV then H (q / s.nV) (q % s.nV) - s.regVal
      else H (q / s.nV) (q % s.nV)) := by
    unfold QPB.kktHessian
    rw [hg]
    split <;> first | exact absurd ‹_› hz | exact absurd ‹_› hi | rfl
  rw [eK, Res.bind_ok]
  exact fin _ (fin2 _ hq)

/-- The hypotheses are met after the run of C34. -/
example : ∃ o, run1 = .ok o ∧ o.s.Inv ∧ o.s.usingRegularisation = false ∧ o.s.bounds.noLower = false ∧ o.s.bounds.noUpper = false := by
  obtain ⟨o1, e1, hs⟩ := run1_session
  obtain ⟨o, e, h⟩ := Runs.of_holds (r := run1) (p := fun o => decide (o.s.bounds.noLower = false ∧ o.s.bounds.noUpper = false)) (by decide +kernel)
  rw [e1] at e
  cases e
  exact ⟨o1, e1, hs.live.inv, hs.live.reg, of_decide_eq_true h⟩

end QpOASES.Props
