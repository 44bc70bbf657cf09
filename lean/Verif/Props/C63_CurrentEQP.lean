import Verif.Proofs.QPCEqp
import Verif.Proofs.QPCFrame

/-!
C63: `solveCurrentEQP` solves the equality-constrained QP of the working set.
-/
namespace QpOASES.Props
open Finset Spec ReturnValue SubjectToStatus SubjectToType HessianType QProblemStatus
open QpOASES.QPC

set_option linter.unusedSectionVars false

variable {K : Type} [Field K] [LinearOrder K] [IsStrictOrderedRing K]

/-- The limit at which a working set holds its member `i` -/
def activeLimit (w : WS) (lo up : Nat → K) (i : Nat) : K := if w.getStatus i = ST_LOWER then lo i else up i

/-- `x` and the multipliers `y` (variables first) solve the QP with Hessian `H` in which every variable and constraint of the working set of `s`
is held at its limit, and `x` is a minimiser of it. -/
structure SolvesEQP (s : QPC K) (n m : Nat) (H A : Nat → Nat → K) (g lb ub lbA ubA x y : Nat → K) : Prop where
  kkt : EqualityKKT n m H A (fun i => s.bounds.getStatus i ≠ ST_INACTIVE) (fun k => s.cons.getStatus k ≠ ST_INACTIVE) g
    (activeLimit s.bounds lb ub) (activeLimit s.cons lbA ubA) x y fun k => y (n + k)
  minimal : ∀ x', Satisfies n m A (fun i => s.bounds.getStatus i ≠ ST_INACTIVE) (fun k => s.cons.getStatus k ≠ ST_INACTIVE)
    (activeLimit s.bounds lb ub) (activeLimit s.cons lbA ubA) x' → objective n H g x ≤ objective n H g x'

theorem eqpWriteX_spec {s : QPC K} (hs : s.Shape) (d : Dir K) (off : Nat) (x : Nat → K) :
    (∀ i < s.nV, s.eqpWriteX d off x (off + i) = s.dirX d i) ∧ ∀ q, (∀ i < s.nV, q ≠ off + i) → s.eqpWriteX d off x q = x q := by
  have hw := hs.okB
  have w1 := loop_store (p := fun j => off + s.fx j) (v := d.xFX) (n := s.nFX) x (fun i hi j hj e => hw.fx_inj hi hj (show s.bounds.fx i = s.bounds.fx j from by
    have : s.fx i = s.fx j := by omega
    exact this))
  have w2 := loop_store (p := fun j => off + s.fr j) (v := d.xFR) (n := s.nFR) (loop (fun j x => updA x (off + s.fx j) (d.xFX j)) s.nFX x)
    (fun i hi j hj e => hw.fr_inj hi hj (show s.bounds.fr i = s.bounds.fr j from by
    have : s.fr i = s.fr j := by omega
    exact this))
  refine ⟨fun i hi => ?_, fun q hq => ?_⟩
  · rcases hs.casesB hi with ⟨_, k, hk, rfl⟩ | ⟨hB, k, hk, rfl⟩
    · rw [dirX_fr hw d hk]
      exact w2.1 k hk
    · rw [dirX_fx hw d hk]
      refine (w2.2 _ fun j hj e => ?_).trans (w1.1 k hk)
      have : s.fx k = s.fr j := by omega
      rw [this] at hB
      exact (hs.fr_spec hj).2 hB
  · exact (w2.2 q fun j hj => hq _ (hs.fr_spec hj).1).trans (w1.2 q fun j hj => hq _ (hs.fx_spec hj).1)

theorem eqpWriteY_spec {s : QPC K} (hs : s.Shape) (d : Dir K) (off : Nat) (y : Nat → K) (h0 : ∀ q < s.nV + s.nC, y (off + q) = 0) :
    (∀ i < s.nV, s.eqpWriteY d off y (off + i) = s.dirY d i) ∧ (∀ k < s.nC, s.eqpWriteY d off y (off + (s.nV + k)) = s.dirYC d k) ∧
    ∀ q, (∀ i < s.nV + s.nC, q ≠ off + i) → s.eqpWriteY d off y q = y q := by
  have w1 := loop_store (p := fun j => off + s.fx j) (v := d.yFX) (n := s.nFX) y (fun i hi j hj e => hs.okB.fx_inj hi hj (show s.bounds.fx i = s.bounds.fx j from by
    have : s.fx i = s.fx j := by omega
    exact this))
  have w2 := loop_store (p := fun j => off + (s.nV + s.ac j)) (v := d.yAC) (n := s.nAC) (loop (fun j y => updA y (off + s.fx j) (d.yFX j)) s.nFX y)
    (fun i hi j hj e => hs.okC.fx_inj hi hj (show s.cons.fx i = s.cons.fx j from by
    have : s.ac i = s.ac j := by omega
    exact this))
  refine ⟨fun i hi => ?_, fun k hk => ?_, fun q hq => ?_⟩
  · refine (w2.2 _ fun j hj e => by omega).trans ?_
    rcases hs.casesB hi with ⟨hB, k, hk, rfl⟩ | ⟨_, k, hk, rfl⟩
    · refine (w1.2 _ fun j hj e => ?_).trans ((h0 _ (by omega)).trans (hs.okB.scatter_fr (fun _ => (0 : K)) d.yFX hk).symm)
      have : s.fr k = s.fx j := by omega
      rw [this] at hB
      exact hB (hs.fx_spec hj).2
    · exact (w1.1 k hk).trans (hs.okB.scatter_fx _ _ hk).symm
  · rcases hs.casesC hk with ⟨hC, j, hj, rfl⟩ | ⟨_, j, hj, rfl⟩
    · refine (w2.2 _ fun l hl e => ?_).trans ((w1.2 _ fun l hl e => ?_).trans ((h0 _ (by omega)).trans (hs.okC.scatter_fr (fun _ => (0 : K)) d.yAC hj).symm))
      · have : s.iac j = s.ac l := by omega
        rw [this] at hC
        exact hC (hs.ac_spec hl).2
      · have := (hs.fx_spec hl).1
        omega
    · exact (w2.1 j hj).trans (hs.okC.scatter_fx _ _ hj).symm
  · refine (w2.2 q fun j hj => hq _ ?_).trans (w1.2 q fun j hj => hq _ ?_)
    · have := (hs.ac_spec hj).1
      omega
    · have := (hs.fx_spec hj).1
      omega

/-- The blocks written by the loop -/
theorem eqpLoop_spec {s : QPC K} (hs : s.Shape) {junk : Nat → Dir K} {g lb ub lbA ubA : Nat → K} : ∀ (m ii : Nat) (r : ReturnValue) (x y : Nat → K)
    {r' : ReturnValue} {x' y' : Nat → K}, s.eqpLoop junk g lb ub lbA ubA m ii r x y = .ok (r', x', y') →
    (∀ q, ii * (s.nV + s.nC) ≤ q → q < (ii + m) * (s.nV + s.nC) → y q = 0) →
    (∀ q, q < ii * s.nV → x' q = x q) ∧ (∀ q, q < ii * (s.nV + s.nC) → y' q = y q) ∧ (m = 0 → r' = r) ∧
    ∀ k, ii ≤ k → k < ii + m → ∃ rk d, s.eqpSolve (junk k) (fun i => g (k * s.nV + i)) (fun i => lb (k * s.nV + i)) (fun i => ub (k * s.nV + i))
        (fun i => lbA (k * s.nC + i)) (fun i => ubA (k * s.nC + i)) = .ok (rk, d) ∧ (k + 1 = ii + m → r' = rk) ∧
      (∀ i < s.nV, x' (k * s.nV + i) = s.dirX d i) ∧ (∀ i < s.nV, y' (k * (s.nV + s.nC) + i) = s.dirY d i) ∧
      ∀ j < s.nC, y' (k * (s.nV + s.nC) + (s.nV + j)) = s.dirYC d j := by
  intro m
  induction m with
  | zero =>
    intro ii r x y r' x' y' h _
    unfold eqpLoop at h
    cases h
    exact ⟨fun _ _ => rfl, fun _ _ => rfl, fun _ => rfl, fun k h1 h2 => by omega⟩
  | succ m ih =>
    intro ii r x y r' x' y' h h0
    unfold eqpLoop at h
    rw [Res.bind_eq_ok] at h
    obtain ⟨⟨rk, d⟩, hd, h⟩ := h
    dsimp only at h
    have e1 : (ii + 1) * s.nV = ii * s.nV + s.nV := by rw [Nat.add_mul, Nat.one_mul]
    have e2 : (ii + 1) * (s.nV + s.nC) = ii * (s.nV + s.nC) + (s.nV + s.nC) := by rw [Nat.add_mul, Nat.one_mul]
    have e3 : (ii + 1) * (s.nV + s.nC) ≤ (ii + (m + 1)) * (s.nV + s.nC) := Nat.mul_le_mul_right _ (by omega)
    obtain ⟨x1, x2⟩ := eqpWriteX_spec hs d (ii * s.nV) x
    obtain ⟨y1, y2, y3⟩ := eqpWriteY_spec hs d (ii * (s.nV + s.nC)) y (fun q hq => h0 _ (by omega) (by omega))
    obtain ⟨i1, i2, i3, i4⟩ := ih (ii + 1) rk _ _ h (fun q h1 h2 => by
      rw [y3 q fun i hi => by omega]
      exact h0 q (by omega) (by rwa [show ii + (m + 1) = ii + 1 + m by omega]))
    refine ⟨fun q hq => ?_, fun q hq => ?_, fun e => by omega, fun k h1 h2 => ?_⟩
    · rw [i1 q (by omega)]
      exact x2 q fun i hi => by omega
    · rw [i2 q (by omega)]
      exact y3 q fun i hi => by omega
    · rcases Nat.lt_or_ge ii k with hk | hk
      · obtain ⟨rk', d', j1, j2, j3⟩ := i4 k hk (by omega)
        exact ⟨rk', d', j1, fun e => j2 (by omega), j3⟩
      · obtain rfl : k = ii := by omega
        refine ⟨rk, d, hd, fun e => i3 (by omega), fun i hi => ?_, fun i hi => ?_, fun j hj => ?_⟩
        · rw [i1 _ (by omega)]; exact x1 i hi
        · rw [i2 _ (by omega)]; exact y1 i hi
        · rw [i2 _ (by omega)]; exact y2 j hj

theorem eqpSolve_ok {s : QPC K} {junk d : Dir K} {g lb ub lbA ubA : Nat → K} (h : s.eqpSolve junk g lb ub lbA ubA = .ok (SUCCESSFUL_RETURN, d)) :
    s.determineStepDirection g lbA ubA lb ub false false = .ok (.ok d) := by
  unfold eqpSolve at h
  rw [Res.bind_eq_ok] at h
  obtain ⟨o, ho, h⟩ := h
  cases o with
  | ok d' => cases h; exact ho
  | error r =>
    simp only [Res.ok.injEq, Prod.mk.injEq] at h
    exact absurd h.1 (determineStepDirection_code ho).2

/-- The Hessian in use -/
theorem Live.symmetric {n m : Nat} {M A : Nat → Nat → K} {l0 u0 : Nat → K} {s : QPC K} (h : QPC.Live n m M A l0 u0 s) : QP.Symmetric s.nV s.Heff := by
  intro i hi j hj
  by_cases hs : s.scalarH
  · rw [QPB.Heff_scalar hs, QPB.Heff_scalar hs]
    by_cases e : i = j
    · rw [if_pos e, if_pos e.symm]
    · rw [if_neg e, if_neg fun e' => e e'.symm]
  · obtain ⟨H, hH, _⟩ := h.good.facs.chol (general_iff.2 hs)
    rw [QPB.Heff_of_H hs hH, QPB.Heff_of_H hs hH]
    exact h.good.facs.sym H hH i hi j hj

theorem solvesEQP_of {n m : Nat} {M A : Nat → Nat → K} {l0 u0 : Nat → K} {s : QPC K} (h : QPC.Live n m M A l0 u0 s) {g lb ub lbA ubA x y : Nat → K}
    {d : Dir K} (hd : s.determineStepDirection g lbA ubA lb ub false false = .ok (.ok d)) (hx : ∀ i < s.nV, x i = s.dirX d i)
    (hy : ∀ i < s.nV, y i = s.dirY d i) (hz : ∀ k < s.nC, y (s.nV + k) = s.dirYC d k) : SolvesEQP s n m s.Heff A g lb ub lbA ubA x y := by
  have hf := h.good.facs
  have hs := hf.shape
  have hO := h.params.options
  have hk := (determineStepDirection_spec hf hO.iterRef hO.refSteps ⟨g, lb, ub, lbA, ubA⟩ false false hd).kkt hs
  have hr := determineStepDirection_regular hf hO.refSteps hd
  have hmin := fun x' => hf.minimiser hr (Live.symmetric h) hk (x' := x')
  obtain rfl := h.nV
  obtain rfl := h.nC
  have hstB : ∀ i < s.nV, s.bounds.getStatus i = s.bounds.status i := fun i hi => WS.getStatus_of_lt (by rw [hs.nB]; exact hi)
  have hstC : ∀ k < s.nC, s.cons.getStatus k = s.cons.status k := fun k hk => WS.getStatus_of_lt (by rw [hs.nC]; exact hk)
  have hrow : ∀ (B : Nat → Nat → K) (x' : Nat → K) k, s.A k = B k → QP.row s.nV B x' k = QP.row s.nV s.A x' k := fun B x' k e => by
    unfold QP.row; rw [e]
  have hrx : ∀ B i, QP.row s.nV B x i = QP.row s.nV B (s.dirX d) i := fun B i => by
    unfold QP.row; exact sum_congr rfl fun j hj => by rw [hx j (mem_range.1 hj)]
  constructor
  · refine ⟨⟨fun i hi hB => ?_, fun k hk' hC => ?_⟩, fun i hi => ?_, fun i hi hB => ?_, fun k hk' hC => ?_⟩
    · rw [hstB i hi] at hB
      rw [hx i hi, hk.fixed i hi hB]
      unfold heldAt activeLimit
      rw [hstB i hi]
    · rw [hstC k hk'] at hC
      rw [hrow _ _ _ (h.mat k hk'), hrx, hk.active k hk' hC]
      unfold heldAt activeLimit
      rw [hstC k hk']
    · rw [hrx, hk.stat i hi, hy i hi]
      refine congrArg _ (sum_congr rfl fun k hk' => ?_)
      rw [mem_range] at hk'
      rw [hz k hk', h.mat k hk']
    · rw [hstB i hi] at hB
      rw [hy i hi, hk.free i hi hB]
    · rw [hstC k hk'] at hC
      rw [hz k hk', hk.inactive k hk' hC]
  · intro x' hx'
    refine le_trans (le_of_eq ?_) (hmin x' ⟨fun i hi hB => ?_, fun k hk' hC => ?_⟩)
    · unfold objective
      rw [sum_congr rfl fun i hi => by rw [hrx, hx i (mem_range.1 hi)], sum_congr (s₂ := range s.nV) (f := fun i => g i * x i) rfl fun i hi => by
        rw [hx i (mem_range.1 hi)]]
    · rw [hx'.fixed i hi (by rw [hstB i hi]; exact hB)]
      unfold heldAt activeLimit
      rw [hstB i hi]
    · rw [← hrow _ _ _ (h.mat k hk').symm.symm, hx'.active k hk' (by rw [hstC k hk']; exact hC)]
      unfold heldAt activeLimit
      rw [hstC k hk']

/-- **C63** (part): in every state between calls, the blocks for those right-hand sides for which a call with this right-hand side alone returns
success solve the equality-constrained QP of the working set; the Hessian `H` differs from that of the user by at most `EPS` per entry (see
C34). -/
theorem C63_each_partial {sq : K → K} {fuel n m : Nat} {M A : Nat → Nat → K} {l0 u0 : Nat → K} {s : QPC K} (h : SessionC sq fuel n m M A l0 u0 s) :
    ∃ H : Nat → Nat → K, (∀ i < n, ∀ j < n, |H i j - M i j| ≤ EPS) ∧
      ∀ (junk : Nat → Dir K) (nRhs : Nat) (g lb ub lbA ubA x0 y0 : Nat → K) {r : ReturnValue} {x y : Nat → K},
        s.solveCurrentEQP junk nRhs g lb ub lbA ubA (some x0) (some y0) = .ok (r, some x, some y) →
        ∀ k < nRhs, (∃ p, s.solveCurrentEQP junk 1 (fun i => g (k * n + i)) (fun i => lb (k * n + i)) (fun i => ub (k * n + i)) (fun i => lbA (k * m + i))
            (fun i => ubA (k * m + i)) (some x0) (some y0) = .ok (SUCCESSFUL_RETURN, p)) ∨ (k + 1 = nRhs ∧ r = SUCCESSFUL_RETURN) →
          SolvesEQP s n m H A (fun i => g (k * n + i)) (fun i => lb (k * n + i)) (fun i => ub (k * n + i)) (fun i => lbA (k * m + i))
            (fun i => ubA (k * m + i)) (fun i => x (k * n + i)) fun i => y (k * (n + m) + i) := by
  have hl := h.live
  refine ⟨s.Heff, hl.hess, ?_⟩
  intro junk nRhs g lb ub lbA ubA x0 y0 r x y he k hk hor
  have hn := hl.nV
  have hm := hl.nC
  subst hn hm
  have hs := hl.good.facs.shape
  unfold solveCurrentEQP at he
  dsimp only at he
  rw [Res.bind_eq_ok] at he
  obtain ⟨⟨r1, x1, y1⟩, he1, he⟩ := he
  simp only [Res.ok.injEq, Prod.mk.injEq, Option.some.injEq] at he
  obtain ⟨rfl, rfl, rfl⟩ := he
  have hzero : ∀ N q, q < N → loop (fun i (y : Nat → K) => updA y i 0) N y0 q = 0 := fun N q hq =>
    (loop_store (p := fun i => i) (v := fun _ => (0 : K)) (n := N) y0 fun _ _ _ _ e => e).1 q hq
  obtain ⟨-, -, -, hb⟩ := eqpLoop_spec hs _ _ _ _ _ he1 (fun q _ hq => hzero _ q (by rwa [Nat.zero_add, Int.toNat_natCast, Nat.mul_comm] at hq))
  obtain ⟨rk, d, hd, hlast, b1, b2, b3⟩ := hb k (Nat.zero_le _) (by rwa [Nat.zero_add, Int.toNat_natCast])
  have hsucc : s.determineStepDirection (fun i => g (k * s.nV + i)) (fun i => lbA (k * s.nC + i)) (fun i => ubA (k * s.nC + i))
      (fun i => lb (k * s.nV + i)) (fun i => ub (k * s.nV + i)) false false = .ok (.ok d) := by
    rcases hor with ⟨p, hp⟩ | ⟨e1, e2⟩
    · unfold solveCurrentEQP at hp
      dsimp only at hp
      rw [Res.bind_eq_ok] at hp
      obtain ⟨⟨r2, x2, y2⟩, hp1, hp⟩ := hp
      simp only [Res.ok.injEq, Prod.mk.injEq] at hp
      obtain ⟨rfl, -⟩ := hp
      obtain ⟨-, -, -, hb'⟩ := eqpLoop_spec hs _ _ _ _ _ hp1 (fun q _ hq => hzero _ q (by
        rw [show (1 : Int).toNat = 1 from rfl] at hq ⊢; omega))
      obtain ⟨rk', d', hd', hlast', -⟩ := hb' 0 (Nat.zero_le _) (by decide)
      obtain rfl := hlast' rfl
      have e := eqpSolve_ok hd'
      simp only [Nat.zero_mul, Nat.zero_add] at e
      unfold eqpSolve at hd
      rw [e] at hd
      simp only [Res.bind_ok, Res.ok.injEq, Prod.mk.injEq] at hd
      rw [← hd.2]
      exact e
    · rw [hlast (by rw [Nat.zero_add, Int.toNat_natCast]; exact e1)] at e2
      rw [e2] at hd
      exact eqpSolve_ok hd
  exact solvesEQP_of hl hsucc b1 b2 b3

/-- **C63** (part): with one right-hand side, success means that the equality-constrained QP of the working set is solved. -/
theorem C63_single_partial {sq : K → K} {fuel n m : Nat} {M A : Nat → Nat → K} {l0 u0 : Nat → K} {s : QPC K} (h : SessionC sq fuel n m M A l0 u0 s) :
    ∃ H : Nat → Nat → K, (∀ i < n, ∀ j < n, |H i j - M i j| ≤ EPS) ∧ ∀ (junk : Nat → Dir K) (g lb ub lbA ubA x0 y0 : Nat → K) {x y : Nat → K},
      s.solveCurrentEQP junk 1 g lb ub lbA ubA (some x0) (some y0) = .ok (SUCCESSFUL_RETURN, some x, some y) →
      SolvesEQP s n m H A g lb ub lbA ubA x y := by
  obtain ⟨H, hH, h⟩ := C63_each_partial h
  refine ⟨H, hH, fun junk g lb ub lbA ubA x0 y0 x y he => ?_⟩
  have := h junk 1 g lb ub lbA ubA x0 y0 he 0 Nat.one_pos (Or.inr ⟨rfl, rfl⟩)
  simpa only [Nat.zero_mul, Nat.zero_add] using this

/-- **C63**: without arrays for the results the call is refused. -/
theorem C63_null (s : QPC K) (junk : Nat → Dir K) (nRhs : Int) (g lb ub lbA ubA : Nat → K) (xOut yOut : Option (Nat → K))
    (h : xOut = none ∨ yOut = none) : s.solveCurrentEQP junk nRhs g lb ub lbA ubA xOut yOut = .ok (RET_INVALID_ARGUMENTS, xOut, yOut) := by
  rcases h with rfl | rfl
  · rfl
  · cases xOut <;> rfl

/-- **C63**: the flags tell which variables are free. -/
theorem C63_flags {sq : K → K} {fuel n m : Nat} {M A : Nat → Nat → K} {l0 u0 : Nat → K} {s : QPC K} (h : SessionC sq fuel n m M A l0 u0 s)
    (f : Nat → Bool) : ∀ i < n, (s.getFreeVariablesFlags f).2 i = true ↔ s.bounds.getStatus i = ST_INACTIVE := by
  intro i hi
  have hl := h.live
  obtain rfl := hl.nV
  have hs := hl.good.facs.shape
  have w1 := loop_store (p := fun i => i) (v := fun _ => false) (n := s.nV) f fun _ _ _ _ e => e
  have w2 := loop_store (p := fun i => s.fr i) (v := fun _ => true) (n := s.nFR) (loop (fun i f => updA f i false) s.nV f)
    fun i hi j hj e => hs.okB.fr_inj hi hj e
  rw [WS.getStatus_of_lt (by rw [hs.nB]; exact hi)]
  show loop (fun i f => updA f (s.fr i) true) s.nFR (loop (fun i f => updA f i false) s.nV f) i = true ↔ _
  rcases hs.casesB hi with ⟨hB, k, hk, rfl⟩ | ⟨hB, k, hk, rfl⟩
  · rw [w2.1 k hk]
    exact ⟨fun _ => not_not.1 hB, fun _ => rfl⟩
  · rw [w2.2 _ fun j hj e => (hs.fr_spec hj).2 (by rw [← e]; exact hB), w1.1 _ hi]
    exact ⟨fun e => (by cases e), fun e => absurd e hB⟩

/-! ### the hypotheses are met, and the full statement fails -/
section
open QpOASES.Runs
open QPB (lowerOf upperOf)

def noDir : Dir ℚ := ⟨fun _ => 0, fun _ => 0, fun _ => 0, fun _ => 0⟩

/-- After the cold start of C34 (the constraint is active at its upper limit 5): two right-hand sides. -/
def eqp2 : Res (ReturnValue × Option (Nat → ℚ) × Option (Nat → ℚ)) := gen1.bind fun o =>
  o.s.solveCurrentEQP (fun _ => noDir) 2 (vec [-20,-50,0,0]) (vec [0,0,0,0]) (vec [0,0,0,0]) (vec [0,0]) (vec [5,25]) (some fun _ => 7) (some fun _ => 7)

example : ∃ o, gen1 = .ok o ∧ SessionC rootC 5 2 1 gen0H gen0A (lowerOf (some (vec [-50]))) (upperOf (some (vec [5]))) o.s ∧
    holds eqp2 (fun p => decide (p.1 = SUCCESSFUL_RETURN) && (match p.2 with
      | (some x, some y) => decide (3 * x 0 + 4 * x 1 = 5 ∧ 3 * x 2 + 4 * x 3 = 25 ∧ 4 * x 0 - 20 = 3 * y 2 ∧ 4 * x 2 = 3 * y 5 ∧ y 5 ≠ 0 ∧ y 0 = 0 ∧ y 3 = 0)
      | _ => false)) = true := by
  obtain ⟨o, e, _, _, _, hs⟩ := gen1_session
  exact ⟨o, e, hs, by decide +kernel⟩

/-- The same state; the first right-hand side is so large that the triangular solve refuses it. -/
def eqpBad (nRhs : Int) : Res (ReturnValue × Option (Nat → ℚ) × Option (Nat → ℚ)) := gen1.bind fun o =>
  o.s.solveCurrentEQP (fun _ => noDir) nRhs (vec [10 ^ 30,0,0,0]) (vec [0,0,0,0]) (vec [0,0,0,0]) (vec [0,0]) (vec [5,25]) (some fun _ => 7) (some fun _ => 7)

/-- **C63 is violated** for several right-hand sides: the return value is that of the last one, so a failure for an earlier one is not
reported, and what is delivered for it does not satisfy the active constraint. -/
theorem C63_violated : ∃ (s : QPC ℚ) (x y : Nat → ℚ),
    SessionC rootC 5 2 1 gen0H gen0A (lowerOf (some (vec [-50]))) (upperOf (some (vec [5]))) s ∧ s.cons.getStatus 0 = ST_UPPER ∧
    s.solveCurrentEQP (fun _ => noDir) 2 (vec [10 ^ 30,0,0,0]) (vec [0,0,0,0]) (vec [0,0,0,0]) (vec [0,0]) (vec [5,25]) (some fun _ => 7) (some fun _ => 7) =
      .ok (SUCCESSFUL_RETURN, some x, some y) ∧ 3 * x 0 + 4 * x 1 ≠ 5 := by
  obtain ⟨o, e, _, _, h3, hs⟩ := gen1_session
  obtain ⟨⟨r, x, y⟩, ep, h⟩ := of_holds (r := eqpBad 2) (p := fun p => decide (p.1 = SUCCESSFUL_RETURN) && (match p.2 with
      | (some x, some _) => decide (3 * x 0 + 4 * x 1 ≠ 5)
      | _ => false)) (by decide +kernel)
  unfold eqpBad at ep
  rw [e] at ep
  cases x with
  | none => simp at h
  | some x =>
    cases y with
    | none => simp at h
    | some y =>
      simp only [Bool.and_eq_true, decide_eq_true_eq] at h
      obtain ⟨rfl, h⟩ := h
      exact ⟨o.s, x, y, hs, h3, ep, h⟩

/-- The failing right-hand side alone is refused. -/
example : holds (eqpBad 1) (fun p => decide (p.1 = RET_STEPDIRECTION_FAILED_CHOLESKY)) = true := by decide +kernel

end

end QpOASES.Props
