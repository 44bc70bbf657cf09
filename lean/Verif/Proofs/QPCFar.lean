import Verif.Proofs.QPCCheck
import Verif.Proofs.QPCVerdict
import Verif.Proofs.FarLimits

/-!
Hotstarts and cold starts of the solver for general constraints with far bounds: the loop of `hotstart` that moves the far limits.
-/
namespace QpOASES
open Finset Props Spec SubjectToStatus SubjectToType ReturnValue HessianType QProblemStatus
open QPB (lowerOf upperOf GivenHessian noLower_false noUpper_false farLower farUpper farLower_ge farUpper_le updateFarB_within countP_clear farVal_ge farLower_wide farUpper_wide updateFarB_wide countP_near)

set_option linter.unusedSectionVars false

variable {K : Type} [Field K] [LinearOrder K] [IsStrictOrderedRing K]

namespace QPC

/-! ### far limits -/

/-- The far limits lie within the limits given. -/
structure Within (n m : Nat) (lbNew ubNew lbANew ubANew : Option (Nat → K)) (f : Far K) : Prop where
  lower : ∀ l, lbNew = some l → ∀ i < n, l i ≤ f.lb i
  upper : ∀ u, ubNew = some u → ∀ i < n, f.ub i ≤ u i
  lowerA : ∀ l, lbANew = some l → ∀ k < m, l k ≤ f.lbA k
  upperA : ∀ u, ubANew = some u → ∀ k < m, f.ubA k ≤ u k

/-- The point is on no limit that is not one of those given. -/
structure Clear (s : QPC K) (lbNew ubNew lbANew ubANew : Option (Nat → K)) (f : Far K) : Prop where
  lower : ∀ i < s.nV, (∀ l, lbNew = some l → l i < f.lb i) → s.x i ≠ f.lb i
  upper : ∀ i < s.nV, (∀ u, ubNew = some u → f.ub i < u i) → s.x i ≠ f.ub i
  lowerA : ∀ k < s.nC, (∀ l, lbANew = some l → l k < f.lbA k) → s.Ax k ≠ f.lbA k
  upperA : ∀ k < s.nC, (∀ u, ubANew = some u → f.ubA k < u k) → s.Ax k ≠ f.ubA k

theorem farC_succ {s : QPC K} {cur v : K} {lbANew ubANew : Option (Nat → K)} {m i : Nat} {lf uf : Nat → K}
    (e : s.toQPB.farVal cur (s.nV + s.nC) (s.nV + i) = .ok v) : farC s cur lbANew ubANew (m+1) i lf uf =
      farC s cur lbANew ubANew m (i+1) (updA lf i (farLower v lbANew i)) (updA uf i (farUpper v ubANew i)) := by
  rw [farC, e]
  cases lbANew <;> cases ubANew <;> simp only [Res.bind_ok, farLower, farUpper, QPB.getMax_eq, QPB.getMin_eq]

theorem farC_within {s : QPC K} {cur : K} {lbNew ubNew : Option (Nat → K)} : ∀ (m i : Nat) (lf uf lf' uf' : Nat → K),
    farC s cur lbNew ubNew m i lf uf = .ok (lf', uf') →
    (∀ l, lbNew = some l → ∀ j < i, l j ≤ lf j) → (∀ u, ubNew = some u → ∀ j < i, uf j ≤ u j) →
    (∀ l, lbNew = some l → ∀ j < i + m, l j ≤ lf' j) ∧ (∀ u, ubNew = some u → ∀ j < i + m, uf' j ≤ u j) := by
  intro m
  induction m with
  | zero =>
    intro i lf uf lf' uf' e h1 h2
    unfold farC at e
    simp only [Res.ok.injEq, Prod.mk.injEq] at e
    rw [← e.1, ← e.2]
    exact ⟨h1, h2⟩
  | succ m ih =>
    intro i lf uf lf' uf' e h1 h2
    have e0 := e
    rw [farC, Res.bind_eq_ok] at e0
    obtain ⟨v, ev, -⟩ := e0
    rw [farC_succ ev] at e
    have := ih (i+1) _ _ _ _ e (fun l hl j hj => ?_) (fun u hu j hj => ?_)
    · rw [show i + (m+1) = i + 1 + m by omega]; exact this
    · by_cases hij : j = i
      · subst hij; rw [updA_same]; exact farLower_ge hl j
      · rw [updA_ne _ _ hij]; exact h1 l hl j (by omega)
    · by_cases hij : j = i
      · subst hij; rw [updA_same]; exact farUpper_le hu j
      · rw [updA_ne _ _ hij]; exact h2 u hu j (by omega)

theorem updateFarBounds_within {s : QPC K} {cur : K} {lbNew ubNew lbANew ubANew : Option (Nat → K)} {f f' : Far K}
    (e : updateFarBounds s cur lbNew ubNew lbANew ubANew f = .ok f') : Within s.nV s.nC lbNew ubNew lbANew ubANew f' := by
  unfold updateFarBounds at e
  rw [Res.bind_eq_ok] at e
  obtain ⟨⟨l, u⟩, e1, e⟩ := e
  dsimp only at e
  rw [Res.bind_eq_ok] at e
  obtain ⟨⟨lA, uA⟩, e2, e⟩ := e
  simp only [Res.ok.injEq] at e
  subst e
  obtain ⟨a1, a2⟩ := updateFarB_within _ _ _ _ _ _ e1 (fun _ _ j hj => absurd hj (by omega)) (fun _ _ j hj => absurd hj (by omega))
  obtain ⟨b1, b2⟩ := farC_within _ _ _ _ _ _ e2 (fun _ _ j hj => absurd hj (by omega)) (fun _ _ j hj => absurd hj (by omega))
  rw [Nat.zero_add] at a1 a2 b1 b2
  exact ⟨a1, a2, b1, b2⟩

theorem initialFar_ge (s : QPC K) (lbNew ubNew lbANew ubANew : Option (Nat → K)) :
    s.options.initialFarBounds ≤ s.initialFar lbNew ubNew lbANew ubANew := by
  have h := (QPB.initialFar_spec s.toQPB lbNew ubNew).1
  unfold initialFar
  dsimp only
  generalize s.toQPB.initialFar lbNew ubNew = f at *
  have h2 : ∀ (b : Option (Nat → K)), f ≤ match b with
    | some u => loop (fun i f => if u i < INFTY ∧ u i > f then u i else f) s.nC f
    | none => f := by
    intro b
    cases b with
    | none => exact le_rfl
    | some u => exact (QPB.loop_raise (fun i => u i < INFTY) u s.nC f).1
  refine h.trans ((h2 ubANew).trans ?_)
  clear h2
  cases ubANew <;> dsimp only
  all_goals
    cases lbANew with
    | none => exact le_rfl
    | some l =>
      have eq : (fun (i : Nat) (f : K) => if l i > -INFTY ∧ l i < -f then -l i else f) = fun i f => if l i > -INFTY ∧ -l i > f then -l i else f := by
        funext i f
        have : (l i < -f) = (-l i > f) := propext (by constructor <;> intro h <;> linarith)
        simp only [this]
      dsimp only
      rw [eq]
      exact (QPB.loop_raise (fun i => l i > -INFTY) (fun i => -l i) s.nC _).1

theorem nActiveFar_clear {s : QPC K} {lbNew ubNew lbANew ubANew : Option (Nat → K)} {f : Far K} {tol : K} (ht : 0 < tol)
    (h : s.nActiveFar lbNew ubNew lbANew ubANew f tol = 0) : Clear s lbNew ubNew lbANew ubANew f := by
  unfold nActiveFar QPB.nActiveFar at h
  obtain ⟨⟨⟨h1, h2⟩, h3⟩, h4⟩ : ((_ = 0 ∧ _ = 0) ∧ _ = 0) ∧ _ = 0 := by
    refine ⟨⟨⟨?_, ?_⟩, ?_⟩, ?_⟩
    rotate_left 3
    · exact (Nat.add_eq_zero_iff.1 h).2
    · exact (Nat.add_eq_zero_iff.1 (Nat.add_eq_zero_iff.1 (Nat.add_eq_zero_iff.1 h).1).1).1
    · exact (Nat.add_eq_zero_iff.1 (Nat.add_eq_zero_iff.1 (Nat.add_eq_zero_iff.1 h).1).1).2
    · exact (Nat.add_eq_zero_iff.1 (Nat.add_eq_zero_iff.1 h).1).2
  refine ⟨fun i hi hp => countP_clear ht h1 i hi ?_, fun i hi hp => countP_clear ht h2 i hi ?_, fun i hi hp => countP_clear ht h3 i hi ?_,
    fun i hi hp => countP_clear ht h4 i hi ?_⟩
  · cases lbNew with
    | none => rfl
    | some l => exact decide_eq_true (hp l rfl)
  · cases ubNew with
    | none => rfl
    | some l => exact decide_eq_true (hp l rfl)
  · cases lbANew with
    | none => rfl
    | some l => exact decide_eq_true (hp l rfl)
  · cases ubANew with
    | none => rfl
    | some l => exact decide_eq_true (hp l rfl)

/-- Every far limit is a limit given, or at least `B` away from zero. -/
structure Wide (n m : Nat) (lbNew ubNew lbANew ubANew : Option (Nat → K)) (f : Far K) (B : K) : Prop where
  lower : ∀ i < n, f.lb i ≤ -B ∨ ∃ l, lbNew = some l ∧ f.lb i = l i
  upper : ∀ i < n, B ≤ f.ub i ∨ ∃ u, ubNew = some u ∧ f.ub i = u i
  lowerA : ∀ k < m, f.lbA k ≤ -B ∨ ∃ l, lbANew = some l ∧ f.lbA k = l k
  upperA : ∀ k < m, B ≤ f.ubA k ∨ ∃ u, ubANew = some u ∧ f.ubA k = u k

theorem farC_wide {s : QPC K} {cur : K} {lbNew ubNew : Option (Nat → K)} (hn : 0 < s.nV + s.nC)
    (hr : s.options.enableRamping = true → 0 ≤ s.ramp0 ∧ 0 ≤ s.ramp1) (hcur : 0 ≤ cur) : ∀ (m i : Nat) (lf uf lf' uf' : Nat → K),
    farC s cur lbNew ubNew m i lf uf = .ok (lf', uf') →
    (∀ j < i, (lf j ≤ -cur ∨ ∃ l, lbNew = some l ∧ lf j = l j) ∧ (cur ≤ uf j ∨ ∃ l, ubNew = some l ∧ uf j = l j)) →
    ∀ j < i + m, (lf' j ≤ -cur ∨ ∃ l, lbNew = some l ∧ lf' j = l j) ∧ (cur ≤ uf' j ∨ ∃ l, ubNew = some l ∧ uf' j = l j) := by
  intro m
  induction m with
  | zero =>
    intro i lf uf lf' uf' e h1
    unfold farC at e
    simp only [Res.ok.injEq, Prod.mk.injEq] at e
    rw [← e.1, ← e.2]
    exact h1
  | succ m ih =>
    intro i lf uf lf' uf' e h1
    have e0 := e
    rw [farC, Res.bind_eq_ok] at e0
    obtain ⟨v, ev, -⟩ := e0
    rw [farC_succ ev] at e
    have hv := farVal_ge hn hr hcur ev
    have := ih (i+1) _ _ _ _ e (fun j hj => ?_)
    · rw [show i + (m+1) = i + 1 + m by omega]; exact this
    · by_cases hij : j = i
      · subst hij; rw [updA_same, updA_same]; exact ⟨farLower_wide hv _ _, farUpper_wide hv _ _⟩
      · rw [updA_ne _ _ hij, updA_ne _ _ hij]; exact h1 j (by omega)

theorem updateFarBounds_wide {s : QPC K} {cur : K} {lbNew ubNew lbANew ubANew : Option (Nat → K)} {f f' : Far K} (hn : s.nV ≠ 0) (hp : s.Params)
    (hcur : 0 ≤ cur) (e : updateFarBounds s cur lbNew ubNew lbANew ubANew f = .ok f') : Wide s.nV s.nC lbNew ubNew lbANew ubANew f' cur := by
  unfold updateFarBounds at e
  rw [Res.bind_eq_ok] at e
  obtain ⟨⟨l, u⟩, e1, e⟩ := e
  dsimp only at e
  rw [Res.bind_eq_ok] at e
  obtain ⟨⟨lA, uA⟩, e2, e⟩ := e
  simp only [Res.ok.injEq] at e
  subst e
  have a := updateFarB_wide (by omega) hp.ramp hcur _ _ _ _ _ _ e1 (fun j hj => absurd hj (by omega))
  have b := farC_wide (by omega) hp.ramp hcur _ _ _ _ _ _ e2 (fun j hj => absurd hj (by omega))
  rw [Nat.zero_add] at a b
  exact ⟨fun i hi => (a i hi).1, fun i hi => (a i hi).2, fun i hi => (b i hi).1, fun i hi => (b i hi).2⟩

/-- The point is within the tolerance `tol` of a limit that is not one of those given. -/
def Near (s : QPC K) (lbNew ubNew lbANew ubANew : Option (Nat → K)) (f : Far K) (tol : K) : Prop :=
  (∃ i < s.nV, (∀ l, lbNew = some l → l i < f.lb i) ∧ |f.lb i - s.x i| < tol) ∨
  (∃ i < s.nV, (∀ u, ubNew = some u → f.ub i < u i) ∧ |f.ub i - s.x i| < tol) ∨
  (∃ k < s.nC, (∀ l, lbANew = some l → l k < f.lbA k) ∧ |f.lbA k - s.Ax k| < tol) ∨
  (∃ k < s.nC, (∀ u, ubANew = some u → f.ubA k < u k) ∧ |f.ubA k - s.Ax k| < tol)

theorem nActiveFar_near {s : QPC K} {lbNew ubNew lbANew ubANew : Option (Nat → K)} {f : Far K} {tol : K}
    (h : ¬ s.nActiveFar lbNew ubNew lbANew ubANew f tol = 0) : Near s lbNew ubNew lbANew ubANew f tol := by
  unfold nActiveFar QPB.nActiveFar at h
  rw [Nat.add_eq_zero_iff, Nat.add_eq_zero_iff, Nat.add_eq_zero_iff, not_and_or, not_and_or, not_and_or] at h
  rcases h with ((h | h) | h) | h
  · obtain ⟨i, hi, hp, ht⟩ := countP_near h
    exact Or.inl ⟨i, hi, fun l hl => (by subst hl; exact of_decide_eq_true hp), ht⟩
  · obtain ⟨i, hi, hp, ht⟩ := countP_near h
    exact Or.inr (Or.inl ⟨i, hi, fun l hl => (by subst hl; exact of_decide_eq_true hp), ht⟩)
  · obtain ⟨i, hi, hp, ht⟩ := countP_near h
    exact Or.inr (Or.inr (Or.inl ⟨i, hi, fun l hl => (by subst hl; exact of_decide_eq_true hp), ht⟩))
  · obtain ⟨i, hi, hp, ht⟩ := countP_near h
    exact Or.inr (Or.inr (Or.inr ⟨i, hi, fun l hl => (by subst hl; exact of_decide_eq_true hp), ht⟩))

/-- A solution for far limits that is on none of them is a solution for the limits given. -/
theorem optimal_clear {n m : Nat} {M M' A : Nat → Nat → K} {g x y : Nat → K} {lbNew ubNew lbANew ubANew : Option (Nat → K)} {f : Far K}
    (h : Optimal (qp n m M' g f.lb f.ub A f.lbA f.ubA) (qp n m M g (lowerOf lbNew) (upperOf ubNew) A (lowerOf lbANew) (upperOf ubANew)) x y)
    (hw : Within n m lbNew ubNew lbANew ubANew f)
    (h1 : ∀ i < n, (∀ l, lbNew = some l → l i < f.lb i) → x i ≠ f.lb i)
    (h2 : ∀ i < n, (∀ u, ubNew = some u → f.ub i < u i) → x i ≠ f.ub i)
    (h3 : ∀ k < m, (∀ l, lbANew = some l → l k < f.lbA k) → QP.row n A x k ≠ f.lbA k)
    (h4 : ∀ k < m, (∀ u, ubANew = some u → f.ubA k < u k) → QP.row n A x k ≠ f.ubA k) :
    Optimal (qp n m M' g (lowerOf lbNew) (upperOf ubNew) A (lowerOf lbANew) (upperOf ubANew))
      (qp n m M g (lowerOf lbNew) (upperOf ubNew) A (lowerOf lbANew) (upperOf ubANew)) x y := by
  obtain ⟨⟨s1, s2, s3, s4, s5⟩, o1, o2, o3, o4⟩ := h
  have low : ∀ {b : Option (Nat → K)} {v : K} {i : Nat}, (∀ l, b = some l → l i ≤ v) → ¬ (∀ l, b = some l → l i < v) → v = lowerOf b i := by
    intro b v i ha hb
    rw [not_forall] at hb
    obtain ⟨l, hb⟩ := hb
    rw [Classical.not_imp] at hb
    obtain ⟨rfl, hb⟩ := hb
    exact le_antisymm (not_lt.1 hb) (ha l rfl)
  have upp : ∀ {b : Option (Nat → K)} {v : K} {i : Nat}, (∀ l, b = some l → v ≤ l i) → ¬ (∀ l, b = some l → v < l i) → v = upperOf b i := by
    intro b v i ha hb
    rw [not_forall] at hb
    obtain ⟨l, hb⟩ := hb
    rw [Classical.not_imp] at hb
    obtain ⟨rfl, hb⟩ := hb
    exact le_antisymm (ha l rfl) (not_lt.1 hb)
  refine ⟨⟨s1, fun i hi hy => ?_, fun i hi hy => ?_, fun k hk hy => ?_, fun k hk hy => ?_⟩, fun hh i hi => ?_, fun hh i hi => ?_,
    fun hh k hk ho => ?_, fun hh k hk ho => ?_⟩
  · exact (s2 i hi hy).trans (low (fun l hl => hw.lower l hl i hi) fun hn => h1 i hi hn (s2 i hi hy))
  · exact (s3 i hi hy).trans (upp (fun l hl => hw.upper l hl i hi) fun hn => h2 i hi hn (s3 i hi hy))
  · exact (s4 k hk hy).trans (low (fun l hl => hw.lowerA l hl k hk) fun hn => h3 k hk hn (s4 k hk hy))
  · exact (s5 k hk hy).trans (upp (fun l hl => hw.upperA l hl k hk) fun hn => h4 k hk hn (s5 k hk hy))
  · refine le_trans ?_ (o1 hh i hi)
    cases lbNew with
    | none => obtain ⟨_, _, hh⟩ := hh; exact absurd hh (lt_irrefl _)
    | some l => exact hw.lower l rfl i hi
  · refine le_trans (o2 hh i hi) ?_
    cases ubNew with
    | none => obtain ⟨_, _, hh⟩ := hh; exact absurd hh (lt_irrefl _)
    | some l => exact hw.upper l rfl i hi
  · refine le_trans ?_ (o3 hh k hk ho)
    cases lbANew with
    | none => obtain ⟨_, _, hh⟩ := hh; exact absurd hh (lt_irrefl _)
    | some l => exact hw.lowerA l rfl k hk
  · refine le_trans (o4 hh k hk ho) ?_
    cases ubANew with
    | none => obtain ⟨_, _, hh⟩ := hh; exact absurd hh (lt_irrefl _)
    | some l => exact hw.upperA l rfl k hk

/-! ### the loop -/

/-- State and far limits with which a round may begin: the far limits do not cross, and the point respects the limits of the object. -/
structure FarRound (s : QPC K) (f : Far K) : Prop where
  box : ∀ i < s.nV, f.lb i ≤ f.ub i
  boxA : ∀ k < s.nC, f.lbA k ≤ f.ubA k
  point : ∀ i < s.nV, s.lb i ≤ s.x i ∧ s.x i ≤ s.ub i
  eqNow : ∀ i < s.nV, s.toQPB.typeOf (some f.lb) (some f.ub) i = ST_EQUALITY →
    s.bounds.status i ≠ ST_INACTIVE ∧ s.lb i = s.ub i ∧ f.lb i = f.ub i
  eqBefore : ∀ i < s.nV, s.toQPB.typeOf (some f.lb) (some f.ub) i ≠ ST_EQUALITY → s.bounds.type i = ST_EQUALITY →
    (s.bounds.status i = ST_LOWER → 0 ≤ s.y i) ∧ (s.bounds.status i = ST_UPPER → s.y i ≤ 0)
  eqA : ∀ k < s.nC, s.cons.type k = ST_EQUALITY → f.lbA k = f.ubA k

/-- The flags say what the return value says: the bounds could be adapted at the beginning of the round. -/
def Told (o : OutC K) : Prop :=
  (o.s.infeasible = true → o.rv = RET_HOTSTART_STOPPED_INFEASIBILITY) ∧ (o.s.unbounded = true → o.rv = RET_HOTSTART_STOPPED_UNBOUNDEDNESS)

/-- Every round of the far bound loop may begin and is exact. -/
def FarClean (sq : K → K) (gNew : Nat → K) (lbNew ubNew lbANew ubANew : Option (Nat → K)) (nWSR : Int) (cputime : Option K) :
    (fuel : Nat) → QPC K → (farbound : K) → Far K → (performed : Int) → (needed remaining : K) → Prop
  | 0, _, _, _, _, _, _ => True
  | fuel+1, s, farbound, f, performed, needed, remaining =>
    FarRound s f ∧
    RunClean sq s gNew (some f.lb) (some f.ub) (some f.lbA) (some f.ubA) nWSR (cputime.map fun c => c - needed) performed ∧
    ∀ o, solveQP sq s gNew (some f.lb) (some f.ub) (some f.lbA) (some f.ubA) nWSR (cputime.map fun c => c - needed) performed = .ok o →
      Told o ∧
      (o.s.infeasible = true → ¬ farbound * o.s.options.growFarBounds ≥ INFTY →
        ∀ f', updateFarBounds o.s (farbound * o.s.options.growFarBounds) lbNew ubNew lbANew ubANew f = .ok f' →
        FarClean sq gNew lbNew ubNew lbANew ubANew nWSR cputime fuel
          { o.s with rampOffset := o.s.rampOffset + 1 } (farbound * o.s.options.growFarBounds) f' o.nWSR
          (needed + o.cputime.getD remaining) (o.cputime.getD remaining)) ∧
      (o.s.infeasible = false → o.s.status = QPS_SOLVED → o.rv = SUCCESSFUL_RETURN ∧
        ∀ q, cdiv (farbound * o.s.options.growFarBounds) o.s.options.growFarBounds = .ok q →
        ¬ o.s.nActiveFar lbNew ubNew lbANew ubANew f (q * o.s.options.boundTolerance) = 0 →
        ¬ farbound * o.s.options.growFarBounds ≥ INFTY →
        ∀ f', updateFarBounds { o.s with status := QPS_HOMOTOPYQPSOLVED } (farbound * o.s.options.growFarBounds) lbNew ubNew lbANew ubANew f = .ok f' →
        FarClean sq gNew lbNew ubNew lbANew ubANew nWSR cputime fuel
          { o.s with status := QPS_HOMOTOPYQPSOLVED, rampOffset := o.s.rampOffset + 1 } (farbound * o.s.options.growFarBounds) f' o.nWSR
          (needed + o.cputime.getD remaining) (o.cputime.getD remaining))

/-- What a run with far bounds ends with: a solution for far limits, on none of which the point is -/
def FarSolved (s : QPC K) (gNew : Nat → K) (lbNew ubNew lbANew ubANew : Option (Nat → K)) : Prop :=
  ∃ f, Within s.nV s.nC lbNew ubNew lbANew ubANew f ∧ Clear s lbNew ubNew lbANew ubANew f ∧
    Solved s gNew (some f.lb) (some f.ub) (some f.lbA) (some f.ubA) ∧
    ((∃ i < s.nV, -INFTY < f.lb i) → s.bounds.noLower = false) ∧ ((∃ i < s.nV, f.ub i < INFTY) → s.bounds.noUpper = false)

theorem Live.frame {n m : Nat} {M A : Nat → Nat → K} {l0 u0 : Nat → K} {s : QPC K} (h : Live n m M A l0 u0 s) (inf unb : Bool) (st : QProblemStatus)
    (count off now : Nat) :
    Live n m M A l0 u0 { s with infeasible := inf, unbounded := unb, status := st, count := count, rampOffset := off, now := now } :=
  ⟨h.good.frame s.tau inf unb st count off now s.haveCholesky rfl, h.nV, h.nC, h.mat, h.pos, h.chol,
    ⟨h.params.options, h.params.ramp⟩, h.relax, h.reg, h.hess, h.types, h.unbounded, h.equal, h.noLower, h.noUpper⟩

theorem Live.solve {sq : K → K} {n m : Nat} {M A : Nat → Nat → K} {l0 u0 : Nat → K} {s : QPC K} (h : Live n m M A l0 u0 s) {g : Nat → K}
    {f : Far K} {nWSR performed : Int} {cputime : Option K} (hr : FarRound s f)
    (hc : RunClean sq s g (some f.lb) (some f.ub) (some f.lbA) (some f.ubA) nWSR cputime performed) {o : OutC K}
    (e : solveQP sq s g (some f.lb) (some f.ub) (some f.lbA) (some f.ubA) nWSR cputime performed = .ok o) :
    (o.rv = SUCCESSFUL_RETURN → Solved o.s g (some f.lb) (some f.ub) (some f.lbA) (some f.ubA) ∧
      Same o.s (s.retyped (some f.lb) (some f.ub)) ∧ Live n m M A l0 u0 o.s) ∧
    (o.rv = RET_MAX_NWSR_REACHED → Same o.s (s.retyped (some f.lb) (some f.ub)) ∧ Live n m M A l0 u0 o.s) := by
  have hG : (s.retyped (some f.lb) (some f.ub)).Good := h.good.retype (fun i hi e => ⟨(hr.eqNow i hi e).1, (hr.eqNow i hi e).2.1⟩) hr.eqBefore
    (fun _ i hi _ => (hr.point i hi).1) (fun _ i hi _ => (hr.point i hi).2)
  have hty : ∀ i < s.nV, (s.retyped (some f.lb) (some f.ub)).bounds.type i = s.toQPB.typeOf (some f.lb) (some f.ub) i := fun i hi => if_pos hi
  have hT : Target (s.retyped (some f.lb) (some f.ub)) (lowerOf (some f.lb)) (upperOf (some f.ub)) (lowerOf (some f.lbA)) (upperOf (some f.ubA)) := by
    refine ⟨hr.box, fun i hi e => ?_, hr.boxA, hr.eqA⟩
    rw [hty i hi] at e
    exact (hr.eqNow i hi e).2.2
  obtain ⟨j1, j2⟩ := solveQP_spec hG h.params h.relax hT hc e
  exact ⟨fun hr => ⟨(j1 hr).1, (j1 hr).2, h.next (j1 hr).1.good (j1 hr).2⟩, fun hr => ⟨(j2 hr).2, h.next (j2 hr).1 (j2 hr).2⟩⟩

/-- What a round says that ends with a report -/
theorem Live.solve_report {sq : K → K} {n m : Nat} {M A : Nat → Nat → K} {l0 u0 : Nat → K} {s : QPC K} (h : Live n m M A l0 u0 s)
    (hon : s.options.enableFarBounds = true) (hden : 0 < s.options.epsDen) {g : Nat → K}
    {f : Far K} {nWSR performed : Int} {cputime : Option K} (hr : FarRound s f)
    (hc : RunClean sq s g (some f.lb) (some f.ub) (some f.lbA) (some f.ubA) nWSR cputime performed) {o : OutC K}
    (e : solveQP sq s g (some f.lb) (some f.ub) (some f.lbA) (some f.ubA) nWSR cputime performed = .ok o)
    (hrv : o.rv = RET_HOTSTART_STOPPED_INFEASIBILITY ∨ o.rv = RET_HOTSTART_STOPPED_UNBOUNDEDNESS) :
    Verdict o.s g f.lb f.ub f.lbA f.ubA ∧ Live n m M A l0 u0 o.s ∧ o.s.options = s.options ∧
    (o.rv = RET_HOTSTART_STOPPED_INFEASIBILITY → o.s.infeasible = true) ∧ (o.rv = RET_HOTSTART_STOPPED_UNBOUNDEDNESS → o.s.unbounded = true) := by
  have hG : (s.retyped (some f.lb) (some f.ub)).Good := h.good.retype (fun i hi e => ⟨(hr.eqNow i hi e).1, (hr.eqNow i hi e).2.1⟩) hr.eqBefore
    (fun _ i hi _ => (hr.point i hi).1) (fun _ i hi _ => (hr.point i hi).2)
  have hty : ∀ i < s.nV, (s.retyped (some f.lb) (some f.ub)).bounds.type i = s.toQPB.typeOf (some f.lb) (some f.ub) i := fun i hi => if_pos hi
  have hT : Target (s.retyped (some f.lb) (some f.ub)) (lowerOf (some f.lb)) (upperOf (some f.ub)) (lowerOf (some f.lbA)) (upperOf (some f.ubA)) := by
    refine ⟨hr.box, fun i hi e => ?_, hr.boxA, hr.eqA⟩
    rw [hty i hi] at e
    exact (hr.eqNow i hi e).2.2
  have hU : s.Unlimited (lowerOf (some f.lbA)) (upperOf (some f.ubA)) := by
    intro k hk ht
    have := (h.unbounded k (by rw [← h.nC]; exact hk) ht).2
    rw [hon] at this
    cases this
  rcases solveQP_report hG h.params hden h.relax hT hU hc e with hh | ⟨⟨h1, h2⟩, _⟩
  · have hflag : o.s.infeasible = true ∨ o.s.unbounded = true := by
      rcases hrv with hr | hr
      · exact Or.inl (hh.infeasible hr)
      · exact Or.inr (hh.unbounded hr)
    obtain ⟨j1, j2⟩ := hh.kept hflag
    exact ⟨hh.verdict, h.next j1 j2, j2.options, hh.infeasible, hh.unbounded⟩
  · rcases hrv with hr | hr
    · exact absurd hr h1
    · exact absurd hr h2

/-- What a run with far bounds has found that ends with a report: the QP with far limits, as far away as they may be, is infeasible, or the QP with some
far limits has a direction of descent, or its solution is on a far limit and they cannot be moved farther away -/
structure FarReport (s : QPC K) (gNew : Nat → K) (lbNew ubNew lbANew ubANew : Option (Nat → K)) : Prop where
  infeasible : s.infeasible = true → ∃ f B, 0 < B ∧ INFTY ≤ B * s.options.growFarBounds ∧ Within s.nV s.nC lbNew ubNew lbANew ubANew f ∧
    Wide s.nV s.nC lbNew ubNew lbANew ubANew f B ∧ Verdict s gNew f.lb f.ub f.lbA f.ubA
  unbounded : s.unbounded = true → ∃ f B, 0 < B ∧ Within s.nV s.nC lbNew ubNew lbANew ubANew f ∧ Wide s.nV s.nC lbNew ubNew lbANew ubANew f B ∧
    (Verdict s gNew f.lb f.ub f.lbA f.ubA ∨ (INFTY ≤ B * s.options.growFarBounds ∧ Near s lbNew ubNew lbANew ubANew f (B * s.options.boundTolerance)))

/-- The ends of a run with far bounds -/
structure FarEnd (n m : Nat) (M A : Nat → Nat → K) (l0 u0 : Nat → K) (opt : Options K) (gNew : Nat → K) (lbNew ubNew lbANew ubANew : Option (Nat → K))
    (o : OutC K) : Prop where
  solved : o.rv = SUCCESSFUL_RETURN → FarSolved o.s gNew lbNew ubNew lbANew ubANew ∧ Live n m M A l0 u0 o.s ∧ o.s.options = opt
  stopped : o.rv = RET_MAX_NWSR_REACHED → Live n m M A l0 u0 o.s ∧ o.s.options = opt
  reported : o.s.infeasible = true ∨ o.s.unbounded = true → FarReport o.s gNew lbNew ubNew lbANew ubANew ∧ Live n m M A l0 u0 o.s ∧ o.s.options = opt
  infeasible : o.rv = RET_HOTSTART_STOPPED_INFEASIBILITY → o.s.infeasible = true
  unbounded : o.rv = RET_HOTSTART_STOPPED_UNBOUNDEDNESS → o.s.unbounded = true

theorem farLoop_spec {sq : K → K} {gNew : Nat → K} {lbNew ubNew lbANew ubANew : Option (Nat → K)} {nWSR : Int} {cputime : Option K}
    {n m : Nat} {M A : Nat → Nat → K} {l0 u0 : Nat → K} (opt : Options K) (hon : opt.enableFarBounds = true) (hgrow : 0 < opt.growFarBounds)
    (htol : 0 < opt.boundTolerance) (hden : 0 < opt.epsDen) :
    ∀ (fuel : Nat) (s : QPC K) (farbound : K) (f : Far K) (performed : Int) (needed remaining : K) (o : OutC K) (t : K),
    s.options = opt → Live n m M A l0 u0 s → 0 < farbound → Within n m lbNew ubNew lbANew ubANew f → Wide n m lbNew ubNew lbANew ubANew f farbound →
    FarClean sq gNew lbNew ubNew lbANew ubANew nWSR cputime fuel s farbound f performed needed remaining →
    farLoop sq gNew lbNew ubNew lbANew ubANew nWSR cputime fuel s farbound f performed needed remaining = .ok (o, t) →
    FarEnd n m M A l0 u0 opt gNew lbNew ubNew lbANew ubANew o := by
  intro fuel
  induction fuel with
  | zero => intro s fb f p ne re o t _ _ _ _ _ _ e; unfold farLoop at e; cases e
  | succ fuel ih =>
    intro s fb f p ne re o t hopt hL hfb hw hwd hc e
    obtain ⟨hR, hrun, hc⟩ := hc
    unfold farLoop at e
    rw [Res.bind_eq_ok] at e
    obtain ⟨o1, e1, e⟩ := e
    unfold solveRegularisedQP at e1
    rw [if_pos (show s.toQPB.usingRegularisation = false from hL.reg)] at e1
    obtain ⟨told, hcI, hcS⟩ := hc o1 e1
    obtain ⟨j1, j2⟩ := hL.solve hR hrun e1
    have j3 := hL.solve_report (by rw [hopt]; exact hon) (by rw [hopt]; exact hden) hR hrun e1
    dsimp only at e
    by_cases hi : o1.s.infeasible = true
    · rw [if_pos hi] at e
      have hrv := told.1 hi
      obtain ⟨v1, k3, v3, v4, v5⟩ := j3 (Or.inl hrv)
      have ho1 : o1.s.options = opt := v3.trans hopt
      have hub : o1.s.unbounded ≠ true := fun hh => by
        rw [told.2 hh] at hrv; cases hrv
      split at e
      · rename_i hinf
        simp only [Res.ok.injEq, Prod.mk.injEq] at e
        rw [← e.1]
        exact ⟨fun hr => absurd hr (by simp), fun hr => absurd hr (by simp),
          fun _ => ⟨⟨fun _ => ⟨f, fb, hfb, hinf, by rw [k3.nV, k3.nC]; exact hw, by rw [k3.nV, k3.nC]; exact hwd, v1⟩, fun hh => absurd hh hub⟩, k3, ho1⟩,
          fun _ => hi, fun hr => absurd hr (by simp)⟩
      · rename_i hinf
        have hc := hcI hi hinf
        rw [Res.bind_eq_ok] at e
        obtain ⟨f', ef, e⟩ := e
        have hfb' : 0 < fb * o1.s.options.growFarBounds := mul_pos hfb (by rw [ho1]; exact hgrow)
        have hw' := updateFarBounds_within ef
        have hwd' := updateFarBounds_wide (by rw [k3.nV]; exact k3.pos) k3.params hfb'.le ef
        rw [k3.nV, k3.nC] at hw' hwd'
        refine ih _ _ _ _ _ _ o t ?_ ?_ hfb' hw' hwd' (hc f' ef) e
        · exact ho1
        · exact k3.frame o1.s.infeasible o1.s.unbounded o1.s.status o1.s.count (o1.s.rampOffset + 1) o1.s.now
    rw [if_neg hi] at e
    have hi : o1.s.infeasible = false := by simpa using hi
    split at e
    · rename_i hst
      obtain ⟨hrv, hc⟩ := hcS hi hst
      obtain ⟨k1, k2, k3⟩ := j1 hrv
      have ho1 : o1.s.options = opt := k2.options.trans hopt
      rw [Res.bind_eq_ok] at e
      obtain ⟨q, eq, e⟩ := e
      have hc := hc q eq
      have hq : q = fb := by
        rw [ho1] at eq
        unfold cdiv at eq
        rw [if_neg hgrow.ne', Res.ok.injEq] at eq
        rw [← eq, mul_div_assoc, div_self hgrow.ne', mul_one]
      have hub : o1.s.unbounded ≠ true := fun hh => by
        rw [told.2 hh] at hrv; cases hrv
      split at e
      · rename_i hz
        simp only [Res.ok.injEq, Prod.mk.injEq] at e
        rw [← e.1]
        refine ⟨fun _ => ⟨⟨f, by rw [k3.nV, k3.nC]; exact hw, nActiveFar_clear ?_ hz, k1, ?_, ?_⟩, k3, ho1⟩, fun _ => ⟨k3, ho1⟩, fun hh => ?_,
          fun hr => absurd (hrv.symm.trans hr) (by decide), fun hr => absurd (hrv.symm.trans hr) (by decide)⟩
        · rw [ho1, hq]
          exact mul_pos hfb htol
        · intro hh
          rw [k2.noLowerB]
          exact noLower_false (s := s.toQPB) (by rw [k2.nV] at hh; exact hh)
        · intro hh
          rw [k2.noUpperB]
          exact noUpper_false (s := s.toQPB) (by rw [k2.nV] at hh; exact hh)
        · rcases hh with hh | hh
          · rw [hi] at hh; cases hh
          · exact absurd hh hub
      · rename_i hz
        have hc := hc hz
        split at e
        · rename_i hinf
          simp only [Res.ok.injEq, Prod.mk.injEq] at e
          rw [← e.1]
          refine ⟨fun hr => absurd hr (by simp), fun hr => absurd hr (by simp), fun _ => ⟨⟨fun hh => ?_, fun _ => ?_⟩, ?_, ho1⟩,
            fun hr => absurd hr (by simp), fun _ => rfl⟩
          · exact absurd (hi.symm.trans hh) (by decide)
          · have hnear := nActiveFar_near hz
            rw [hq] at hnear
            exact ⟨f, fb, hfb, by rw [show ({ o1.s with status := QPS_HOMOTOPYQPSOLVED, unbounded := true } : QPC K).nV = n from k3.nV,
              show ({ o1.s with status := QPS_HOMOTOPYQPSOLVED, unbounded := true } : QPC K).nC = m from k3.nC]; exact hw,
              by rw [show ({ o1.s with status := QPS_HOMOTOPYQPSOLVED, unbounded := true } : QPC K).nV = n from k3.nV,
              show ({ o1.s with status := QPS_HOMOTOPYQPSOLVED, unbounded := true } : QPC K).nC = m from k3.nC]; exact hwd, Or.inr ⟨hinf, hnear⟩⟩
          · exact k3.frame o1.s.infeasible true QPS_HOMOTOPYQPSOLVED o1.s.count o1.s.rampOffset o1.s.now
        · rename_i hinf
          have hc := hc hinf
          rw [Res.bind_eq_ok] at e
          obtain ⟨f', ef, e⟩ := e
          have hfb' : 0 < fb * o1.s.options.growFarBounds := mul_pos hfb (by rw [ho1]; exact hgrow)
          have kf := k3.frame o1.s.infeasible o1.s.unbounded QPS_HOMOTOPYQPSOLVED o1.s.count o1.s.rampOffset o1.s.now
          have hw' := updateFarBounds_within ef
          have hwd' := updateFarBounds_wide (s := { o1.s with status := QPS_HOMOTOPYQPSOLVED }) (by
            rw [show ({ o1.s with status := QPS_HOMOTOPYQPSOLVED } : QPC K).nV = n from k3.nV]; exact k3.pos) kf.params hfb'.le ef
          rw [show ({ o1.s with status := QPS_HOMOTOPYQPSOLVED } : QPC K).nV = n from k3.nV,
            show ({ o1.s with status := QPS_HOMOTOPYQPSOLVED } : QPC K).nC = m from k3.nC] at hw' hwd'
          refine ih _ _ _ _ _ _ o t ?_ ?_ hfb' hw' hwd' (hc f' ef) e
          · exact ho1
          · exact k3.frame o1.s.infeasible o1.s.unbounded QPS_HOMOTOPYQPSOLVED o1.s.count (o1.s.rampOffset + 1) o1.s.now
    · rename_i hst
      simp only [Res.ok.injEq, Prod.mk.injEq] at e
      rw [← e.1]
      refine ⟨fun hr => absurd (j1 hr).1.status hst, fun hr => ⟨(j2 hr).2, (j2 hr).1.options.trans hopt⟩, fun hh => ?_,
        fun hr => (j3 (Or.inl hr)).2.2.2.1 hr, fun hr => (j3 (Or.inr hr)).2.2.2.2 hr⟩
      rcases hh with hh | hh
      · rw [hi] at hh; cases hh
      · obtain ⟨v1, k3, v3, v4, v5⟩ := j3 (Or.inr (told.2 hh))
        exact ⟨⟨fun h => absurd (hi.symm.trans h) (by decide),
          fun _ => ⟨f, fb, hfb, by rw [k3.nV, k3.nC]; exact hw, by rw [k3.nV, k3.nC]; exact hwd, Or.inl v1⟩⟩, k3, v3.trans hopt⟩

/-- The hypotheses on a run with far bounds -/
def FarRunClean (sq : K → K) (fuel : Nat) (s : QPC K) (gNew : Nat → K) (lbNew ubNew lbANew ubANew : Option (Nat → K)) (nWSR : Int)
    (cputime : Option K) : Prop :=
  ∀ f, updateFarBounds s (s.initialFar lbNew ubNew lbANew ubANew) lbNew ubNew lbANew ubANew ⟨fun _ => 0, fun _ => 0, fun _ => 0, fun _ => 0⟩ = .ok f →
    FarClean sq gNew lbNew ubNew lbANew ubANew nWSR cputime fuel s (s.initialFar lbNew ubNew lbANew ubANew) f 0 0 INFTY

/-- Options for far bounds: the parameters are positive. -/
structure FarOptions (o : Options K) : Prop where
  on : o.enableFarBounds = true
  initial : 0 < o.initialFarBounds
  grow : 0 < o.growFarBounds
  tol : 0 < o.boundTolerance
  den : 0 < o.epsDen

theorem runOn_far {sq : K → K} (fuel : Nat) {n m : Nat} {M A : Nat → Nat → K} {l0 u0 : Nat → K} {s : QPC K} (h : Live n m M A l0 u0 s)
    (hf : FarOptions s.options) {gNew : Nat → K} {lbNew ubNew lbANew ubANew : Option (Nat → K)} {nWSR : Int} {cputime : Option K} {aux : K}
    (hc : FarRunClean sq fuel s gNew lbNew ubNew lbANew ubANew nWSR cputime) {o : OutC K}
    (e : runOn sq fuel s gNew lbNew ubNew lbANew ubANew nWSR cputime aux = .ok o) :
    FarEnd n m M A l0 u0 s.options gNew lbNew ubNew lbANew ubANew o := by
  unfold runOn at e
  rw [if_neg (by rw [hf.on]; decide), Res.bind_eq_ok] at e
  obtain ⟨f, ef, e⟩ := e
  rw [Res.bind_eq_ok] at e
  obtain ⟨⟨o1, t⟩, e1, e⟩ := e
  simp only [Res.ok.injEq] at e
  have hpos := hf.initial.trans_le (initialFar_ge s lbNew ubNew lbANew ubANew)
  have hw := updateFarBounds_within ef
  have hwd := updateFarBounds_wide (by rw [h.nV]; exact h.pos) h.params hpos.le ef
  rw [h.nV, h.nC] at hw hwd
  have := farLoop_spec s.options hf.on hf.grow hf.tol hf.den fuel s _ f 0 0 INFTY o1 t rfl h hpos hw hwd (hc f ef) e1
  rw [← e]
  exact ⟨this.solved, this.stopped, this.reported, this.infeasible, this.unbounded⟩

theorem Live.hotstart_far {sq : K → K} (fuel : Nat) {n m : Nat} {M A : Nat → Nat → K} {l0 u0 : Nat → K} {s : QPC K} (h : Live n m M A l0 u0 s)
    (hf : FarOptions s.options) {g : Nat → K} {lbNew ubNew lbANew ubANew : Option (Nat → K)} {nWSR : Int} {cputime : Option K}
    (hbox : ∀ i < n, lowerOf lbNew i ≤ upperOf ubNew i) (hboxA : ∀ k < m, lowerOf lbANew k ≤ upperOf ubANew k)
    (hc : FarRunClean sq fuel { s with count := s.count + 1 } g lbNew ubNew lbANew ubANew nWSR cputime) {o : OutC K}
    (e : QPC.hotstart sq fuel s g lbNew ubNew lbANew ubANew nWSR cputime .null .null = .ok o) :
    FarEnd n m M A l0 u0 s.options g lbNew ubNew lbANew ubANew o := by
  unfold QPC.hotstart at e
  rw [if_neg (by rw [h.nV]; exact h.pos)] at e
  dsimp only at e
  unfold hotstartMain at e
  rw [if_neg (by rw [consistent_of_target (s := s) (by rw [h.nV]; exact hbox) (by rw [h.nC]; exact hboxA)]; decide)] at e
  dsimp only at e
  rw [if_neg (by rw [h.chol]; decide), Res.bind_ok] at e
  dsimp only at e
  rw [if_neg (by simp)] at e
  exact runOn_far (s := { s with count := s.count + 1 }) fuel (h.frame s.infeasible s.unbounded s.status (s.count + 1) s.rampOffset s.now) hf hc e

theorem init_far {sq : K → K} (fuel : Nat) {s : QPC K} (h : Usable s) (hf : FarOptions s.options) {H : Option (Nat → K)} {g A : Nat → K}
    {lb ub lbA ubA : Option (Nat → K)} (ha : Admissible s (lowerOf lb) (upperOf ub) (lowerOf lbA) (upperOf ubA)) {M : Nat → Nat → K}
    (hM : GivenHessian (s.coldData H g A lb ub lbA ubA).toQPB M) (hsym : QP.Symmetric s.nV M) (hst : (s.coldData H g A lb ub lbA ubA).SymH)
    {nWSR : Int} {cputime : Option K} {xOpt yOpt : Option (Nat → K)} {gB gC : Option WS}
    (hc : StartClean sq (s.coldData H g A lb ub lbA ubA) xOpt yOpt gB gC nWSR cputime)
    (hr : ∀ s2 c, StartsAt sq (s.coldData H g A lb ub lbA ubA) xOpt yOpt gB gC nWSR cputime s2 c →
      FarRunClean sq fuel s2 g (some (lowerOf lb)) (some (upperOf ub)) (some (s.coldData H g A lb ub lbA ubA).lbA)
        (some (s.coldData H g A lb ub lbA ubA).ubA) nWSR c) {o : OutC K}
    (e : init sq fuel s H (some g) (some A) lb ub lbA ubA nWSR cputime xOpt yOpt gB gC none = .ok o)
    (hrv : o.rv = SUCCESSFUL_RETURN ∨ o.rv = RET_MAX_NWSR_REACHED) :
    (o.rv = SUCCESSFUL_RETURN → FarSolved o.s g (some (lowerOf lb)) (some (upperOf ub)) (some (s.coldData H g A lb ub lbA ubA).lbA)
      (some (s.coldData H g A lb ub lbA ubA).ubA)) ∧
    Live s.nV s.nC M (fun k j => A (k * s.nV + j)) (lowerOf lbA) (upperOf ubA) o.s ∧ o.s.options = s.options := by
  rcases init_cases sq fuel (s := s) H g A lb ub lbA ubA nWSR cputime xOpt yOpt gB gC with ⟨o', e', h1, h2⟩ | e'
  · rw [e] at e'
    simp only [Res.ok.injEq] at e'
    subst e'
    exact absurd hrv (by rw [not_or]; exact ⟨h1, h2⟩)
  · rw [e'] at e
    have c := h.cold H g A lb ub lbA ubA
    obtain ⟨s2, cp, o1, k, a1, a2, a3, a4, a5⟩ := solveInitialQP_cases fuel (h.coldOK ha hM hsym hst) hc e hrv
    rw [c.g, c.lb, c.ub] at a3
    have hl := Live.of_init h ha hM hsym hst a2.good a2.problem
    have eo : s2.options = s.options := a2.problem.options.trans c.options
    obtain ⟨b1, b2, -⟩ := runOn_far fuel hl (by rw [eo]; exact hf) (hr s2 cp a1) a3
    have eN : o.s.nV = o1.s.nV ∧ o.s.nC = o1.s.nC := by rw [a5]; exact ⟨rfl, rfl⟩
    have key : Live s.nV s.nC M (fun k j => A (k * s.nV + j)) (lowerOf lbA) (upperOf ubA) o1.s ∧ o1.s.options = s.options := by
      rcases hrv with hrv | hrv
      · exact ⟨(b1 (a4.symm.trans hrv)).2.1, (b1 (a4.symm.trans hrv)).2.2.trans eo⟩
      · exact ⟨(b2 (a4.symm.trans hrv)).1, (b2 (a4.symm.trans hrv)).2.trans eo⟩
    refine ⟨fun hs => ?_, ?_, by rw [a5]; exact key.2⟩
    · obtain ⟨f, f1, f2, f3, f4, f5⟩ := (b1 (a4.symm.trans hs)).1
      rw [a5]
      exact ⟨f, f1, ⟨f2.lower, f2.upper, f2.lowerA, f2.upperA⟩,
        ⟨f3.good.frame o1.s.tau o1.s.infeasible o1.s.unbounded o1.s.status o1.s.count o1.s.rampOffset k o1.s.haveCholesky rfl, f3.status, f3.length, f3.full⟩,
        f4, f5⟩
    · rw [a5]
      exact key.1.frame o1.s.infeasible o1.s.unbounded o1.s.status o1.s.count o1.s.rampOffset k

theorem init_far_report {sq : K → K} (fuel : Nat) {s : QPC K} (h : Usable s) (hf : FarOptions s.options) {H : Option (Nat → K)} {g A : Nat → K}
    {lb ub lbA ubA : Option (Nat → K)} (ha : Admissible s (lowerOf lb) (upperOf ub) (lowerOf lbA) (upperOf ubA)) {M : Nat → Nat → K}
    (hM : GivenHessian (s.coldData H g A lb ub lbA ubA).toQPB M) (hsym : QP.Symmetric s.nV M) (hst : (s.coldData H g A lb ub lbA ubA).SymH)
    {nWSR : Int} {cputime : Option K} {xOpt yOpt : Option (Nat → K)} {gB gC : Option WS}
    (hc : StartClean sq (s.coldData H g A lb ub lbA ubA) xOpt yOpt gB gC nWSR cputime)
    (hr : ∀ s2 c, StartsAt sq (s.coldData H g A lb ub lbA ubA) xOpt yOpt gB gC nWSR cputime s2 c →
      FarRunClean sq fuel s2 g (some (lowerOf lb)) (some (upperOf ub)) (some (s.coldData H g A lb ub lbA ubA).lbA)
        (some (s.coldData H g A lb ub lbA ubA).ubA) nWSR c) {o : OutC K}
    (e : init sq fuel s H (some g) (some A) lb ub lbA ubA nWSR cputime xOpt yOpt gB gC none = .ok o)
    (hrv : o.rv = RET_INIT_FAILED_INFEASIBILITY ∨ o.rv = RET_INIT_FAILED_UNBOUNDEDNESS) :
    FarReport o.s g (some (lowerOf lb)) (some (upperOf ub)) (some (s.coldData H g A lb ub lbA ubA).lbA) (some (s.coldData H g A lb ub lbA ubA).ubA) ∧
    Live s.nV s.nC M (fun k j => A (k * s.nV + j)) (lowerOf lbA) (upperOf ubA) o.s ∧ o.s.options = s.options ∧
      (o.rv = RET_INIT_FAILED_INFEASIBILITY → o.s.infeasible = true) ∧ (o.rv = RET_INIT_FAILED_UNBOUNDEDNESS → o.s.unbounded = true) := by
  rw [init_reported fuel e hrv] at e
  have c := h.cold H g A lb ub lbA ubA
  obtain ⟨s2, cp, o1, a1, a2, -, a3, a4, a5, a6⟩ := solveInitialQP_launched fuel (h.coldOK ha hM hsym hst) (h.flags H g A lb ub lbA ubA) hc e hrv
  rw [c.g, c.lb, c.ub] at a3
  have hl := Live.of_init h ha hM hsym hst a2.good a2.problem
  have eo : s2.options = s.options := a2.problem.options.trans c.options
  have b := runOn_far fuel hl (by rw [eo]; exact hf) (hr s2 cp a1) a3
  obtain ⟨b1, b2, b3⟩ := b.reported (by
    rcases hrv with hh | hh
    · exact Or.inl (a5 hh)
    · exact Or.inr (a6 hh))
  rw [a4]
  exact ⟨b1, b2, b3.trans eo, a5, a6⟩

/-- The optimality conditions for the limits given, after a full step -/
theorem FarSolved.optimal {n m : Nat} {M A : Nat → Nat → K} {l0 u0 : Nat → K} {s : QPC K} {g : Nat → K} {lbNew ubNew lbANew ubANew : Option (Nat → K)}
    (hs : FarSolved s g lbNew ubNew lbANew ubANew) (h : Live n m M A l0 u0 s) (hon : s.options.enableFarBounds = true)
    (hnl : (∀ k < m, l0 k ≤ -INFTY) → ∀ k < m, lowerOf lbANew k ≤ -INFTY)
    (hnu : (∀ k < m, INFTY ≤ u0 k) → ∀ k < m, INFTY ≤ upperOf ubANew k) (ht : s.tau = 1) :
    Optimal (qp n m s.Heff g (lowerOf lbNew) (upperOf ubNew) A (lowerOf lbANew) (upperOf ubANew))
      (qp n m M g (lowerOf lbNew) (upperOf ubNew) A (lowerOf lbANew) (upperOf ubANew)) s.x s.y := by
  obtain ⟨f, hw, hcl, hsol, hl, hu⟩ := hs
  obtain ⟨f1, f2, f3, f4, f5⟩ := hsol.full ht
  have hty : ∀ k < m, s.cons.type k ≠ ST_UNBOUNDED := fun k hk e => by
    have := (h.unbounded k hk e).2
    rw [hon] at this
    cases this
  have hax : ∀ k < m, s.Ax k = QP.row n A s.x k := fun k hk => by
    rw [(h.good.ax k (by rw [h.nC]; exact hk) (hty k hk)).1, ← row_eq (h.mat k hk), h.nV]
  have hnV := h.nV
  have hnC := h.nC
  rw [hnV, hnC] at hw
  rw [hnV] at hl hu
  have key := h.optimal_of (gR := g) (l := lowerOf lbNew) (u := upperOf ubNew) (lA := lowerOf lbANew) (uA := upperOf ubANew) (lA' := f.lbA) (uA' := f.ubA)
    (fun k _ => by rw [f4]; rfl) (fun k _ => by rw [f5]; rfl)
    (fun ⟨i, hi, hh⟩ => hl ⟨i, hi, by
      cases lbNew with
      | none => exact absurd hh (lt_irrefl _)
      | some l => exact lt_of_lt_of_le hh (hw.lower l rfl i hi)⟩)
    (fun ⟨i, hi, hh⟩ => hu ⟨i, hi, by
      cases ubNew with
      | none => exact absurd hh (lt_irrefl _)
      | some l => exact lt_of_le_of_lt (hw.upper l rfl i hi) hh⟩)
    (fun k hk _ => hty k hk)
    (fun ⟨k, hk, hh⟩ => by
      by_contra hc
      exact absurd hh (not_lt.2 (hnl (h.noLower (by simpa using hc)) k hk)))
    (fun ⟨k, hk, hh⟩ => by
      by_contra hc
      exact absurd hh (not_lt.2 (hnu (h.noUpper (by simpa using hc)) k hk)))
  rw [f1, f2, f3] at key
  refine optimal_clear (f := f) key hw (fun i hi => hcl.lower i (by rw [hnV]; exact hi)) (fun i hi => hcl.upper i (by rw [hnV]; exact hi))
    (fun k hk => ?_) (fun k hk => ?_)
  · rw [← hax k hk]; exact hcl.lowerA k (by rw [hnC]; exact hk)
  · rw [← hax k hk]; exact hcl.upperA k (by rw [hnC]; exact hk)

/-! ### deciding the hypotheses -/
section
variable (sq : K → K)

/-- The conditions on a variable with which a round may begin -/
def RoundAt (s : QPC K) (f : Far K) (i : Nat) : Prop :=
  f.lb i ≤ f.ub i ∧ (s.lb i ≤ s.x i ∧ s.x i ≤ s.ub i) ∧
  (s.toQPB.typeOf (some f.lb) (some f.ub) i = ST_EQUALITY → s.bounds.status i ≠ ST_INACTIVE ∧ s.lb i = s.ub i ∧ f.lb i = f.ub i) ∧
  (s.toQPB.typeOf (some f.lb) (some f.ub) i ≠ ST_EQUALITY → s.bounds.type i = ST_EQUALITY →
    (s.bounds.status i = ST_LOWER → 0 ≤ s.y i) ∧ (s.bounds.status i = ST_UPPER → s.y i ≤ 0))

instance (s : QPC K) (f : Far K) (i : Nat) : Decidable (RoundAt s f i) := by unfold RoundAt; infer_instance

theorem farRound_iff (s : QPC K) (f : Far K) : FarRound s f ↔
    (∀ i < s.nV, RoundAt s f i) ∧ (∀ k < s.nC, f.lbA k ≤ f.ubA k ∧ (s.cons.type k = ST_EQUALITY → f.lbA k = f.ubA k)) :=
  ⟨fun h => ⟨fun i hi => ⟨h.box i hi, h.point i hi, h.eqNow i hi, h.eqBefore i hi⟩, fun k hk => ⟨h.boxA k hk, h.eqA k hk⟩⟩,
    fun ⟨a, b⟩ => ⟨fun i hi => (a i hi).1, fun k hk => (b k hk).1, fun i hi => (a i hi).2.1, fun i hi => (a i hi).2.2.1, fun i hi => (a i hi).2.2.2,
      fun k hk => (b k hk).2⟩⟩

instance (s : QPC K) (f : Far K) : Decidable (FarRound s f) := decidable_of_iff' _ (farRound_iff s f)

instance (o : OutC K) : Decidable (Told o) := by unfold Told; infer_instance

instance decFarClean (gNew : Nat → K) (lbNew ubNew lbANew ubANew : Option (Nat → K)) (nWSR : Int) (cputime : Option K) :
    (fuel : Nat) → (s : QPC K) → (farbound : K) → (f : Far K) → (performed : Int) → (needed remaining : K) →
    Decidable (FarClean sq gNew lbNew ubNew lbANew ubANew nWSR cputime fuel s farbound f performed needed remaining)
  | 0, _, _, _, _, _, _ => by unfold FarClean; infer_instance
  | fuel+1, s, farbound, f, performed, needed, remaining => by
    have := decFarClean gNew lbNew ubNew lbANew ubANew nWSR cputime fuel
    unfold FarClean
    infer_instance

instance (fuel : Nat) (s : QPC K) (gNew : Nat → K) (lbNew ubNew lbANew ubANew : Option (Nat → K)) (nWSR : Int) (cputime : Option K) :
    Decidable (FarRunClean sq fuel s gNew lbNew ubNew lbANew ubANew nWSR cputime) := by unfold FarRunClean; infer_instance

theorem startClean_iff (s : QPC K) (xOpt yOpt : Option (Nat → K)) (gB gC : Option WS) (nWSR : Int) (cputime : Option K) :
    StartClean sq s xOpt yOpt gB gC nWSR cputime ↔
    AuxClean sq (coldStart { s with toQPB := (s.toQPB.startClock cputime).2 } xOpt yOpt) xOpt yOpt gB gC ∧
    ∀ s', prepareInitialQP sq { s with toQPB := (s.toQPB.startClock cputime).2 } xOpt yOpt gB gC none nWSR cputime = .ok (.ok s') →
      FirstChol sq { s' with toQPB := { (s'.toQPB.stopClock cputime (s.toQPB.startClock cputime).1).2 with
        count := (s'.toQPB.stopClock cputime (s.toQPB.startClock cputime).1).2.count + 1 } } :=
  ⟨fun h => ⟨h.aux, h.chol⟩, fun ⟨a, b⟩ => ⟨a, b⟩⟩

instance (s : QPC K) (xOpt yOpt : Option (Nat → K)) (gB gC : Option WS) (nWSR : Int) (cputime : Option K) :
    Decidable (StartClean sq s xOpt yOpt gB gC nWSR cputime) := decidable_of_iff' _ (startClean_iff sq s xOpt yOpt gB gC nWSR cputime)

/-- The hypotheses on the run of a cold start, in a form that can be evaluated -/
theorem startsAt_all (s : QPC K) (xOpt yOpt : Option (Nat → K)) (gB gC : Option WS) (nWSR : Int) (cputime : Option K)
    {P : QPC K → Option K → Prop} (h : ∀ s', prepareInitialQP sq { s with toQPB := (s.toQPB.startClock cputime).2 } xOpt yOpt gB gC none nWSR cputime = .ok (.ok s') →
      ∀ s2, setupInitialCholesky sq { s' with toQPB := { (s'.toQPB.stopClock cputime (s.toQPB.startClock cputime).1).2 with
        count := (s'.toQPB.stopClock cputime (s.toQPB.startClock cputime).1).2.count + 1 } } = .ok (SUCCESSFUL_RETURN, s2) →
      P s2 (cputime.map fun c => c - (s'.toQPB.stopClock cputime (s.toQPB.startClock cputime).1).1.getD 0)) :
    ∀ s2 c, StartsAt sq s xOpt yOpt gB gC nWSR cputime s2 c → P s2 c := by
  rintro s2 c ⟨s', e1, e2, rfl⟩
  exact h s' e1 s2 e2

end

end QPC
end QpOASES
