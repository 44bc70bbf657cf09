import Verif.Proofs.QPBOutcome
import Mathlib.Algebra.Order.Archimedean.Basic
import Mathlib.Tactic.Linarith

/-!
Far bounds of `QProblemB`: their values, and termination of the loop enlarging them.
-/
namespace QpOASES
namespace QPB
open ReturnValue SubjectToStatus SubjectToType HessianType QProblemStatus

set_option linter.unusedSectionVars false

variable {K : Type} [Field K] [LinearOrder K] [IsStrictOrderedRing K]

/-! ### Values -/

theorem rampVal_between (s : QPB K) (i : Nat) {n : Nat} (h : 2 ≤ n) : ∃ t v : K, 0 ≤ t ∧ t ≤ 1 ∧ s.rampVal i n = .ok v ∧
    v = (1 - t) * s.ramp0 + t * s.ramp1 := by
  unfold rampVal
  have h2 : (2 : K) ≤ (n : K) := by exact_mod_cast h
  have e : (((n : Int) - 1 : Int) : K) = (n : K) - 1 := by push_cast; rfl
  have hpos : (0 : K) < (n : K) - 1 := by linarith
  rw [e]
  unfold cdiv
  rw [if_neg hpos.ne']
  refine ⟨_, _, div_nonneg (Nat.cast_nonneg _) hpos.le, ?_, rfl, rfl⟩
  rw [div_le_one hpos]
  have hm : (i + s.rampOffset) % n ≤ n - 1 := by
    have := Nat.mod_lt (i + s.rampOffset) (by omega : n > 0)
    omega
  have : (((i + s.rampOffset) % n : Nat) : K) ≤ ((n - 1 : Nat) : K) := by exact_mod_cast hm
  rwa [Nat.cast_sub (by omega), Nat.cast_one] at this

/-- The factor by which a far bound is enlarged by ramping. -/
def FarFactor (s : QPB K) (f : K) : Prop :=
  if s.options.enableRamping = true then ∃ t : K, 0 ≤ t ∧ t ≤ 1 ∧ f = 1 + ((1 - t) * s.ramp0 + t * s.ramp1) else f = 1

theorem farVal_spec (s : QPB K) (cur : K) (i : Nat) {n : Nat} (h : s.options.enableRamping = true → 2 ≤ n) :
    ∃ f, FarFactor s f ∧ s.farVal cur n i = .ok (cur * f) := by
  unfold farVal FarFactor
  split
  · rename_i hr
    obtain ⟨t, v, h0, h1, e, rfl⟩ := rampVal_between s i (h hr)
    rw [e]
    exact ⟨_, ⟨t, h0, h1, rfl⟩, rfl⟩
  · exact ⟨1, rfl, by rw [mul_one]⟩

/-- A far lower limit and a far upper limit for given limits. -/
def farLower (v : K) (lbNew : Option (Nat → K)) (i : Nat) : K := match lbNew with | none => -v | some l => max (-v) (l i)
def farUpper (v : K) (ubNew : Option (Nat → K)) (i : Nat) : K := match ubNew with | none => v | some u => min v (u i)

theorem getMax_eq (a b : K) : getMax a b = max a b := by
  unfold getMax
  split
  · rw [max_eq_left (le_of_lt ‹_›)]
  · rw [max_eq_right (not_lt.1 ‹_›)]

theorem getMin_eq (a b : K) : getMin a b = min a b := by
  unfold getMin
  split
  · rw [min_eq_left (le_of_lt ‹_›)]
  · rw [min_eq_right (not_lt.1 ‹_›)]

theorem updateFarBounds_succ {s : QPB K} {cur v : K} {n : Nat} {lbNew ubNew : Option (Nat → K)} {m i : Nat} {lf uf : Nat → K}
    (e : s.farVal cur n i = .ok v) : updateFarBounds s cur n lbNew ubNew (m+1) i lf uf =
      updateFarBounds s cur n lbNew ubNew m (i+1) (updA lf i (farLower v lbNew i)) (updA uf i (farUpper v ubNew i)) := by
  rw [updateFarBounds, e]
  cases lbNew <;> cases ubNew <;> simp only [Res.bind_ok, farLower, farUpper, getMax_eq, getMin_eq]

theorem updateFarBounds_spec (s : QPB K) (cur : K) {n : Nat} (hn : s.options.enableRamping = true → 2 ≤ n)
    (lbNew ubNew : Option (Nat → K)) : ∀ (m i : Nat) (lf uf : Nat → K), ∃ lf' uf',
      updateFarBounds s cur n lbNew ubNew m i lf uf = .ok (lf', uf') ∧
      (∀ j, j < i → lf' j = lf j ∧ uf' j = uf j) ∧
      ∀ j, i ≤ j → j < i + m → ∃ f, FarFactor s f ∧ lf' j = farLower (cur * f) lbNew j ∧ uf' j = farUpper (cur * f) ubNew j := by
  intro m
  induction m with
  | zero =>
    intro i lf uf
    exact ⟨lf, uf, rfl, fun _ _ => ⟨rfl, rfl⟩, fun j h1 h2 => by omega⟩
  | succ m ih =>
    intro i lf uf
    obtain ⟨f, hf, e⟩ := farVal_spec s cur i hn
    rw [updateFarBounds_succ e]
    obtain ⟨lf', uf', e', h1, h2⟩ := ih (i+1) (updA lf i (farLower (cur * f) lbNew i)) (updA uf i (farUpper (cur * f) ubNew i))
    refine ⟨lf', uf', e', fun j hj => ?_, fun j hj hj' => ?_⟩
    · obtain ⟨a, b⟩ := h1 j (by omega)
      rw [a, b, updA_ne _ _ (by omega), updA_ne _ _ (by omega)]
      exact ⟨rfl, rfl⟩
    · by_cases hij : j = i
      · subst hij
        obtain ⟨a, b⟩ := h1 j (by omega)
        rw [a, b, updA_same, updA_same]
        exact ⟨f, hf, rfl, rfl⟩
      · exact h2 j (by omega) (by omega)

theorem loop_raise (p : Nat → Prop) [DecidablePred p] (v : Nat → K) (n : Nat) (f : K) :
    f ≤ loop (fun i f => if p i ∧ v i > f then v i else f) n f ∧
    (∀ i < n, p i → v i ≤ loop (fun i f => if p i ∧ v i > f then v i else f) n f) ∧
    (loop (fun i f => if p i ∧ v i > f then v i else f) n f = f ∨
      ∃ i < n, p i ∧ loop (fun i f => if p i ∧ v i > f then v i else f) n f = v i) := by
  induction n with
  | zero => exact ⟨le_refl _, fun i h => absurd h (by omega), Or.inl rfl⟩
  | succ n ih =>
    obtain ⟨a, b, c⟩ := ih
    rw [show ∀ F : Nat → K → K, loop F (n+1) f = F n (loop F n f) from fun _ => rfl]
    split
    · rename_i h
      refine ⟨a.trans h.2.le, fun i hi hp => ?_, Or.inr ⟨n, by omega, h.1, rfl⟩⟩
      by_cases e : i = n
      · subst e; exact le_refl _
      · exact (b i (by omega) hp).trans h.2.le
    · rename_i h
      refine ⟨a, fun i hi hp => ?_, ?_⟩
      · by_cases e : i = n
        · subst e
          exact not_lt.1 fun hlt => h ⟨hp, hlt⟩
        · exact b i (by omega) hp
      · rcases c with c | ⟨i, hi, c⟩
        · exact Or.inl c
        · exact Or.inr ⟨i, by omega, c⟩

theorem initialFar_spec (s : QPB K) (lbNew ubNew : Option (Nat → K)) :
    s.options.initialFarBounds ≤ s.initialFar lbNew ubNew ∧
    (∀ u, ubNew = some u → ∀ i < s.nV, u i < INFTY → u i ≤ s.initialFar lbNew ubNew) ∧
    (∀ l, lbNew = some l → ∀ i < s.nV, -INFTY < l i → -(s.initialFar lbNew ubNew) ≤ l i) ∧
    (s.options.initialFarBounds < INFTY → s.initialFar lbNew ubNew < INFTY) := by
  have up : ∃ f1, s.options.initialFarBounds ≤ f1 ∧ (∀ u, ubNew = some u → ∀ i < s.nV, u i < INFTY → u i ≤ f1) ∧
      (s.options.initialFarBounds < INFTY → f1 < INFTY) ∧
      s.initialFar lbNew ubNew = (match lbNew with
        | some l => loop (fun i f => if l i > -INFTY ∧ l i < -f then -(l i) else f) s.nV f1
        | none => f1) := by
    cases ubNew with
    | none => exact ⟨_, le_refl _, fun u h => (by cases h), id, rfl⟩
    | some u =>
      obtain ⟨a, b, c⟩ := loop_raise (fun i => u i < INFTY) u s.nV s.options.initialFarBounds
      refine ⟨_, a, fun u' h => ?_, fun h => ?_, rfl⟩
      · cases h; exact b
      · rcases c with c | ⟨i, _, hp, c⟩
        · rw [c]; exact h
        · rw [c]; exact hp
  obtain ⟨f1, h1, h2, h3, e⟩ := up
  rw [e]
  cases lbNew with
  | none => exact ⟨h1, h2, fun l h => (by cases h), h3⟩
  | some l =>
    obtain ⟨a, b, c⟩ := loop_raise (fun i => l i > -INFTY) (fun i => -l i) s.nV f1
    have eq : (fun (i : Nat) (f : K) => if l i > -INFTY ∧ l i < -f then -l i else f) = fun i f => if l i > -INFTY ∧ -l i > f then -l i else f := by
      funext i f
      have : (l i < -f) = (-l i > f) := propext (by constructor <;> intro h <;> linarith)
      simp only [this]
    dsimp only
    rw [eq]
    refine ⟨h1.trans a, fun u hu i hi hf => (h2 u hu i hi hf).trans a, fun l' hl i hi hf => ?_, fun h => ?_⟩
    · cases hl
      have := b i hi hf
      linarith
    · rcases c with c | ⟨i, _, hp, c⟩
      · rw [c]; exact h3 h
      · rw [c]
        have hp : -INFTY < l i := hp
        show -l i < INFTY
        linarith

/-! ### Termination -/

/-- The execution does not fail to terminate. -/
def NoDiv {α : Type} (r : Res α) : Prop := r ≠ .ub .diverge

theorem NoDiv.ok {α : Type} (a : α) : NoDiv (Res.ok a) := fun h => by cases h

theorem NoDiv.pure {α : Type} (a : α) : NoDiv (Pure.pure a : Res α) := NoDiv.ok a

theorem NoDiv.bind {α β : Type} {r : Res α} {f : α → Res β} (h : NoDiv r) (h' : ∀ a, NoDiv (f a)) : NoDiv (r >>= f) := by
  cases r with
  | ok a => exact h' a
  | ub e => intro e'; rw [Res.bind_ub] at e'; cases e'; exact h rfl

theorem NoDiv.bind' {α β : Type} {r : Res α} {f : α → Res β} (h : NoDiv r) (h' : ∀ a, r = .ok a → NoDiv (f a)) : NoDiv (r >>= f) := by
  cases r with
  | ok a => exact h' a rfl
  | ub e => intro e'; rw [Res.bind_ub] at e'; cases e'; exact h rfl

theorem NoDiv.getH (s : QPB K) : NoDiv s.getH := by
  unfold QPB.getH
  split
  · exact .ok _
  · intro h; cases h

theorem NoDiv.cdiv (a b : K) : NoDiv (cdiv a b) := by
  unfold QpOASES.cdiv
  split
  · intro h; cases h
  · exact .ok _

theorem backsolveR_noDiv (R : Nat → Nat → K) (n : Nat) (b : Option (Nat → K)) (t : Bool) (a : Nat → K) : NoDiv (backsolveR R n b t a) := by
  have hd : ∀ x y : K, NoDiv (divR x y) := by
    intro x y
    unfold divR
    split
    · exact .bind (.cdiv _ _) fun _ => .pure _
    · exact .ok _
  have h1 : ∀ m i a, NoDiv (backsolveRT R b m i a) := by
    intro m
    induction m with
    | zero => intro i a; exact .ok _
    | succ m ih =>
      intro i a
      refine .bind (hd _ _) fun q => ?_
      cases q with
      | none => exact .ok _
      | some q => exact ih _ _
  have h2 : ∀ m a, NoDiv (backsolveRN R n b m a) := by
    intro m
    induction m with
    | zero => intro a; exact .ok _
    | succ m ih =>
      intro a
      refine .bind (hd _ _) fun q => ?_
      cases q with
      | none => exact .ok _
      | some q => exact ih _
  unfold backsolveR
  split
  · exact h1 _ _ _
  · exact h2 _ _

theorem computeCholesky_noDiv (sq : K → K) (s : QPB K) : NoDiv (computeCholesky sq s) := by
  have inner : ∀ s : QPB K, NoDiv (do
      let H ← s.getH
      let R0 : Nat → Nat → K := fun i j => if i < s.bounds.nFR ∧ j < s.bounds.nFR then H (s.bounds.fr i) (s.bounds.fr j) else 0
      let p := potrf sq s.bounds.nFR (fun q => R0 (q % s.nV) (q / s.nV)) s.nV
      let R1 : Nat → Nat → K := fun i j => p.2 (i + s.nV * j)
      let s := { s with R := R1 }
      if p.1 > 0 then
        let s := if R1 0 0 < 0 then
            { s with options := { s.options with
              epsRegularisation := getMin (-(R1 0 0) + s.options.epsRegularisation) (sq (getAbs s.options.epsRegularisation)) } }
          else s
        Res.ok (RET_HESSIAN_NOT_SPD, { s with hessianType := HST_SEMIDEF })
      else
        .ok (SUCCESSFUL_RETURN, { s with R := fun i j => if i = j + 1 ∧ j + 1 < s.bounds.nFR then 0 else R1 i j })) := by
    intro s
    refine .bind (.getH _) fun H => ?_
    dsimp only
    split
    · exact .ok _
    · exact .ok _
  unfold computeCholesky
  dsimp only
  split
  · split <;> exact .ok _
  · exact .ok _
  · split
    · exact inner { s with R := fun _ _ => 0 }
    · exact .ok _

theorem regulariseHessian_noDiv (sq : K → K) (s : QPB K) : NoDiv (regulariseHessian sq s) := by
  unfold regulariseHessian
  split
  · exact .ok _
  · split
    · exact .ok _
    · split
      · exact .ok _
      · split
        · exact .ok _
        · exact .bind (.getH _) fun H => .ok _

theorem setupInitialCholesky_noDiv (sq : K → K) (s : QPB K) : NoDiv (setupInitialCholesky sq s) := by
  have h1 := regulariseHessian_noDiv sq
  have h2 := computeCholesky_noDiv sq
  have rest : ∀ (r1 : ReturnValue) (s1 : QPB K), NoDiv
      (if r1 ≠ SUCCESSFUL_RETURN then Res.ok (RET_INIT_FAILED_REGULARISATION, s1) else do
        let (r, s) ← computeCholesky sq s1
        if r = RET_HESSIAN_NOT_SPD then do
          let (r, s) ← regulariseHessian sq s
          if r ≠ SUCCESSFUL_RETURN then .ok (RET_INIT_FAILED_REGULARISATION, s) else do
          let (r, s) ← computeCholesky sq s
          if r ≠ SUCCESSFUL_RETURN then .ok (RET_INIT_FAILED_CHOLESKY, s)
          else .ok (SUCCESSFUL_RETURN, { s with haveCholesky := true })
        else if r ≠ SUCCESSFUL_RETURN then .ok (RET_INIT_FAILED_CHOLESKY, s)
        else .ok (SUCCESSFUL_RETURN, { s with haveCholesky := true })) := by
    intro r1 s1
    split
    · exact .ok _
    · refine .bind (h2 _) fun ⟨r, s⟩ => ?_
      dsimp only
      split
      · refine .bind (h1 _) fun ⟨r, s⟩ => ?_
        dsimp only
        split
        · exact .ok _
        · refine .bind (h2 _) fun ⟨r, s⟩ => ?_
          dsimp only
          split <;> exact .ok _
      · split <;> exact .ok _
  unfold setupInitialCholesky
  dsimp only
  split
  · exact .bind (h1 _) fun a => rest a.1 a.2
  · exact rest SUCCESSFUL_RETURN s

theorem setupAuxiliaryQPgradient_noDiv (s : QPB K) : NoDiv (setupAuxiliaryQPgradient s) := by
  unfold setupAuxiliaryQPgradient
  split
  · exact .ok _
  · exact .ok _
  · exact .bind (.getH _) fun H => .ok _

theorem removeBound_noDiv (sq : K → K) (s : QPB K) (k : Nat) (u : Bool) : NoDiv (removeBound sq s k u) := by
  unfold removeBound
  split
  · exact .ok _
  · dsimp only
    generalize (if s.options.enableFlippingBounds = true then ({ s with flip := some (s.bounds, s.R) } : QPB K) else s) = s0
    split
    · exact .ok _
    · split
      · refine .bind (.getH _) fun H => .bind (backsolveR_noDiv _ _ _ _ _) fun a => ?_
        try dsimp only
        split
        · exact .ok _
        · split
          · split <;> exact .ok _
          · split <;> exact .ok _
      · split <;> exact .ok _

theorem changeActiveSet_noDiv (sq : K → K) (s : QPB K) (bc : Option (Nat × SubjectToStatus)) : NoDiv (changeActiveSet sq s bc) := by
  unfold changeActiveSet
  split
  · exact .ok _
  · refine .bind (removeBound_noDiv _ _ _ _) fun a => ?_
    try dsimp only
    split <;> exact .ok _
  · exact .ok _

theorem refine_noDiv (s : QPB K) (H : Nat → Nat → K) (dg : Nat → K) (z : Bool) (dx : Nat → K) :
    ∀ m f r d, NoDiv (refine s H dg z dx m f r d) := by
  intro m
  induction m with
  | zero => intro f r d; exact .ok _
  | succ m ih =>
    intro f r d
    refine .bind (backsolveR_noDiv _ _ _ _ _) fun a => ?_
    try dsimp only
    split
    · exact .ok _
    · refine .bind (backsolveR_noDiv _ _ _ _ _) fun a => ?_
      try dsimp only
      split
      · exact .ok _
      · split
        · have fin : ∀ (p : Prop) [Decidable p] (r d : Nat → K), NoDiv (if p then .ok (some d) else refine s H dg z dx m false r d) := by
            intro p _ r d
            split
            · exact .ok _
            · exact ih _ _ _
          apply fin
        · exact ih _ _ _

theorem determineStepDirection_noDiv (s : QPB K) (dg dlb dub : Nat → K) (z : Bool) : NoDiv (determineStepDirection s dg dlb dub z) := by
  unfold determineStepDirection
  dsimp only
  split
  · refine .bind (.ok _) fun H => .bind (refine_noDiv _ _ _ _ _ _ _ _ _) fun o => ?_
    cases o <;> exact .ok _
  · refine .bind (.getH _) fun H => .bind (refine_noDiv _ _ _ _ _ _ _ _ _) fun o => ?_
    cases o <;> exact .ok _

theorem ratioTest_noDiv (w : WS) (num den : Nat → K) (en ed : K) : ∀ (idx : List Nat) (i : Nat) (t : K) (bc : Option Nat),
    NoDiv (ratioTest w num den en ed idx i t bc) := by
  intro idx
  induction idx with
  | nil => intro i t bc; exact .ok _
  | cons a idx ih =>
    intro i t bc
    have fin : ∀ b : Bool, NoDiv (if b = true then do
        let q ← cdiv (num i) (den i)
        ratioTest w num den en ed idx (i+1) q (some a) else ratioTest w num den en ed idx (i+1) t bc) := by
      intro b
      split
      · exact NoDiv.bind (NoDiv.cdiv (num i) (den i)) fun _ => ih _ _ _
      · exact ih _ _ _
    exact fin _

theorem performStep_noDiv (s : QPB K) (dg dlb dub : Nat → K) (d : Dir K) : NoDiv (performStep s dg dlb dub d) := by
  have hr : ∀ (num den : Nat → K) (idx : List Nat) (i : Nat) (t : K) (bc : Option Nat),
      NoDiv (ratioTest s.bounds num den s.options.epsNum s.options.epsDen idx i t bc) := fun num den => ratioTest_noDiv _ _ _ _ _
  refine .bind ?_ fun a => .ok _
  unfold stepLength
  refine .bind (hr _ _ _ _ _ _) fun a => ?_
  try dsimp only
  split
  · refine .bind (hr _ _ _ _ _ _) fun a => ?_
    try dsimp only
    simp only [Res.pure_eq, Res.bind_ok]
    split
    · exact .bind (hr _ _ _ _ _ _) fun _ => .ok _
    · exact .ok _
  · simp only [Res.pure_eq, Res.bind_ok]
    split
    · exact .bind (hr _ _ _ _ _ _) fun _ => .ok _
    · exact .ok _

theorem rampVal_noDiv (s : QPB K) (i n : Nat) : NoDiv (s.rampVal i n) := .bind (.cdiv _ _) fun _ => .ok _

theorem performRamping_noDiv (s : QPB K) : NoDiv (performRamping s) := by
  have h1 : ∀ (s : QPB K) i, NoDiv (rampOne s i) := by
    intro s i
    unfold rampOne
    split <;> first | exact .ok _ | exact .bind (rampVal_noDiv _ _ _) fun _ => .ok _
  have h2 : ∀ (m i : Nat) (s : QPB K), NoDiv (rampLoop m i s) := by
    intro m
    induction m with
    | zero => intro i s; exact .ok _
    | succ m ih => intro i s; exact .bind (h1 _ _) fun _ => ih _ _
  exact .bind (h2 _ _ _) fun _ => .bind (setupAuxiliaryQPgradient_noDiv _) fun _ => .ok _

theorem endIteration_noDiv (sq : K → K) (s : QPB K) (bc : Option (Nat × SubjectToStatus)) (iter nWSR : Int) (c : Option K) (t : K) :
    NoDiv (endIteration sq s bc iter nWSR c t) := by
  have rest : ∀ (r : ReturnValue) (s : QPB K), NoDiv
      (if r ≠ SUCCESSFUL_RETURN then Res.ok (Except.error (⟨r, nWSR, c, s⟩ : Out K)) else do
        let s ← if s.tau ≤ EPS ∧ s.options.enableRamping = true then performRamping s
          else if s.options.enableDriftCorrection > 0 ∧ (iter + 1) % s.options.enableDriftCorrection = 0 then performDriftCorrection s
          else .ok s
        .ok (.ok { s with status := QPS_HOMOTOPYQPSOLVED })) := by
    intro r s
    split
    · exact .ok _
    · split
      · exact .bind (performRamping_noDiv _) fun _ => .ok _
      · split
        · exact .bind (setupAuxiliaryQPgradient_noDiv _) fun _ => .ok _
        · exact .ok _
  unfold endIteration
  refine .bind (changeActiveSet_noDiv _ _ _) fun a => ?_
  try dsimp only
  split
  · split
    · exact .ok _
    · split <;> exact .ok _
  · split
    · exact .bind (computeCholesky_noDiv _ _) fun a => rest a.1 a.2
    · exact rest SUCCESSFUL_RETURN _

theorem solveLoop_noDiv (sq : K → K) (gNew : Nat → K) (lbNew ubNew : Option (Nat → K)) (nWSR p : Int) (c : Option K) (t : K) :
    ∀ m iter s, NoDiv (solveLoop sq gNew lbNew ubNew nWSR p c t m iter s) := by
  intro m
  induction m with
  | zero => intro iter s; exact .ok _
  | succ m ih =>
    intro iter s
    unfold solveLoop
    split
    · exact .ok _
    · refine .bind ?_ fun e => ?_
      · refine .bind (determineStepDirection_noDiv _ _ _ _ _) fun o => ?_
        cases o with
        | none => exact .ok _
        | some d =>
          refine .bind (performStep_noDiv _ _ _ _ _) fun a => ?_
          try dsimp only
          split
          · exact .ok _
          · exact endIteration_noDiv _ _ _ _ _ _ _
      · cases e with
        | error o => exact .ok _
        | ok s => exact ih _ _

theorem solveQP_noDiv (sq : K → K) (s : QPB K) (gNew : Nat → K) (lbNew ubNew : Option (Nat → K)) (nWSR : Int) (c : Option K) (p : Int) :
    NoDiv (solveQP sq s gNew lbNew ubNew nWSR c p) := by
  unfold solveQP
  split
  · exact .ok _
  · exact solveLoop_noDiv _ _ _ _ _ _ _ _ _ _ _

theorem solveRegularisedQP_noDiv (sq : K → K) (s : QPB K) (gNew : Nat → K) (lbNew ubNew : Option (Nat → K)) (nWSR : Int) (c : Option K)
    (p : Int) : NoDiv (solveRegularisedQP sq s gNew lbNew ubNew nWSR c p) := by
  have h : ∀ m o t, NoDiv (regSteps sq gNew lbNew ubNew nWSR c m o t) := by
    intro m
    induction m with
    | zero => intro o t; exact .ok _
    | succ m ih =>
      intro o t
      refine .bind (solveQP_noDiv _ _ _ _ _ _ _ _) fun o' => ?_
      dsimp only
      split
      · exact .ok _
      · exact ih _ _
  unfold solveRegularisedQP
  split
  · exact solveQP_noDiv _ _ _ _ _ _ _ _
  · refine .bind (solveQP_noDiv _ _ _ _ _ _ _ _) fun o => ?_
    try dsimp only
    split
    · exact .ok _
    · exact h _ _ _

theorem updateFarBounds_noDiv (s : QPB K) (cur : K) (n : Nat) (lbNew ubNew : Option (Nat → K)) :
    ∀ m i lf uf, NoDiv (updateFarBounds s cur n lbNew ubNew m i lf uf) := by
  intro m
  induction m with
  | zero => intro i lf uf; exact .ok _
  | succ m ih =>
    intro i lf uf
    refine .bind ?_ fun _ => ih _ _ _
    unfold farVal
    split
    · exact .bind (rampVal_noDiv _ _ _) fun _ => .ok _
    · exact .ok _

theorem solveRegularisedQP_grow {sq : K → K} {s : QPB K} {gNew : Nat → K} {lbNew ubNew : Option (Nat → K)} {nWSR : Int} {c : Option K}
    {p : Int} {o : Out K} (hp : p ≤ nWSR) (h : solveRegularisedQP sq s gNew lbNew ubNew nWSR c p = .ok o) :
    o.s.options.growFarBounds = s.options.growFarBounds ∧ o.nWSR ≤ nWSR := by
  by_cases hr : NotReady s
  · obtain ⟨c', e⟩ := solveRegularisedQP_notReady hr sq gNew lbNew ubNew nWSR c p
    rw [e] at h
    cases h
    exact ⟨rfl, le_refl _⟩
  · have S := solveRegularisedQP_cases hr hp h
    exact ⟨congrArg (fun a : K × Options K × K × K => a.2.1.growFarBounds) S.regVal, S.upper⟩

/-- The loop ends before the far bound exceeds every finite number. -/
theorem farLoop_noDiv (sq : K → K) (gNew : Nat → K) (lbNew ubNew : Option (Nat → K)) (nWSR : Int) (c : Option K) (g : K) (hg : 1 ≤ g) :
    ∀ (fuel : Nat) (s : QPB K) (far : K) (lf uf : Nat → K) (p : Int) (needed remaining : K), 0 < far →
      s.options.growFarBounds = g → p ≤ nWSR → INFTY ≤ far * g ^ fuel → fuel ≠ 0 →
      NoDiv (farLoop sq gNew lbNew ubNew nWSR c fuel s far lf uf p needed remaining) := by
  intro fuel
  induction fuel with
  | zero => intro s far lf uf p needed remaining _ _ _ _ h0; exact absurd rfl h0
  | succ fuel ih =>
    intro s far lf uf p needed remaining hf hgr hp hI _
    -- the next pass
    have next : ∀ (s' : QPB K) (q : Int) (lf uf : Nat → K) (n r : K), s'.options.growFarBounds = g → q ≤ nWSR → ¬ far * g ≥ INFTY →
        NoDiv (farLoop sq gNew lbNew ubNew nWSR c fuel s' (far * g) lf uf q n r) := by
      intro s' q lf uf n r h1 h2 h3
      have h0 : fuel ≠ 0 := by
        rintro rfl
        rw [pow_one] at hI
        exact h3 hI
      refine ih s' (far * g) lf uf q n r (mul_pos hf (lt_of_lt_of_le one_pos hg)) h1 h2 ?_ h0
      rw [pow_succ'] at hI
      rw [mul_assoc]
      exact hI
    unfold farLoop
    refine NoDiv.bind' (solveRegularisedQP_noDiv _ _ _ _ _ _ _ _) fun o e => ?_
    · obtain ⟨g1, n1⟩ := solveRegularisedQP_grow hp e
      dsimp only
      rw [g1, hgr]
      split
      · split
        · exact NoDiv.ok _
        · rename_i h3
          exact NoDiv.bind (updateFarBounds_noDiv _ _ _ _ _ _ _ _ _) fun a => next _ _ _ _ _ _ (g1.trans hgr) n1 h3
      · split
        · refine NoDiv.bind (.cdiv _ _) fun q => ?_
          split
          · exact NoDiv.ok _
          · split
            · exact NoDiv.ok _
            · rename_i h3
              exact NoDiv.bind (updateFarBounds_noDiv _ _ _ _ _ _ _ _ _) fun a => next _ _ _ _ _ _ (g1.trans hgr) n1 h3
        · exact NoDiv.ok _

/-- The options for far bounds, the number of variables and the ramp. -/
def farOptions (s : QPB K) : K × K × Bool × Bool × Nat × K × K × K :=
  (s.options.initialFarBounds, s.options.growFarBounds, s.options.enableFarBounds, s.options.enableRamping, s.nV, s.options.boundTolerance,
    s.ramp0, s.ramp1)

theorem setting_far {s s' : QPB K} (h : s'.setting = s.setting) (hn : s'.nV = s.nV) : s'.farOptions = s.farOptions :=
  Prod.ext (congrArg (fun a : K × Options K × K × K => a.2.1.initialFarBounds) h)
    (Prod.ext (congrArg (fun a : K × Options K × K × K => a.2.1.growFarBounds) h)
      (Prod.ext (congrArg (fun a : K × Options K × K × K => a.2.1.enableFarBounds) h)
        (Prod.ext (congrArg (fun a : K × Options K × K × K => a.2.1.enableRamping) h) (Prod.ext hn
          (Prod.ext (congrArg (fun a : K × Options K × K × K => a.2.1.boundTolerance) h) (congrArg (fun a : K × Options K × K × K => a.2.2) h))))))

theorem Keep.far {s s' : QPB K} (h : Keep s s') : s'.farOptions = s.farOptions :=
  setting_far h.regVal h.nV

theorem auxAdd_far (sq : K → K) (aux : WS) (b : Bool) : ∀ (m i : Nat) (s : QPB K), (auxAdd sq aux b m i s).2.farOptions = s.farOptions := by
  intro m
  induction m with
  | zero => intro i s; rfl
  | succ m ih =>
    intro i s
    unfold auxAdd
    split
    · have h := (addBound_keep sq s i (aux.getStatus i) b).1.far
      dsimp only
      split
      · exact h
      · exact (ih _ _).trans h
    · exact ih _ _

theorem auxRemove_far (sq : K → K) (aux : WS) : ∀ (m i : Nat) (s s' : QPB K) (r : ReturnValue), auxRemove sq aux m i s = .ok (r, s') →
    s'.farOptions = s.farOptions := by
  intro m
  induction m with
  | zero => intro i s s' r h; cases h; rfl
  | succ m ih =>
    intro i s s' r h
    have one : ∀ (s s' : QPB K) (p : Prop) [Decidable p] (r : ReturnValue),
        (if p then removeBound sq s i true else .ok (SUCCESSFUL_RETURN, s)) = .ok (r, s') → s'.farOptions = s.farOptions := by
      intro s s' p _ r h
      split at h
      · exact (removeBound_keep h).1.far
      · cases h; rfl
    have goal2 : ∀ (r1 : ReturnValue) (s1 : QPB K), s1.farOptions = s.farOptions →
        (if r1 ≠ SUCCESSFUL_RETURN then Res.ok (RET_SETUP_WORKINGSET_FAILED, s1) else do
          let (r, s) ← if s1.bounds.getStatus i = ST_UPPER ∧ aux.getStatus i ≠ ST_UPPER then removeBound sq s1 i true
            else .ok (SUCCESSFUL_RETURN, s1)
          if r ≠ SUCCESSFUL_RETURN then .ok (RET_SETUP_WORKINGSET_FAILED, s) else
          auxRemove sq aux m (i+1) s) = .ok (r, s') → s'.farOptions = s.farOptions := by
      intro r1 s1 h1 h
      have goal3 : ∀ (r2 : ReturnValue) (s2 : QPB K), s2.farOptions = s1.farOptions →
          (if r2 ≠ SUCCESSFUL_RETURN then .ok (RET_SETUP_WORKINGSET_FAILED, s2) else auxRemove sq aux m (i+1) s2) = .ok (r, s') →
          s'.farOptions = s.farOptions := by
        intro r2 s2 h2 h
        split at h
        · cases h; exact h2.trans h1
        · exact (ih _ _ _ _ h).trans (h2.trans h1)
      split at h
      · cases h; exact h1
      · split at h
        · obtain ⟨⟨r2, s2⟩, e2, h⟩ := Res.bind_eq_ok.1 h
          exact goal3 r2 s2 (removeBound_keep e2).1.far h
        · exact goal3 SUCCESSFUL_RETURN s1 rfl h
    unfold auxRemove at h
    split at h
    · obtain ⟨⟨r1, s1⟩, e1, h⟩ := Res.bind_eq_ok.1 h
      exact goal2 r1 s1 (removeBound_keep e1).1.far h
    · exact goal2 SUCCESSFUL_RETURN s rfl h

theorem setupAuxiliaryWorkingSet_far {sq : K → K} {s s' : QPB K} {aux : WS} {b : Bool} {r : ReturnValue}
    (h : setupAuxiliaryWorkingSet sq s aux b = .ok (r, s')) : s'.farOptions = s.farOptions := by
  unfold setupAuxiliaryWorkingSet at h
  split at h
  · cases h; rfl
  · have goal2 : ∀ (r1 : ReturnValue) (s1 : QPB K), s1.farOptions = s.farOptions →
        (if r1 ≠ SUCCESSFUL_RETURN then Res.ok (r1, s1) else .ok (auxAdd sq aux (!b) s1.nV 0 s1)) = .ok (r, s') →
        s'.farOptions = s.farOptions := by
      intro r1 s1 h1 h
      split at h
      · cases h; exact h1
      · have h := Res.ok.inj h
        have e : s' = (auxAdd sq aux (!b) s1.nV 0 s1).2 := by rw [h]
        rw [e]
        exact (auxAdd_far _ _ _ _ _ _).trans h1
    split at h
    · exact goal2 SUCCESSFUL_RETURN s rfl h
    · obtain ⟨⟨r1, s1⟩, e1, h⟩ := Res.bind_eq_ok.1 h
      exact goal2 r1 s1 (auxRemove_far _ _ _ _ _ _ _ e1) h

theorem setupAuxiliaryQPbounds_far (b : Bool) : ∀ (m i : Nat) (s : QPB K), (setupAuxiliaryQPbounds b m i s).2.farOptions = s.farOptions := by
  intro m
  induction m with
  | zero => intro i s; rfl
  | succ m ih =>
    intro i s
    unfold setupAuxiliaryQPbounds
    split
    · rfl
    · exact ih _ _

theorem setupAuxiliaryQPdata_far {s s' : QPB K} (h : setupAuxiliaryQPdata s = .ok s') : s'.farOptions = s.farOptions := by
  obtain ⟨s1, e, h⟩ := Res.bind_eq_ok.1 h
  obtain ⟨g, rfl⟩ := setupAuxiliaryQPgradient_keep e
  cases h
  exact setupAuxiliaryQPbounds_far _ _ _ _

theorem setupAuxiliaryQP_far {sq : K → K} {s s' : QPB K} {w : WS} {r : ReturnValue} (h : setupAuxiliaryQP sq s w = .ok (r, s')) :
    s'.farOptions = s.farOptions := by
  unfold setupAuxiliaryQP at h
  dsimp only at h
  split at h
  · obtain ⟨⟨r1, s1⟩, e1, h⟩ := Res.bind_eq_ok.1 h
    have h1 := setupAuxiliaryWorkingSet_far e1
    obtain ⟨⟨r2, s2⟩, e2, h⟩ := Res.bind_eq_ok.1 h
    have h2 := (computeCholesky_keep e2).1.far
    dsimp only at h
    split at h
    · cases h; exact h2.trans h1
    · obtain ⟨s3, e3, h⟩ := Res.bind_eq_ok.1 h
      cases h
      exact (setupAuxiliaryQPdata_far e3).trans (h2.trans h1)
  · obtain ⟨⟨r1, s1⟩, e1, h⟩ := Res.bind_eq_ok.1 h
    obtain ⟨s3, e3, h⟩ := Res.bind_eq_ok.1 h
    cases h
    have h1 : s1.farOptions = s.farOptions := setupAuxiliaryWorkingSet_far (s := { s with status := QPS_PREPARINGAUXILIARYQP }) e1
    exact (setupAuxiliaryQPdata_far e3).trans h1

theorem auxRemove_noDiv (sq : K → K) (aux : WS) : ∀ (m i : Nat) (s : QPB K), NoDiv (auxRemove sq aux m i s) := by
  intro m
  induction m with
  | zero => intro i s; exact .ok _
  | succ m ih =>
    intro i s
    have goal3 : ∀ (r2 : ReturnValue) (s2 : QPB K),
        NoDiv (if r2 ≠ SUCCESSFUL_RETURN then .ok (RET_SETUP_WORKINGSET_FAILED, s2) else auxRemove sq aux m (i+1) s2) := by
      intro r2 s2
      split
      · exact .ok _
      · exact ih _ _
    have goal2 : ∀ (r1 : ReturnValue) (s1 : QPB K), NoDiv
        (if r1 ≠ SUCCESSFUL_RETURN then Res.ok (RET_SETUP_WORKINGSET_FAILED, s1) else do
          let (r, s) ← if s1.bounds.getStatus i = ST_UPPER ∧ aux.getStatus i ≠ ST_UPPER then removeBound sq s1 i true
            else .ok (SUCCESSFUL_RETURN, s1)
          if r ≠ SUCCESSFUL_RETURN then .ok (RET_SETUP_WORKINGSET_FAILED, s) else
          auxRemove sq aux m (i+1) s) := by
      intro r1 s1
      split
      · exact .ok _
      · split
        · exact .bind (removeBound_noDiv _ _ _ _) fun a => goal3 a.1 a.2
        · exact goal3 SUCCESSFUL_RETURN s1
    unfold auxRemove
    split
    · exact .bind (removeBound_noDiv _ _ _ _) fun a => goal2 a.1 a.2
    · exact goal2 SUCCESSFUL_RETURN s

theorem setupAuxiliaryWorkingSet_noDiv (sq : K → K) (s : QPB K) (aux : WS) (b : Bool) : NoDiv (setupAuxiliaryWorkingSet sq s aux b) := by
  have goal2 : ∀ (r1 : ReturnValue) (s1 : QPB K),
      NoDiv (if r1 ≠ SUCCESSFUL_RETURN then Res.ok (r1, s1) else .ok (auxAdd sq aux (!b) s1.nV 0 s1)) := by
    intro r1 s1
    split <;> exact .ok _
  unfold setupAuxiliaryWorkingSet
  split
  · exact .ok _
  · split
    · exact goal2 SUCCESSFUL_RETURN s
    · exact .bind (auxRemove_noDiv _ _ _ _ _) fun a => goal2 a.1 a.2

theorem setupAuxiliaryQPdata_noDiv (s : QPB K) : NoDiv (setupAuxiliaryQPdata s) :=
  .bind (setupAuxiliaryQPgradient_noDiv _) fun _ => .ok _

theorem setupAuxiliaryQP_noDiv (sq : K → K) (s : QPB K) (w : WS) : NoDiv (setupAuxiliaryQP sq s w) := by
  unfold setupAuxiliaryQP
  dsimp only
  split
  · refine .bind (setupAuxiliaryWorkingSet_noDiv _ _ _ _) fun a => .bind (computeCholesky_noDiv _ _) fun b => ?_
    try dsimp only
    split
    · exact .ok _
    · exact .bind (setupAuxiliaryQPdata_noDiv _) fun _ => .ok _
  · exact .bind (setupAuxiliaryWorkingSet_noDiv _ _ _ _) fun a => .bind (setupAuxiliaryQPdata_noDiv _) fun _ => .ok _

theorem regulariseHessian_far {sq : K → K} {s s' : QPB K} {r : ReturnValue} (h : regulariseHessian sq s = .ok (r, s')) :
    s'.farOptions = s.farOptions := by
  unfold regulariseHessian at h
  split at h
  · cases h; rfl
  · split at h
    · cases h; rfl
    · split at h
      · cases h; rfl
      · split at h
        · cases h; rfl
        · obtain ⟨H, _, h⟩ := Res.bind_eq_ok.1 h
          cases h; rfl

theorem setupInitialCholesky_far {sq : K → K} {s s' : QPB K} {r : ReturnValue} (h : setupInitialCholesky sq s = .ok (r, s')) :
    s'.farOptions = s.farOptions := by
  have goal2 : ∀ (r1 : ReturnValue) (s1 : QPB K), s1.farOptions = s.farOptions →
      (if r1 ≠ SUCCESSFUL_RETURN then Res.ok (RET_INIT_FAILED_REGULARISATION, s1) else do
        let (r, s) ← computeCholesky sq s1
        if r = RET_HESSIAN_NOT_SPD then do
          let (r, s) ← regulariseHessian sq s
          if r ≠ SUCCESSFUL_RETURN then .ok (RET_INIT_FAILED_REGULARISATION, s) else do
          let (r, s) ← computeCholesky sq s
          if r ≠ SUCCESSFUL_RETURN then .ok (RET_INIT_FAILED_CHOLESKY, s)
          else .ok (SUCCESSFUL_RETURN, { s with haveCholesky := true })
        else if r ≠ SUCCESSFUL_RETURN then .ok (RET_INIT_FAILED_CHOLESKY, s)
        else .ok (SUCCESSFUL_RETURN, { s with haveCholesky := true })) = Res.ok (r, s') → s'.farOptions = s.farOptions := by
    intro r1 s1 a1 h
    split at h
    · cases h; exact a1
    · obtain ⟨⟨r2, s2⟩, e2, h⟩ := Res.bind_eq_ok.1 h
      have k2 := (computeCholesky_keep e2).1.far.trans a1
      dsimp only at h
      split at h
      · obtain ⟨⟨r3, s3⟩, e3, h⟩ := Res.bind_eq_ok.1 h
        have k3 := (regulariseHessian_far e3).trans k2
        dsimp only at h
        split at h
        · cases h; exact k3
        · obtain ⟨⟨r4, s4⟩, e4, h⟩ := Res.bind_eq_ok.1 h
          have k4 := (computeCholesky_keep e4).1.far.trans k3
          dsimp only at h
          split at h <;> cases h <;> exact k4
      · split at h <;> cases h <;> exact k2
  unfold setupInitialCholesky at h
  split at h
  · obtain ⟨⟨r1, s1⟩, e1, h⟩ := Res.bind_eq_ok.1 h
    exact goal2 r1 s1 (regulariseHessian_far e1) h
  · exact goal2 SUCCESSFUL_RETURN s rfl h

theorem hotstartMain_noDiv (sq : K → K) (fuel : Nat) (s : QPB K) (gNew : Nat → K) (lbNew ubNew : Option (Nat → K)) (nWSR : Int)
    (c : Option K) (a : K) (hb : 0 ≤ nWSR) (h1 : 0 < s.options.initialFarBounds) (h2 : 1 ≤ s.options.growFarBounds)
    (hI : INFTY ≤ s.options.initialFarBounds * s.options.growFarBounds ^ fuel) (h0 : fuel ≠ 0) :
    NoDiv (hotstartMain sq fuel s gNew lbNew ubNew nWSR c a) := by
  unfold hotstartMain
  split
  · exact .ok _
  · have goal2 : ∀ (r1 : ReturnValue) (s1 : QPB K), s1.farOptions = s.farOptions →
        NoDiv (if r1 ≠ SUCCESSFUL_RETURN then .ok ⟨r1, nWSR, c, s1⟩
        else if s1.options.enableFarBounds = false then
          solveRegularisedQP sq s1 gNew lbNew ubNew nWSR c 0
        else do
          let (lf, uf) ← updateFarBounds s1 (s1.initialFar lbNew ubNew) s1.nV lbNew ubNew s1.nV 0 (fun _ => 0) (fun _ => 0)
          let (o, needed) ← farLoop sq gNew lbNew ubNew nWSR c fuel s1 (s1.initialFar lbNew ubNew) lf uf 0 0 INFTY
          .ok { o with cputime := c.map fun _ => needed + a }) := by
      intro r1 s1 h
      have hi : s1.options.initialFarBounds = s.options.initialFarBounds := congrArg Prod.fst h
      have hg : s1.options.growFarBounds = s.options.growFarBounds := congrArg (fun a => a.2.1) h
      have hle := (initialFar_spec s1 lbNew ubNew).1
      rw [hi] at hle
      split
      · exact .ok _
      · split
        · exact solveRegularisedQP_noDiv _ _ _ _ _ _ _ _
        · refine .bind (updateFarBounds_noDiv _ _ _ _ _ _ _ _ _) fun b => .bind ?_ fun b => .ok _
          refine farLoop_noDiv sq gNew lbNew ubNew nWSR c _ h2 fuel s1 _ _ _ 0 0 INFTY (lt_of_lt_of_le h1 hle) hg hb ?_ h0
          exact hI.trans (mul_le_mul_of_nonneg_right hle (pow_nonneg (zero_le_one.trans h2) _))
    dsimp only
    split
    · exact .bind' (setupInitialCholesky_noDiv _ _) fun b e => goal2 b.1 b.2 (by
        obtain ⟨r, s1⟩ := b
        exact setupInitialCholesky_far (s := { s with count := s.count + 1 }) e)
    · exact goal2 SUCCESSFUL_RETURN { s with count := s.count + 1 } rfl

theorem hotstart_noDiv (sq : K → K) (fuel : Nat) (s : QPB K) (gNew : Nat → K) (lbNew ubNew : Option (Nat → K)) (nWSR : Int)
    (c : Option K) (guess : Guess) (hb : 0 ≤ nWSR) (h1 : 0 < s.options.initialFarBounds) (h2 : 1 ≤ s.options.growFarBounds)
    (hI : INFTY ≤ s.options.initialFarBounds * s.options.growFarBounds ^ fuel) (h0 : fuel ≠ 0) :
    NoDiv (hotstart sq fuel s gNew lbNew ubNew nWSR c guess) := by
  have main : ∀ (s1 : QPB K) (c : Option K) (a : K), s1.farOptions = s.farOptions →
      NoDiv (hotstartMain sq fuel s1 gNew lbNew ubNew nWSR c a) := by
    intro s1 c a h
    have hi : s1.options.initialFarBounds = s.options.initialFarBounds := congrArg Prod.fst h
    have hg : s1.options.growFarBounds = s.options.growFarBounds := congrArg (fun a => a.2.1) h
    exact hotstartMain_noDiv _ _ _ _ _ _ _ _ _ hb (by rw [hi]; exact h1) (by rw [hg]; exact h2) (by rw [hi, hg]; exact hI) h0
  unfold hotstart
  split
  · exact .ok _
  · cases guess with
    | null => exact main _ _ _ rfl
    | self =>
      simp only [Res.bind_ok, ne_eq, not_true_eq_false, if_false]
      refine main _ _ _ ?_
      obtain ⟨k, e⟩ := startClock_keep s c
      obtain ⟨k', e'⟩ := stopClock_keep ({ (s.startClock c).2 with status := QPS_AUXILIARYQPSOLVED } : QPB K) c (s.startClock c).1
      rw [e', e]
      rfl
    | other w =>
      refine .bind' (setupAuxiliaryQP_noDiv _ _ _) fun b e => ?_
      obtain ⟨r, s1⟩ := b
      dsimp only
      split
      · exact .ok _
      · refine main _ _ _ ?_
        obtain ⟨k, e1⟩ := startClock_keep s c
        obtain ⟨k', e'⟩ := stopClock_keep ({ s1 with status := QPS_AUXILIARYQPSOLVED } : QPB K) c (s.startClock c).1
        rw [e']
        rw [e1] at e
        have h1 : s1.farOptions = s.farOptions := setupAuxiliaryQP_far (s := { s with now := k }) e
        exact h1

theorem determineHessianType_far (s : QPB K) : (s.determineHessianType).2.farOptions = s.farOptions := by
  have hens : ∀ s : QPB K, s.ensureRegularisation.farOptions = s.farOptions := by
    intro s
    unfold ensureRegularisation
    split <;> rfl
  unfold determineHessianType
  split
  · exact hens _
  · rfl
  · dsimp only
    split
    · split
      · split <;> rfl
      · rfl
      · split
        · refine (hens _).trans ?_
          split <;> rfl
        · split <;> rfl
    · rfl
  · rfl
  · exact hens _

theorem prepareInitialQP_far (sq : K → K) (s : QPB K) (xOpt yOpt : Option (Nat → K)) (guess : Option WS) (R : Option (Nat → K))
    (nWSR : Int) (c : Option K) : NoDiv (prepareInitialQP sq s xOpt yOpt guess R nWSR c) ∧
      ∀ s1, prepareInitialQP sq s xOpt yOpt guess R nWSR c = .ok (.ok s1) → s1.farOptions = s.farOptions := by
  have aux : ∀ s0 : QPB K, s0.farOptions = s.farOptions → NoDiv (prepareAuxiliary sq s0 xOpt yOpt guess R nWSR c) ∧
      ∀ s1, prepareAuxiliary sq s0 xOpt yOpt guess R nWSR c = .ok (.ok s1) → s1.farOptions = s.farOptions := by
    intro s0 h0
    have fin : ∀ (r : ReturnValue) (s1 : QPB K), s1.farOptions = s.farOptions →
        NoDiv (if r ≠ SUCCESSFUL_RETURN then Res.ok (Except.error (⟨RET_INIT_FAILED_REGULARISATION, nWSR, c, s1⟩ : Out K)) else do
              let s := takeFactor { s1 with haveCholesky := false } (xOpt.isNone && yOpt.isNone && guess.isNone) R
              let (r, s) ← (do
                let s ← setupAuxiliaryQPgradient s
                Res.ok (setupAuxiliaryQPbounds true s.nV 0 s))
              if r ≠ SUCCESSFUL_RETURN then .ok (.error ⟨RET_INIT_FAILED, nWSR, c, s⟩)
              else .ok (.ok { s with status := QPS_AUXILIARYQPSOLVED })) ∧
        ∀ s2, (if r ≠ SUCCESSFUL_RETURN then Res.ok (Except.error (⟨RET_INIT_FAILED_REGULARISATION, nWSR, c, s1⟩ : Out K)) else do
              let s := takeFactor { s1 with haveCholesky := false } (xOpt.isNone && yOpt.isNone && guess.isNone) R
              let (r, s) ← (do
                let s ← setupAuxiliaryQPgradient s
                Res.ok (setupAuxiliaryQPbounds true s.nV 0 s))
              if r ≠ SUCCESSFUL_RETURN then .ok (.error ⟨RET_INIT_FAILED, nWSR, c, s⟩)
              else .ok (.ok { s with status := QPS_AUXILIARYQPSOLVED })) = .ok (.ok s2) → s2.farOptions = s.farOptions := by
      intro r s1 h1
      have ht : ∀ b, (takeFactor { s1 with haveCholesky := false } b R).farOptions = s.farOptions := by
        intro b
        unfold takeFactor
        split
        · exact h1
        · split
          · exact h1
          · split <;> exact h1
      generalize (xOpt.isNone && yOpt.isNone && guess.isNone) = b
      specialize ht b
      generalize takeFactor { s1 with haveCholesky := false } b R = t at ht ⊢
      constructor
      · split
        · exact .ok _
        · refine .bind (.bind (setupAuxiliaryQPgradient_noDiv _) fun _ => .ok _) fun a => ?_
          try dsimp only
          split <;> exact .ok _
      · intro s2 h
        split at h
        · cases h
        · obtain ⟨⟨r2, s3⟩, e3, h⟩ := Res.bind_eq_ok.1 h
          have h3 : s3.farOptions = s.farOptions := by
            obtain ⟨s4, e4, e3⟩ := Res.bind_eq_ok.1 e3
            obtain ⟨g, rfl⟩ := setupAuxiliaryQPgradient_keep e4
            have e3 := Res.ok.inj e3
            have : s3 = (setupAuxiliaryQPbounds true t.nV 0 { t with g := g }).2 := by rw [e3]
            rw [this]
            exact (setupAuxiliaryQPbounds_far _ _ _ _).trans ht
          dsimp only at h
          split at h
          · cases h
          · cases h; exact h3
    unfold prepareAuxiliary
    split
    · exact ⟨.ok _, fun s1 h => by cases h⟩
    · rename_i w _
      constructor
      · refine .bind' (setupAuxiliaryWorkingSet_noDiv _ _ _ _) fun a e => ?_
        obtain ⟨r, s1⟩ := a
        have h1 := (setupAuxiliaryWorkingSet_far e).trans h0
        dsimp only
        split
        · exact .ok _
        · split
          · refine .bind' (regulariseHessian_noDiv _ _) fun a e2 => ?_
            obtain ⟨r2, s2⟩ := a
            exact (fin r2 s2 ((regulariseHessian_far e2).trans h1)).1
          · exact (fin SUCCESSFUL_RETURN s1 h1).1
      · intro s2 h
        obtain ⟨⟨r, s1⟩, e, h⟩ := Res.bind_eq_ok.1 h
        have h1 := (setupAuxiliaryWorkingSet_far e).trans h0
        dsimp only at h
        split at h
        · cases h
        · split at h
          · obtain ⟨⟨r2, s3⟩, e2, h⟩ := Res.bind_eq_ok.1 h
            exact (fin r2 s3 ((regulariseHessian_far e2).trans h1)).2 _ h
          · exact (fin SUCCESSFUL_RETURN s1 h1).2 _ h
  unfold prepareInitialQP
  dsimp only
  split
  · exact ⟨.ok _, fun s1 h => by cases h⟩
  · exact aux _ (determineHessianType_far { s with status := QPS_NOTINITIALISED })

theorem init_noDiv (sq : K → K) (fuel : Nat) (s : QPB K) (H g lb ub : Option (Nat → K)) (nWSR : Int) (c : Option K)
    (xOpt yOpt : Option (Nat → K)) (guess : Option WS) (R : Option (Nat → K)) (hb : 0 ≤ nWSR)
    (h1 : 0 < s.options.initialFarBounds) (h2 : 1 ≤ s.options.growFarBounds)
    (hI : INFTY ≤ s.options.initialFarBounds * s.options.growFarBounds ^ fuel) (h0 : fuel ≠ 0) :
    NoDiv (init sq fuel s H g lb ub nWSR c xOpt yOpt guess R) := by
  have start : ∀ s0 : QPB K, s0.options = s.options → NoDiv (solveInitialQP sq fuel s0 xOpt yOpt guess R nWSR c) := by
    intro s0 hs0
    have P := prepareInitialQP_far sq (s0.startClock c).2 xOpt yOpt guess R nWSR c
    unfold solveInitialQP
    refine .bind' P.1 fun e he => ?_
    cases e with
    | error o => exact .ok _
    | ok s1 =>
      have hs1 : s1.farOptions = s0.farOptions := by
        refine (P.2 s1 he).trans ?_
        obtain ⟨k, e⟩ := startClock_keep s0 c
        rw [e]; rfl
      dsimp only
      refine .bind ?_ fun o => ?_
      · obtain ⟨k, e⟩ := stopClock_keep s1 c (s0.startClock c).1
        rw [e]
        have hi : s1.options.initialFarBounds = s.options.initialFarBounds := (congrArg Prod.fst hs1).trans (congrArg (·.initialFarBounds) hs0)
        have hg : s1.options.growFarBounds = s.options.growFarBounds := (congrArg (fun a => a.2.1) hs1).trans (congrArg (·.growFarBounds) hs0)
        exact hotstart_noDiv sq fuel { s1 with now := k } _ _ _ _ _ _ hb (by dsimp only; rw [hi]; exact h1)
          (by dsimp only; rw [hg]; exact h2) (by dsimp only; rw [hi, hg]; exact hI) h0
      · split
        · exact .ok _
        · split
          · exact .ok _
          · split <;> exact .ok _
  unfold init
  split
  · exact .ok _
  · have hr : (if s.status ≠ QPS_NOTINITIALISED then s.reset else s).options = s.options := by split <;> rfl
    dsimp only
    generalize (if s.status ≠ QPS_NOTINITIALISED then s.reset else s) = s0 at hr ⊢
    split
    · exact .ok _
    split
    · exact .ok _
    split
    · exact .ok _
    cases g with
    | none =>
      unfold setupQPdata
      dsimp only
      rw [if_pos (by decide)]
      exact .ok _
    | some g' =>
      have eS : s0.setupQPdata H (some g') lb ub =
          (SUCCESSFUL_RETURN, { s0.setH H with g := g', lb := lowerOf lb, ub := upperOf ub }) := rfl
      rw [eS]
      dsimp only
      rw [if_neg (by simp)]
      refine start _ (Eq.trans ?_ hr)
      unfold setH
      cases H with
      | none => dsimp only; split <;> rfl
      | some H => rfl

end QPB
end QpOASES
