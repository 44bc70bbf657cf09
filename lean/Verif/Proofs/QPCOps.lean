import Verif.Proofs.QPCFactor

/-!
Members of the working set leaving it: the whole operations of `QProblem`.
-/
namespace QpOASES
open Finset Props SubjectToStatus ReturnValue HessianType

set_option linter.unusedSectionVars false

variable {K : Type} [Field K] [LinearOrder K] [IsStrictOrderedRing K]

namespace QPC

/-- The factors belong to the working set. -/
structure Facs (s : QPC K) : Prop where
  shape : s.Shape
  tq : s.TQ
  chol : s.Chol
  sym : s.SymH

theorem Facs.congr' {s s' : QPC K} (h : s.Facs) (hbo : s'.bounds.OK) (hbf : s'.bounds.free = s.bounds.free) (hbn : s'.bounds.n = s.bounds.n)
    (hco : s'.cons.OK) (hcx : s'.cons.fixed = s.cons.fixed) (hcn : s'.cons.n = s.cons.n) (hT : s'.T = s.T) (hQ : s'.Q = s.Q)
    (hR : s'.R = s.R) (hH : s'.H = s.H) (hA : s'.A = s.A) (hn : s'.nV = s.nV) (hm : s'.nC = s.nC) (hz : s'.sizeT = s.sizeT)
    (hg : s'.general = true → s.general = true) : s'.Facs := by
  obtain ⟨h1, h2, h3, h4⟩ := h
  have e1 : s'.nFR = s.nFR := congrArg List.length hbf
  have e2 : s'.nAC = s.nAC := congrArg List.length hcx
  have e3 : s'.F = s.F := congrArg List.toFinset hbf
  have e4 : s'.ac = s.ac := by funext i; exact congrArg (fun l : List Nat => l.getD i 0) hcx
  have e5 : s'.nZ = s.nZ := by unfold nZ; rw [e1, e2]
  refine ⟨⟨hbo, hco, ?_, ?_, ?_⟩, ⟨?_, ?_⟩, ?_, ?_⟩
  · rw [hbn, hn]; exact h1.nB
  · rw [hcn, hm]; exact h1.nC
  · rw [hz, hn, hm]; exact h1.size
  · rw [e1, e2]; exact h2.le
  · rw [e1, e2, e3, e4, hA, hQ, hT, hz]; exact h2.tq
  · intro hgg
    obtain ⟨H, k1, k2, k3⟩ := h3 (hg hgg)
    refine ⟨H, hH.trans k1, ?_, ?_⟩
    · rw [e3, e5, hQ, hR]; exact k2
    · rw [hR]; exact k3
  · intro H hHH
    rw [hn]
    rw [hH] at hHH
    exact h4 H hHH

theorem Facs.congr {s s' : QPC K} (h : s.Facs) (hb : s'.bounds = s.bounds) (hc : s'.cons = s.cons) (hT : s'.T = s.T) (hQ : s'.Q = s.Q)
    (hR : s'.R = s.R) (hH : s'.H = s.H) (hA : s'.A = s.A) (hn : s'.nV = s.nV) (hm : s'.nC = s.nC) (hz : s'.sizeT = s.sizeT)
    (hg : s'.general = true → s.general = true) : s'.Facs :=
  h.congr' (hb ▸ h.shape.okB) (by rw [hb]) (by rw [hb]) (hc ▸ h.shape.okC) (by rw [hc]) (by rw [hc]) hT hQ hR hH hA hn hm hz hg

/-- What is needed of `rho2`, the square of the new diagonal element of `R`: its square root is exact; if the removal must not be undone by a
flip, it is not replaced by a small number. -/
def RhoOK (sq : K → K) (s : QPC K) (allowFlipping : Bool) (rho2 : K) : Prop :=
  if s.options.enableFlippingBounds = true ∧ allowFlipping = true then s.options.epsFlipping < rho2 → sq rho2 * sq rho2 = rho2
  else (ZERO < rho2 → sq rho2 * sq rho2 = rho2) ∧ (rho2 ≤ ZERO → allowFlipping = true)

theorem newDiag_spec {sq : K → K} {s s0 : QPC K} {nZ : Nat} {rho2 : K} {af : Bool} (ho : s.options = s0.options) (h : RhoOK sq s0 af rho2) :
    (newDiag sq s nZ rho2 af false = none ∧ s0.options.enableFlippingBounds = true ∧ af = true) ∨
      (∃ d, newDiag sq s nZ rho2 af false = some (SUCCESSFUL_RETURN, { s with R := fun i j => if i = nZ ∧ j = nZ then d else s.R i j }) ∧
        d * d = rho2) ∨
      (∃ s', newDiag sq s nZ rho2 af false = some (RET_HESSIAN_NOT_SPD, s')) := by
  unfold newDiag
  unfold RhoOK at h
  dsimp only
  rw [ho]
  by_cases h1 : s0.options.enableFlippingBounds = true ∧ af = true
  · rw [if_pos h1] at h
    rw [if_pos ⟨h1.1, h1.2, rfl⟩]
    by_cases h2 : rho2 > s0.options.epsFlipping
    · rw [if_pos h2]
      exact Or.inr (Or.inl ⟨_, rfl, h h2⟩)
    · rw [if_neg h2]
      exact Or.inl ⟨rfl, h1⟩
  · rw [if_neg h1] at h
    rw [if_neg (fun hh => h1 ⟨hh.1, hh.2.1⟩), if_pos rfl]
    by_cases h2 : rho2 > ZERO
    · rw [if_pos h2]
      exact Or.inr (Or.inl ⟨_, rfl, h.1 h2⟩)
    · rw [if_neg h2, h.2 (not_lt.1 h2), if_neg (by decide)]
      exact Or.inr (Or.inr ⟨_, rfl⟩)

/-! ### constraints -/

/-- Rotations and roots are exact when constraint `number` leaves. -/
def CleanRemoveC (sq : K → K) (s : QPC K) (number : Nat) (allowFlipping : Bool) : Prop :=
  s.CleanRemC sq number ∧ (s.general = true → ∀ v rho2, newColumnC { s with
      T := (removeRow sq s (s.cons.fixed.idxOf number)).1
      Q := (removeRow sq s (s.cons.fixed.idxOf number)).2 } = .ok (some (v, rho2)) → RhoOK sq s allowFlipping rho2)

/-- Constraint `number` has left the working set. -/
def RemovedC (s : QPC K) (number : Nat) (s' : QPC K) : Prop :=
  ∃ T Q R fl, s' = { s with T := T, Q := Q, R := R, flipC := fl, cons := s.cons.moveFixedToFree number }

/-- Constraint `number` has been flipped: its opposite limit has been moved to its value. -/
def FlippedC (s : QPC K) (number : Nat) (s' : QPC K) : Prop :=
  ∃ fl, (s.cons.status number = ST_UPPER ∧ s' = { s with
      flipC := fl, hessianType := HST_SEMIDEF, cons := s.cons.flipFixed number
      lbA := updA s.lbA number (s.ubA number), Axl := updA s.Axl number (-s.Axu number) }) ∨
    (s.cons.status number = ST_LOWER ∧ s' = { s with
      flipC := fl, hessianType := HST_SEMIDEF, cons := s.cons.flipFixed number
      ubA := updA s.ubA number (s.lbA number), Axu := updA s.Axu number (-s.Axl number) })

theorem getStatus_fixed {w : WS} (hw : w.OK) {i : Nat} (hi : i ∈ w.fixed) : w.getStatus i = w.status i :=
  if_pos (hw.lt_fixed hi)

theorem FlippedC.facs {s s' : QPC K} {number : Nat} (h : FlippedC s number s') (hf : s.Facs) (hnum : number ∈ s.cons.fixed)
    (hg : s.general = true) : s'.Facs := by
  obtain ⟨e1, e2, e3, _⟩ := s.cons.flipFixed_fields number
  obtain ⟨fl, ⟨_, rfl⟩ | ⟨_, rfl⟩⟩ := h <;>
    exact hf.congr' hf.shape.okB rfl rfl (hf.shape.okC.flipFixed hnum) e3 e1 rfl rfl rfl rfl rfl rfl rfl rfl fun _ => hg

theorem flipConstraint_spec {s s0 : QPC K} {number : Nat} (hw : s0.cons.OK) (hnum : number ∈ s0.cons.fixed)
    (hfl : s.flipC = some (s0.bounds, s0.R, s0.cons, s0.Q, s0.T))
    (hs : { s with bounds := s0.bounds, R := s0.R, cons := s0.cons, Q := s0.Q, T := s0.T, flipC := s0.flipC } = s0) :
    ∃ s', s.flipConstraint number = (SUCCESSFUL_RETURN, s') ∧ FlippedC s0 number s' := by
  have er : restoreFlip { s with hessianType := HST_SEMIDEF } = { s0 with hessianType := HST_SEMIDEF, flipC := s.flipC } := by
    unfold restoreFlip
    dsimp only
    rw [hfl, ← hs]
  unfold flipConstraint
  dsimp only
  rw [er]
  dsimp only
  rw [getStatus_fixed (hw.flipFixed hnum) (by rw [(s0.cons.flipFixed_fields number).2.2.1]; exact hnum)]
  rcases s0.cons.flipFixed_status (hw.fixed number hnum) with ⟨h1, h2⟩ | ⟨h1, h2⟩
  · rw [h2]
    exact ⟨_, rfl, s.flipC, Or.inr ⟨h1, rfl⟩⟩
  · rw [h2]
    exact ⟨_, rfl, s.flipC, Or.inl ⟨h1, rfl⟩⟩

theorem removeConstraintUpdate_spec {sq : K → K} {s s' : QPC K} (h : s.Facs) {number : Nat} (hnum : number ∈ s.cons.fixed)
    {af : Bool} (hc : s.CleanRemoveC sq number af)
    (heq : removeConstraintUpdate sq s number true af none = .ok (SUCCESSFUL_RETURN, s')) :
    s'.Facs ∧ (RemovedC s number s' ∨ (af = true ∧ s.options.enableFlippingBounds = true ∧ s.general = true ∧ FlippedC s number s')) := by
  obtain ⟨hc1, hc2⟩ := hc
  unfold removeConstraintUpdate at heq
  dsimp only at heq
  have es : ∃ fl, (if (none : Option Change).isNone = true ∧ s.options.enableFlippingBounds = true ∧ af = true then s.saveFlip else s) =
      { s with flipC := fl } ∧
      (s.options.enableFlippingBounds = true → af = true → fl = some (s.bounds, s.R, s.cons, s.Q, s.T)) := by
    split
    · exact ⟨_, rfl, fun _ _ => rfl⟩
    · next hn => exact ⟨s.flipC, rfl, fun h1 h2 => absurd ⟨rfl, h1, h2⟩ hn⟩
  obtain ⟨fl, e, hfl⟩ := es
  rw [e] at heq
  dsimp only at heq
  have e1 : ({ s with flipC := fl } : QPC K).nZ = s.nZ := rfl
  have e2 : removeRow sq { s with flipC := fl } (s.cons.fixed.idxOf number) = removeRow sq s (s.cons.fixed.idxOf number) := rfl
  rw [e1, e2] at heq
  by_cases hg : s.general = true
  · rw [if_pos ⟨rfl, hg⟩] at heq
    rw [Res.bind_eq_ok] at heq
    obtain ⟨q, hq, heq⟩ := heq
    have hq' : newColumnC { s with
      T := (removeRow sq s (s.cons.fixed.idxOf number)).1
      Q := (removeRow sq s (s.cons.fixed.idxOf number)).2 } = .ok q := hq
    cases q with
    | none => simp only [Res.ok.injEq, Prod.mk.injEq] at heq; exact absurd heq.1 (by decide)
    | some q =>
      obtain ⟨v, rho2⟩ := q
      dsimp only at heq
      generalize hs1 : ({ s with
        flipC := fl, T := (removeRow sq s (s.cons.fixed.idxOf number)).1, Q := (removeRow sq s (s.cons.fixed.idxOf number)).2
        R := fun i j => if i < s.nZ ∧ j = s.nZ then v i else s.R i j } : QPC K) = s1 at heq
      rcases newDiag_spec (nZ := s.nZ) (s := s1) (s0 := s) (by rw [← hs1]) (hc2 hg v rho2 hq') with ⟨h1, h2, h3⟩ | ⟨d, h1, h2⟩ | ⟨s2, h1⟩
      · rw [show (none : Option Change).isSome = false from rfl, h1] at heq
        dsimp only at heq
        obtain ⟨s2, k1, k2⟩ := flipConstraint_spec (s := s1) (s0 := s) h.shape.okC hnum (by rw [← hs1]; exact hfl h2 h3) (by rw [← hs1])
        rw [k1] at heq
        cases heq
        exact ⟨k2.facs h hnum hg, Or.inr ⟨h3, h2, hg, k2⟩⟩
      · rw [show (none : Option Change).isSome = false from rfl, h1] at heq
        dsimp only at heq
        rw [if_neg (by simp)] at heq
        obtain ⟨c1, c2⟩ := removeC_core h.shape h.tq hnum hc1 fl
          (fun i j => if i = s.nZ ∧ j = s.nZ then d else if i < s.nZ ∧ j = s.nZ then v i else s.R i j)
        have c3 := removeC_chol h.shape h.tq hnum hc1 fl h.chol hg hq' h2
        subst hs1
        cases heq
        exact ⟨⟨c1, c2, c3, h.sym⟩, Or.inl ⟨_, _, _, _, rfl⟩⟩
      · rw [show (none : Option Change).isSome = false from rfl, h1] at heq
        dsimp only at heq
        rw [if_pos (by decide)] at heq
        simp only [Res.ok.injEq, Prod.mk.injEq] at heq
        exact absurd heq.1 (by decide)
  · rw [if_neg (fun hh => hg hh.2)] at heq
    cases heq
    obtain ⟨c1, c2⟩ := removeC_core h.shape h.tq hnum hc1 fl s.R
    exact ⟨⟨c1, c2, fun hh => absurd hh hg, h.sym⟩, Or.inl ⟨_, _, _, _, rfl⟩⟩

/-! ### bounds -/

/-- Rotations and roots are exact when the bound of variable `number` leaves. -/
def CleanRemoveB (sq : K → K) (s : QPC K) (number : Nat) (allowFlipping : Bool) : Prop :=
  s.CleanRemB sq number ∧ (s.general = true → ∀ v rho2, newColumnB
    { s with T := (s.freed sq number).1, Q := (s.freed sq number).2.2, bounds := s.bounds.moveFixedToFree number }
      s.nFR s.nZ number = .ok (some (v, rho2)) → RhoOK sq s allowFlipping rho2)

/-- The bound of variable `number` has left the working set. -/
def RemovedB (s : QPC K) (number : Nat) (s' : QPC K) : Prop :=
  ∃ T Q R fl, s' = { s with T := T, Q := Q, R := R, flipC := fl, bounds := s.bounds.moveFixedToFree number }

/-- The bound of variable `number` has been flipped: its opposite limit has been moved to its value. -/
def FlippedB (s : QPC K) (number : Nat) (s' : QPC K) : Prop :=
  ∃ fl, (s.bounds.status number = ST_UPPER ∧ s' = { s with
      flipC := fl, hessianType := HST_SEMIDEF, bounds := s.bounds.flipFixed number, lb := updA s.lb number (s.ub number) }) ∨
    (s.bounds.status number = ST_LOWER ∧ s' = { s with
      flipC := fl, hessianType := HST_SEMIDEF, bounds := s.bounds.flipFixed number, ub := updA s.ub number (s.lb number) })

theorem FlippedB.facs {s s' : QPC K} {number : Nat} (h : FlippedB s number s') (hf : s.Facs) (hnum : number ∈ s.bounds.fixed)
    (hg : s.general = true) : s'.Facs := by
  obtain ⟨e1, e2, e3, _⟩ := s.bounds.flipFixed_fields number
  obtain ⟨fl, ⟨_, rfl⟩ | ⟨_, rfl⟩⟩ := h <;>
    exact hf.congr' (hf.shape.okB.flipFixed hnum) e2 e1 hf.shape.okC rfl rfl rfl rfl rfl rfl rfl rfl rfl rfl fun _ => hg

theorem flipBound_spec {s s0 : QPC K} {number : Nat} (hw : s0.bounds.OK) (hnum : number ∈ s0.bounds.fixed) (hz : s0.hessianType ≠ HST_ZERO)
    (hfl : s.flipC = some (s0.bounds, s0.R, s0.cons, s0.Q, s0.T))
    (hs : { s with bounds := s0.bounds, R := s0.R, cons := s0.cons, Q := s0.Q, T := s0.T, flipC := s0.flipC } = s0) :
    ∃ s', s.flipBound number = (SUCCESSFUL_RETURN, s') ∧ FlippedB s0 number s' := by
  have eh : s.hessianType = s0.hessianType := by rw [← hs]
  have er : restoreFlip { s with hessianType := HST_SEMIDEF } = { s0 with hessianType := HST_SEMIDEF, flipC := s.flipC } := by
    unfold restoreFlip
    dsimp only
    rw [hfl, ← hs]
  unfold flipBound
  dsimp only
  rw [eh, if_pos hz, er]
  dsimp only
  rw [getStatus_fixed (hw.flipFixed hnum) (by rw [(s0.bounds.flipFixed_fields number).2.2.1]; exact hnum)]
  rcases s0.bounds.flipFixed_status (hw.fixed number hnum) with ⟨h1, h2⟩ | ⟨h1, h2⟩
  · rw [h2]
    exact ⟨_, rfl, s.flipC, Or.inr ⟨h1, rfl⟩⟩
  · rw [h2]
    exact ⟨_, rfl, s.flipC, Or.inl ⟨h1, rfl⟩⟩

theorem general_ne_zero {s : QPC K} (hg : s.general = true) : s.hessianType ≠ HST_ZERO := by
  unfold general at hg
  intro e
  rw [e] at hg
  exact absurd hg (by decide)

theorem removeBoundUpdate_spec {sq : K → K} {s s' : QPC K} (h : s.Facs) {number : Nat} (hnum : number ∈ s.bounds.fixed)
    {af : Bool} (hc : s.CleanRemoveB sq number af)
    (heq : removeBoundUpdate sq s number true af none = .ok (SUCCESSFUL_RETURN, s')) :
    s'.Facs ∧ (RemovedB s number s' ∨ (af = true ∧ s.options.enableFlippingBounds = true ∧ s.general = true ∧ FlippedB s number s')) := by
  obtain ⟨hc1, hc2⟩ := hc
  unfold removeBoundUpdate at heq
  dsimp only at heq
  have es : ∃ fl, (if s.options.enableFlippingBounds = true ∧ af = true ∧ (none : Option Change).isNone = true then s.saveFlip else s) =
      { s with flipC := fl } ∧
      (s.options.enableFlippingBounds = true → af = true → fl = some (s.bounds, s.R, s.cons, s.Q, s.T)) := by
    split
    · exact ⟨_, rfl, fun _ _ => rfl⟩
    · next hn => exact ⟨s.flipC, rfl, fun h1 h2 => absurd ⟨h1, h2, rfl⟩ hn⟩
  obtain ⟨fl, e, hfl⟩ := es
  rw [e] at heq
  dsimp only at heq
  have e1 : ({ s with flipC := fl } : QPC K).nZ = s.nZ := rfl
  have e1' : ({ s with flipC := fl } : QPC K).nFR = s.nFR := rfl
  have e2 : loop (removeBoundStep sq ({ s with flipC := fl, bounds := s.bounds.moveFixedToFree number } : QPC K).isFree
      ({ s with flipC := fl } : QPC K).nAC s.nZ (s.sizeT - ({ s with flipC := fl } : QPC K).nAC)) ({ s with flipC := fl } : QPC K).nAC
      (s.T, fun i => s.A (({ s with flipC := fl, bounds := s.bounds.moveFixedToFree number } : QPC K).ac i) number,
        fun i j => if i = number then (if j = s.nFR then 1 else if j < s.nFR then 0 else s.Q i j)
          else if ({ s with flipC := fl } : QPC K).isFree i = true ∧ j = s.nFR then 0 else s.Q i j) = s.freed sq number := rfl
  rw [e1, e1', e2] at heq
  by_cases hg : s.general = true
  · rw [if_pos ⟨rfl, hg⟩] at heq
    rw [Res.bind_eq_ok] at heq
    obtain ⟨q, hq, heq⟩ := heq
    have hq' : newColumnB
      { s with T := (s.freed sq number).1, Q := (s.freed sq number).2.2, bounds := s.bounds.moveFixedToFree number }
      s.nFR s.nZ number = .ok q := hq
    cases q with
    | none => simp only [Res.ok.injEq, Prod.mk.injEq] at heq; exact absurd heq.1 (by decide)
    | some q =>
      obtain ⟨v, rho2⟩ := q
      dsimp only at heq
      generalize hs1 : ({ s with
        flipC := fl, T := (s.freed sq number).1, Q := (s.freed sq number).2.2, bounds := s.bounds.moveFixedToFree number
        R := fun i j => if i < s.nZ ∧ j = s.nZ then v i else s.R i j } : QPC K) = s1 at heq
      rcases newDiag_spec (nZ := s.nZ) (s := s1) (s0 := s) (by rw [← hs1]) (hc2 hg v rho2 hq') with ⟨h1, h2, h3⟩ | ⟨d, h1, h2⟩ | ⟨s2, h1⟩
      · rw [show (none : Option Change).isSome = false from rfl, h1] at heq
        dsimp only at heq
        obtain ⟨s2, k1, k2⟩ := flipBound_spec (s := s1) (s0 := s) h.shape.okB hnum (general_ne_zero hg)
          (by rw [← hs1]; exact hfl h2 h3) (by rw [← hs1])
        rw [k1] at heq
        cases heq
        exact ⟨k2.facs h hnum hg, Or.inr ⟨h3, h2, hg, k2⟩⟩
      · rw [show (none : Option Change).isSome = false from rfl, h1] at heq
        dsimp only at heq
        rw [if_neg (by simp)] at heq
        obtain ⟨c1, c2⟩ := removeB_core h.shape h.tq hnum hc1 fl
          (fun i j => if i = s.nZ ∧ j = s.nZ then d else if i < s.nZ ∧ j = s.nZ then v i else s.R i j)
        have c3 := removeB_chol h.shape h.tq h.sym hnum hc1 fl h.chol hg hq' h2
        subst hs1
        cases heq
        exact ⟨⟨c1, c2, c3, h.sym⟩, Or.inl ⟨_, _, _, _, rfl⟩⟩
      · rw [show (none : Option Change).isSome = false from rfl, h1] at heq
        dsimp only at heq
        rw [if_pos (by decide)] at heq
        simp only [Res.ok.injEq, Prod.mk.injEq] at heq
        exact absurd heq.1 (by decide)
  · rw [if_neg (fun hh => hg hh.2)] at heq
    cases heq
    obtain ⟨c1, c2⟩ := removeB_core h.shape h.tq hnum hc1 fl s.R
    exact ⟨⟨c1, c2, fun hh => absurd hh hg, h.sym⟩, Or.inl ⟨_, _, _, _, rfl⟩⟩

end QPC
end QpOASES
