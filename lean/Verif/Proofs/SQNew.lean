import Verif.Model.SQProblem
import Verif.Proofs.QPCSession

/-!
Hotstarts with new matrices: what setting up the auxiliary QP changes.
-/
namespace QpOASES
open Finset Props Spec SubjectToStatus SubjectToType ReturnValue HessianType QProblemStatus
open QPB (Proper lowerOf upperOf GivenHessian EqualitiesOK)

set_option linter.unusedSectionVars false

variable {K : Type} [Field K] [LinearOrder K] [IsStrictOrderedRing K]

namespace QPC

/-! ### frame -/

/-- The working set of `s'` is that of `s` with members taken from `auxB` and `auxC`, and equalities added at their lower limit.
Besides, only the factors and options differ. -/
structure Adopts (auxB auxC : WS) (s' s : QPC K) : Prop where
  frame : ∃ T Q R wB wC o, s' = { s with T := T, Q := Q, R := R, bounds := wB, cons := wC, options := o }
  typeB : s'.bounds.type = s.bounds.type
  eqC : ∀ i, s'.cons.type i = ST_EQUALITY → s.cons.type i = ST_EQUALITY
  stB : ∀ i, s'.bounds.status i = s.bounds.status i ∨ s'.bounds.status i = auxB.getStatus i ∨ (s.bounds.type i = ST_EQUALITY ∧ s'.bounds.status i = ST_LOWER)
  stC : ∀ i, s'.cons.status i = s.cons.status i ∨ s'.cons.status i = auxC.getStatus i ∨ (s.cons.type i = ST_EQUALITY ∧ s'.cons.status i = ST_LOWER)

theorem Adopts.refl (auxB auxC : WS) (s : QPC K) : Adopts auxB auxC s s :=
  ⟨⟨s.T, s.Q, s.R, s.bounds, s.cons, s.options, rfl⟩, rfl, fun _ h => h, fun _ => Or.inl rfl, fun _ => Or.inl rfl⟩

theorem Adopts.trans {auxB auxC : WS} {a b c : QPC K} (h : Adopts auxB auxC a b) (g : Adopts auxB auxC b c) : Adopts auxB auxC a c := by
  refine ⟨?_, h.typeB.trans g.typeB, fun i hi => g.eqC i (h.eqC i hi), fun i => ?_, fun i => ?_⟩
  · obtain ⟨T, Q, R, wB, wC, o, e⟩ := h.frame
    obtain ⟨T', Q', R', wB', wC', o', e'⟩ := g.frame
    exact ⟨T, Q, R, wB, wC, o, by rw [e, e']⟩
  · rcases h.stB i with h1 | h1 | ⟨h1, h2⟩
    · rw [h1]; exact g.stB i
    · exact Or.inr (Or.inl h1)
    · rw [g.typeB] at h1; exact Or.inr (Or.inr ⟨h1, h2⟩)
  · rcases h.stC i with h1 | h1 | ⟨h1, h2⟩
    · rw [h1]; exact g.stC i
    · exact Or.inr (Or.inl h1)
    · exact Or.inr (Or.inr ⟨g.eqC i h1, h2⟩)

theorem addBoundPlain_adopts {sq : K → K} {s : QPC K} {i : Nat} {st : SubjectToStatus} {upd : Bool} {auxB auxC : WS}
    (hst : st = auxB.getStatus i ∨ (s.bounds.type i = ST_EQUALITY ∧ st = ST_LOWER)) {p : ReturnValue × QPC K}
    (e : addBoundPlain sq s i st upd = .ok p) : Adopts auxB auxC p.2 s := by
  unfold addBoundPlain at e
  split at e
  · simp only [Res.ok.injEq] at e
    subst e
    exact Adopts.refl _ _ _
  unfold addBoundUpdate at e
  dsimp only at e
  split at e
  · cases e
  simp only [Res.ok.injEq] at e
  subst e
  have key : ∀ (T Q R : Nat → Nat → K) (w : WS), w.type = s.bounds.type → w.status = s.bounds.status →
      Adopts auxB auxC ({ s with T := T, Q := Q, R := R, bounds := w.moveFreeToFixed i st } : QPC K) s := by
    intro T Q R w h1 h2
    refine ⟨⟨_, _, _, _, _, s.options, rfl⟩, h1, fun _ h => h, fun j => ?_, fun _ => Or.inl rfl⟩
    show updA w.status i st j = _ ∨ updA w.status i st j = _ ∨ _ ∧ updA w.status i st j = _
    by_cases hj : j = i
    · subst hj
      rw [updA_same]
      rcases hst with h | h
      · exact Or.inr (Or.inl h)
      · exact Or.inr (Or.inr h)
    · rw [updA_ne _ _ hj, h2]
      exact Or.inl rfl
  by_cases hl : s.fr (s.nFR - 1) ≠ i
  · simp only [if_pos hl]
    by_cases ha : 0 < s.nAC
    · simp only [if_pos ha]; exact key _ _ _ _ rfl rfl
    · simp only [if_neg ha]; exact key _ _ _ _ rfl rfl
  · simp only [if_neg hl]
    by_cases ha : 0 < s.nAC
    · simp only [if_pos ha]; exact key _ _ _ _ rfl rfl
    · simp only [if_neg ha]; exact key _ _ _ _ rfl rfl

theorem addConstraintPlain_adopts {sq : K → K} {s : QPC K} {i : Nat} {st : SubjectToStatus} {upd : Bool} {auxB auxC : WS}
    (hst : st = auxC.getStatus i ∨ (s.cons.type i = ST_EQUALITY ∧ st = ST_LOWER)) {p : ReturnValue × QPC K}
    (e : addConstraintPlain sq s i st upd = .ok p) : Adopts auxB auxC p.2 s := by
  unfold addConstraintPlain at e
  split at e
  · simp only [Res.ok.injEq] at e
    subst e
    exact Adopts.refl _ _ _
  unfold addConstraintUpdate at e
  dsimp only at e
  split at e
  · cases e
  simp only [Res.ok.injEq] at e
  subst e
  have key : ∀ (T Q R : Nat → Nat → K), Adopts auxB auxC ({ s with T := T, Q := Q, R := R, cons := s.cons.moveFreeToFixed i st } : QPC K) s := by
    intro T Q R
    refine ⟨⟨_, _, _, _, _, s.options, rfl⟩, rfl, fun _ h => h, fun _ => Or.inl rfl, fun j => ?_⟩
    show updA s.cons.status i st j = _ ∨ updA s.cons.status i st j = _ ∨ _ ∧ updA s.cons.status i st j = _
    by_cases hj : j = i
    · subst hj
      rw [updA_same]
      rcases hst with h | h
      · exact Or.inr (Or.inl h)
      · exact Or.inr (Or.inr h)
    · rw [updA_ne _ _ hj]
      exact Or.inl rfl
  by_cases ha : 0 < s.nZ
  · simp only [if_pos ha]; exact key _ _ _
  · simp only [if_neg ha]; exact key _ _ _

theorem seqLoop_adopts {auxB auxC : WS} {f : Nat → QPC K → Res (ReturnValue × QPC K)} (hf : ∀ i s p, f i s = .ok p → Adopts auxB auxC p.2 s) :
    ∀ (m i : Nat) (s : QPC K) (p : ReturnValue × QPC K), seqLoop f m i s = .ok p → Adopts auxB auxC p.2 s := by
  intro m
  induction m with
  | zero =>
    intro i s p e
    simp only [seqLoop, Res.ok.injEq] at e
    subst e
    exact Adopts.refl _ _ _
  | succ m ih =>
    intro i s p e
    rw [seqLoop, Res.bind_eq_ok] at e
    obtain ⟨⟨r, s1⟩, e1, e⟩ := e
    dsimp only at e
    have h1 := hf i s _ e1
    split at e
    · simp only [Res.ok.injEq] at e
      subst e
      exact h1
    · exact (ih _ _ _ e).trans h1

theorem auxEqB_adopts {sq : K → K} {auxB auxC : WS} (i : Nat) (s : QPC K) (p : ReturnValue × QPC K) (e : auxEqB sq false i s = .ok p) :
    Adopts auxB auxC p.2 s := by
  unfold auxEqB addBoundAs at e
  split at e
  · next h => exact addBoundPlain_adopts (Or.inr ⟨h.1, rfl⟩) e
  · simp only [Res.ok.injEq] at e
    subst e
    exact Adopts.refl _ _ _

theorem auxEqC_adopts {sq : K → K} {auxB auxC : WS} (i : Nat) (s : QPC K) (p : ReturnValue × QPC K) (e : auxEqC sq false i s = .ok p) :
    Adopts auxB auxC p.2 s := by
  unfold auxEqC addConstraintAs at e
  split at e
  · next h =>
    rw [Res.bind_eq_ok] at e
    obtain ⟨b, _, e⟩ := e
    split at e
    · exact addConstraintPlain_adopts (Or.inr ⟨h.1, rfl⟩) e
    · simp only [Res.ok.injEq] at e
      subst e
      refine ⟨⟨s.T, s.Q, s.R, s.bounds, _, s.options, rfl⟩, rfl, fun j hj => ?_, fun _ => Or.inl rfl, fun _ => Or.inl rfl⟩
      have hj : updA s.cons.type i ST_BOUNDED j = ST_EQUALITY := hj
      by_cases e : j = i
      · subst e; rw [updA_same] at hj; cases hj
      · rwa [updA_ne _ _ e] at hj
  · simp only [Res.ok.injEq] at e
    subst e
    exact Adopts.refl _ _ _

theorem auxAddB_adopts {sq : K → K} {auxB auxC : WS} (i : Nat) (s : QPC K) (p : ReturnValue × QPC K) (e : auxAddB sq (some auxB) false i s = .ok p) :
    Adopts auxB auxC p.2 s := by
  unfold auxAddB addBoundAs at e
  split at e
  · rw [Res.bind_eq_ok] at e
    obtain ⟨b, _, e⟩ := e
    split at e
    · exact addBoundPlain_adopts (Or.inl rfl) e
    · simp only [Res.ok.injEq] at e
      subst e
      exact Adopts.refl _ _ _
  · simp only [Res.ok.injEq] at e
    subst e
    exact Adopts.refl _ _ _

theorem auxAddC_adopts {sq : K → K} {auxB auxC : WS} (i : Nat) (s : QPC K) (p : ReturnValue × QPC K) (e : auxAddC sq (some auxC) false i s = .ok p) :
    Adopts auxB auxC p.2 s := by
  unfold auxAddC addConstraintAs at e
  split at e
  · rw [Res.bind_eq_ok] at e
    obtain ⟨b, _, e⟩ := e
    split at e
    · exact addConstraintPlain_adopts (Or.inl rfl) e
    · simp only [Res.ok.injEq] at e
      subst e
      exact Adopts.refl _ _ _
  · simp only [Res.ok.injEq] at e
    subst e
    exact Adopts.refl _ _ _

theorem auxLoops_adopts {sq : K → K} {auxB auxC : WS} {s : QPC K} {p : ReturnValue × QPC K} (e : auxLoops sq s (some auxB) (some auxC) true = .ok p) :
    Adopts auxB auxC p.2 s := by
  unfold auxLoops at e
  dsimp only at e
  rw [if_pos rfl, Res.bind_ok] at e
  dsimp only at e
  rw [if_neg (by simp), Res.bind_eq_ok] at e
  obtain ⟨⟨r1, s1⟩, e1, e⟩ := e
  have h1 : Adopts auxB auxC s1 s := seqLoop_adopts auxEqB_adopts _ _ _ _ e1
  dsimp only at e
  split at e
  · simp only [Res.ok.injEq] at e; subst e; exact h1
  rw [Res.bind_eq_ok] at e
  obtain ⟨⟨r2, s2⟩, e2, e⟩ := e
  have h2 : Adopts auxB auxC s2 s := (seqLoop_adopts auxEqC_adopts _ _ _ _ e2).trans h1
  dsimp only at e
  split at e
  · simp only [Res.ok.injEq] at e; subst e; exact h2
  rw [Res.bind_eq_ok] at e
  obtain ⟨⟨r3, s3⟩, e3, e⟩ := e
  have h3 : Adopts auxB auxC s3 s := (seqLoop_adopts auxAddB_adopts _ _ _ _ e3).trans h2
  dsimp only at e
  split at e
  · simp only [Res.ok.injEq] at e; subst e; exact h3
  exact (seqLoop_adopts auxAddC_adopts _ _ _ _ e).trans h3

theorem fixLoop_status (w : WS) : ∀ (m : Nat) (b : WS),
    (loop (fun i b => if b.getStatus i = ST_INACTIVE then b.moveFreeToFixed i (w.getStatus i) else b) m b).type = b.type ∧
    ∀ i, (loop (fun i b => if b.getStatus i = ST_INACTIVE then b.moveFreeToFixed i (w.getStatus i) else b) m b).status i = b.status i ∨
      (loop (fun i b => if b.getStatus i = ST_INACTIVE then b.moveFreeToFixed i (w.getStatus i) else b) m b).status i = w.getStatus i := by
  intro m
  induction m with
  | zero => intro b; exact ⟨rfl, fun _ => Or.inl rfl⟩
  | succ m ih =>
    intro b
    rw [loop]
    obtain ⟨h1, h2⟩ := ih b
    generalize loop (fun i b => if b.getStatus i = ST_INACTIVE then b.moveFreeToFixed i (w.getStatus i) else b) m b = c at h1 h2
    split
    · refine ⟨h1, fun i => ?_⟩
      show updA c.status m _ i = _ ∨ updA c.status m _ i = _
      by_cases hi : i = m
      · subst hi; rw [updA_same]; exact Or.inr rfl
      · rw [updA_ne _ _ hi]; exact h2 i
    · exact ⟨h1, h2⟩

theorem setupAuxiliaryWorkingSet_adopts {sq : K → K} {auxB auxC : WS} {s : QPC K} {p : ReturnValue × QPC K}
    (e : setupAuxiliaryWorkingSet sq s (some auxB) (some auxC) true = .ok p) : Adopts auxB auxC p.2 s := by
  unfold setupAuxiliaryWorkingSet at e
  split at e
  · simp only [Res.ok.injEq] at e; subst e; exact Adopts.refl _ _ _
  split at e
  · simp only [Res.ok.injEq] at e; subst e; exact Adopts.refl _ _ _
  split at e
  · simp only [Res.ok.injEq] at e
    subst e
    obtain ⟨h1, h2⟩ := fixLoop_status auxB s.nV s.bounds
    exact ⟨⟨s.T, s.Q, s.R, _, s.cons, s.options, rfl⟩, h1, fun _ h => h, fun i => (h2 i).imp id Or.inl, fun _ => Or.inl rfl⟩
  dsimp only at e
  rw [Res.bind_eq_ok] at e
  obtain ⟨⟨r, s1⟩, e1, e⟩ := e
  have h := auxLoops_adopts e1
  have key : ∀ o, Adopts auxB auxC ({ s1 with options := o } : QPC K) s := by
    intro o
    obtain ⟨T, Q, R, wB, wC, o', ef⟩ := h.frame
    exact ⟨⟨T, Q, R, wB, wC, o, by rw [show s1 = _ from ef]⟩, h.typeB, h.eqC, h.stB, h.stC⟩
  dsimp only at e
  split at e
  · simp only [Res.ok.injEq] at e; subst e; exact key s1.options
  · simp only [Res.ok.injEq] at e; subst e; exact key _

theorem computeCholesky_frame {sq : K → K} {s : QPB K} {p : ReturnValue × QPB K} (e : QPB.computeCholesky sq s = .ok p) :
    ∃ R o t, p.2 = { s with R := R, options := o, hessianType := t } := by
  unfold QPB.computeCholesky at e
  dsimp only at e
  split at e
  · split at e <;> simp only [Res.ok.injEq] at e <;> subst e <;> exact ⟨_, s.options, s.hessianType, rfl⟩
  · simp only [Res.ok.injEq] at e; subst e; exact ⟨_, s.options, s.hessianType, rfl⟩
  · split at e
    · rw [Res.bind_eq_ok] at e
      obtain ⟨H, _, e⟩ := e
      split at e
      · simp only [Res.ok.injEq] at e
        subst e
        split
        · exact ⟨_, _, HST_SEMIDEF, rfl⟩
        · exact ⟨_, s.options, HST_SEMIDEF, rfl⟩
      · simp only [Res.ok.injEq] at e; subst e; exact ⟨_, s.options, s.hessianType, rfl⟩
    · simp only [Res.ok.injEq] at e; subst e; exact ⟨_, s.options, s.hessianType, rfl⟩

theorem computeProjectedCholesky_frame {sq : K → K} {s : QPC K} {p : ReturnValue × QPC K} (e : computeProjectedCholesky sq s = .ok p) :
    ∃ Q R o t, p.2 = { s with Q := Q, R := R, options := o, hessianType := t } := by
  unfold computeProjectedCholesky at e
  split at e
  · rw [Res.bind_eq_ok] at e
    obtain ⟨⟨r, b⟩, e1, e⟩ := e
    obtain ⟨R, o, t, h⟩ := computeCholesky_frame e1
    simp only [Res.ok.injEq] at e
    subst e
    exact ⟨s.Q, R, o, t, by dsimp only at h ⊢; rw [h]⟩
  · dsimp only at e
    split at e
    · simp only [Res.ok.injEq] at e; subst e; exact ⟨s.Q, _, s.options, s.hessianType, rfl⟩
    rw [Res.bind_eq_ok] at e
    obtain ⟨o, _, e⟩ := e
    split at e
    · simp only [Res.ok.injEq] at e; subst e; exact ⟨s.Q, _, s.options, s.hessianType, rfl⟩
    · split at e
      · simp only [Res.ok.injEq] at e
        subst e
        split
        · exact ⟨_, _, _, HST_SEMIDEF, rfl⟩
        · exact ⟨_, _, s.options, HST_SEMIDEF, rfl⟩
      · simp only [Res.ok.injEq] at e; subst e; exact ⟨_, _, s.options, s.hessianType, rfl⟩

/-- `s'` differs from `s` in working set, factors, options and type of the Hessian only. -/
def Keeps (s' s : QPC K) : Prop :=
  ∃ T Q R wB wC o t, s' = { s with T := T, Q := Q, R := R, bounds := wB, cons := wC, options := o, hessianType := t }

theorem Keeps.trans {a b c : QPC K} (h : Keeps a b) (g : Keeps b c) : Keeps a c := by
  obtain ⟨T, Q, R, wB, wC, o, t, rfl⟩ := h
  obtain ⟨T', Q', R', wB', wC', o', t', rfl⟩ := g
  exact ⟨T, Q, R, wB, wC, o, t, rfl⟩

/-- The object with which the working set is set up anew. -/
def freshWS (s : QPC K) (lbNew ubNew lbANew ubANew : Option (Nat → K)) : QPC K :=
  let s := { s with bounds := WS.init s.nV, cons := WS.init s.nC }
  let s := s.setupTypesFor lbNew ubNew lbANew ubANew
  let s := { s with bounds := s.bounds.setupAllFree, cons := s.cons.setupAllFree }
  s.setupTQfactorisation

theorem freshWS_keeps (s : QPC K) (lbNew ubNew lbANew ubANew : Option (Nat → K)) : Keeps (s.freshWS lbNew ubNew lbANew ubANew) s :=
  ⟨_, _, s.R, _, _, s.options, s.hessianType, rfl⟩

/-- The former working set as it is tried for the new matrices. -/
def formerB (s : QPC K) (lbNew ubNew lbANew ubANew : Option (Nat → K)) (oldB : WS) : WS :=
  switchSides oldB (s.freshWS lbNew ubNew lbANew ubANew).bounds s.y s.nV
def formerC (s : QPC K) (lbNew ubNew lbANew ubANew : Option (Nat → K)) (oldC : WS) : WS :=
  switchSides oldC (s.freshWS lbNew ubNew lbANew ubANew).cons (fun i => s.y (s.nV + i)) s.nC

theorem tryWorkingSet_cases {sq : K → K} {s : QPC K} {lbNew ubNew lbANew ubANew : Option (Nat → K)} {oldB oldC : WS}
    {p : Option ReturnValue × QPC K × WS × WS} (e : tryWorkingSet sq s lbNew ubNew lbANew ubANew oldB oldC = .ok p) :
    ∃ r s1, setupAuxiliaryWorkingSet sq (s.freshWS lbNew ubNew lbANew ubANew) (some (s.formerB lbNew ubNew lbANew ubANew oldB))
        (some (s.formerC lbNew ubNew lbANew ubANew oldC)) true = .ok (r, s1) ∧
      ((r ≠ SUCCESSFUL_RETURN ∧ p.1 = none ∧ p.2.1 = s1) ∨
       (r = SUCCESSFUL_RETURN ∧ ∃ r2, computeProjectedCholesky sq s1 = .ok (r2, p.2.1) ∧ p.1 = some r2)) := by
  unfold tryWorkingSet at e
  dsimp only at e
  rw [Res.bind_eq_ok] at e
  obtain ⟨⟨r, s1⟩, e1, e⟩ := e
  dsimp only at e
  refine ⟨r, s1, e1, ?_⟩
  split at e
  · next hr =>
    simp only [Res.ok.injEq] at e
    subst e
    exact Or.inl ⟨hr, rfl, rfl⟩
  · next hr =>
    rw [Res.bind_eq_ok] at e
    obtain ⟨⟨r2, s2⟩, e2, e⟩ := e
    simp only [Res.ok.injEq] at e
    subst e
    exact Or.inr ⟨not_not.1 hr, r2, e2, rfl⟩

theorem tryWorkingSet_keeps {sq : K → K} {s : QPC K} {lbNew ubNew lbANew ubANew : Option (Nat → K)} {oldB oldC : WS}
    {p : Option ReturnValue × QPC K × WS × WS} (e : tryWorkingSet sq s lbNew ubNew lbANew ubANew oldB oldC = .ok p) : Keeps p.2.1 s := by
  obtain ⟨r, s1, e1, h⟩ := tryWorkingSet_cases e
  have k1 : Keeps s1 s := by
    obtain ⟨T, Q, R, wB, wC, o, ef⟩ := (setupAuxiliaryWorkingSet_adopts e1).frame
    exact Keeps.trans ⟨T, Q, R, wB, wC, o, s.hessianType, ef⟩ (freshWS_keeps s _ _ _ _)
  rcases h with ⟨_, _, h⟩ | ⟨_, r2, e2, _⟩
  · rw [h]; exact k1
  · obtain ⟨Q, R, o, t, h⟩ := computeProjectedCholesky_frame e2
    exact Keeps.trans ⟨s1.T, Q, R, s1.bounds, s1.cons, o, t, h⟩ k1

theorem auxLimits_none {o : Options K} {t : SubjectToType} {st : SubjectToStatus} {v l u l' u' : K}
    (h : auxLimits o none t st v v l u = some (l', u')) : (l' = l ∨ l' = v) ∧ (u' = u ∨ u' = v) := by
  cases st <;> simp only [auxLimits, Option.isSome_none, Option.some.injEq, Prod.mk.injEq, reduceCtorEq] at h
  all_goals first
    | (obtain ⟨rfl, rfl⟩ := h; exact ⟨Or.inl rfl, Or.inl rfl⟩)
    | (obtain ⟨h1, h2⟩ := h; subst h1; subst h2; constructor <;> first | exact Or.inr rfl | (split <;> simp))

theorem auxBoundsB_none : ∀ (m i : Nat) (s : QPC K), ∃ l u, (auxBoundsB none m i s).2 = { s with lb := l, ub := u } ∧
    ∀ j, (l j = s.lb j ∨ l j = s.x j) ∧ (u j = s.ub j ∨ u j = s.x j) := by
  intro m
  induction m with
  | zero => intro i s; exact ⟨s.lb, s.ub, rfl, fun _ => ⟨Or.inl rfl, Or.inl rfl⟩⟩
  | succ m ih =>
    intro i s
    rw [auxBoundsB]
    split
    · exact ⟨s.lb, s.ub, rfl, fun _ => ⟨Or.inl rfl, Or.inl rfl⟩⟩
    · next a b hab =>
      obtain ⟨h1, h2⟩ := auxLimits_none hab
      obtain ⟨l, u, e, h⟩ := ih (i+1) { s with lb := updA s.lb i a, ub := updA s.ub i b }
      refine ⟨l, u, e, fun j => ?_⟩
      have hj := h j
      dsimp only at hj
      by_cases hji : j = i
      · subst hji
        rw [updA_same, updA_same] at hj
        constructor
        · rcases hj.1 with k | k
          · rw [k]; exact h1
          · exact Or.inr k
        · rcases hj.2 with k | k
          · rw [k]; exact h2
          · exact Or.inr k
      · rwa [updA_ne _ _ hji, updA_ne _ _ hji] at hj

theorem auxBoundsC_none : ∀ (m i : Nat) (s : QPC K), (∀ j, i ≤ j → j < i + m → s.Axl j = s.Ax j ∧ s.Axu j = s.Ax j) →
    ∃ l u al au, (auxBoundsC none m i s).2 = { s with lbA := l, ubA := u, Axl := al, Axu := au } ∧
      ∀ j, (l j = s.lbA j ∨ l j = s.Ax j) ∧ (u j = s.ubA j ∨ u j = s.Ax j) := by
  intro m
  induction m with
  | zero => intro i s _; exact ⟨s.lbA, s.ubA, s.Axl, s.Axu, rfl, fun _ => ⟨Or.inl rfl, Or.inl rfl⟩⟩
  | succ m ih =>
    intro i s hs
    rw [auxBoundsC]
    split
    · exact ⟨s.lbA, s.ubA, s.Axl, s.Axu, rfl, fun _ => ⟨Or.inl rfl, Or.inl rfl⟩⟩
    · next a b hab =>
      rw [(hs i (le_refl _) (by omega)).1, (hs i (le_refl _) (by omega)).2] at hab
      obtain ⟨h1, h2⟩ := auxLimits_none hab
      obtain ⟨l, u, al, au, e, h⟩ := ih (i+1) { s with lbA := updA s.lbA i a, ubA := updA s.ubA i b, Axl := updA s.Axl i (s.Axl i - a), Axu := updA s.Axu i (b - s.Axu i) }
        (fun j hj hj' => by
          dsimp only
          rw [updA_ne _ _ (show j ≠ i by omega), updA_ne _ _ (show j ≠ i by omega)]
          exact hs j (by omega) (by omega))
      refine ⟨l, u, al, au, e, fun j => ?_⟩
      have hj := h j
      dsimp only at hj
      by_cases hji : j = i
      · subst hji
        rw [updA_same, updA_same] at hj
        constructor
        · rcases hj.1 with k | k
          · rw [k]; exact h1
          · exact Or.inr k
        · rcases hj.2 with k | k
          · rw [k]; exact h2
          · exact Or.inr k
      · rwa [updA_ne _ _ hji, updA_ne _ _ hji] at hj

/-- Whatever happens, the point stays the same, and limits change only by being moved to the point. -/
structure SamePoint (s' s : QPC K) : Prop where
  nV : s'.nV = s.nV
  nC : s'.nC = s.nC
  x : s'.x = s.x
  y : s'.y = s.y
  g : s'.g = s.g
  A : s'.A = s.A
  lb : ∀ j, s'.lb j = s.lb j ∨ s'.lb j = s.x j
  ub : ∀ j, s'.ub j = s.ub j ∨ s'.ub j = s.x j
  lbA : ∀ j, s'.lbA j = s.lbA j ∨ s'.lbA j = s.Ax j
  ubA : ∀ j, s'.ubA j = s.ubA j ∨ s'.ubA j = s.Ax j

theorem Keeps.samePoint {s' s : QPC K} (h : Keeps s' s) : SamePoint s' s := by
  obtain ⟨T, Q, R, wB, wC, o, t, rfl⟩ := h
  exact ⟨rfl, rfl, rfl, rfl, rfl, rfl, fun _ => Or.inl rfl, fun _ => Or.inl rfl, fun _ => Or.inl rfl, fun _ => Or.inl rfl⟩

theorem newFactors_samePoint {sq : K → K} {s : QPC K} {lbNew ubNew lbANew ubANew : Option (Nat → K)} {p : ReturnValue × QPC K}
    (e : newFactors sq s lbNew ubNew lbANew ubANew = .ok p) : SamePoint p.2 s ∧ (p.1 = SUCCESSFUL_RETURN → p.2.status = QPS_AUXILIARYQPSOLVED) := by
  unfold newFactors at e
  rw [Res.bind_eq_ok] at e
  obtain ⟨⟨r, s1, oB, oC⟩, e1, e⟩ := e
  have k1 : Keeps s1 s := tryWorkingSet_keeps e1
  dsimp only at e
  split at e
  · simp only [Res.ok.injEq] at e; subst e; exact ⟨k1.samePoint, fun h => by cases h⟩
  · simp only [Res.ok.injEq] at e; subst e
    have := k1.samePoint
    exact ⟨⟨this.nV, this.nC, this.x, this.y, this.g, this.A, this.lb, this.ub, this.lbA, this.ubA⟩, fun _ => rfl⟩
  rw [Res.bind_eq_ok] at e
  obtain ⟨⟨r2, s2, _, _⟩, e2, e⟩ := e
  have k2 : Keeps s2 s := (tryWorkingSet_keeps e2).trans k1
  dsimp only at e
  split at e
  · simp only [Res.ok.injEq] at e; subst e; exact ⟨k2.samePoint, fun h => by cases h⟩
  simp only [Res.ok.injEq] at e
  subst e
  refine ⟨?_, fun _ => rfl⟩
  have k := k2.samePoint
  have hAx : s2.Ax = s.Ax := by obtain ⟨T, Q, R, wB, wC, o, t, rfl⟩ := k2; rfl
  have key : ∀ q : QPC K, (∃ l u lA uA al au, q = { s2 with lb := l, ub := u, lbA := lA, ubA := uA, Axl := al, Axu := au } ∧
      (∀ j, (l j = s2.lb j ∨ l j = s2.x j) ∧ (u j = s2.ub j ∨ u j = s2.x j)) ∧
      ∀ j, (lA j = s2.lbA j ∨ lA j = s2.Ax j) ∧ (uA j = s2.ubA j ∨ uA j = s2.Ax j)) → SamePoint ({ q with status := QPS_AUXILIARYQPSOLVED } : QPC K) s := by
    rintro q ⟨l, u, lA, uA, al, au, rfl, h1, h2⟩
    have mv : ∀ {a b c v : K}, (a = b ∨ a = v) → (b = c ∨ b = v) → (a = c ∨ a = v) := by
      intro a b c v h1 h2
      rcases h1 with rfl | h1
      · exact h2
      · exact Or.inr h1
    refine ⟨k.nV, k.nC, k.x, k.y, k.g, k.A, fun j => mv ?_ (k.lb j), fun j => mv ?_ (k.ub j), fun j => mv ?_ (k.lbA j), fun j => mv ?_ (k.ubA j)⟩
    · rw [← k.x]; exact (h1 j).1
    · rw [← k.x]; exact (h1 j).2
    · rw [← hAx]; exact (h2 j).1
    · rw [← hAx]; exact (h2 j).2
  refine key _ ?_
  unfold setupAuxiliaryQPbounds
  obtain ⟨l, u, e3, h3⟩ := auxBoundsB_none s2.nV 0 ({ s2 with Axl := s2.Ax, Axu := s2.Ax } : QPC K)
  rw [show (Option.map (fun x : WS × WS => x.1) none) = none from rfl]
  generalize auxBoundsB none _ 0 ({ s2 with Axl := s2.Ax, Axu := s2.Ax } : QPC K) = b at *
  obtain ⟨rb, sb⟩ := b
  dsimp only at e3 ⊢
  subst e3
  split
  · exact ⟨l, u, s2.lbA, s2.ubA, s2.Ax, s2.Ax, rfl, h3, fun j => ⟨Or.inl rfl, Or.inl rfl⟩⟩
  · obtain ⟨lA, uA, al, au, e4, h4⟩ := auxBoundsC_none s2.nC 0 ({ s2 with lb := l, ub := u, Axl := s2.Ax, Axu := s2.Ax } : QPC K) (fun _ _ _ => ⟨rfl, rfl⟩)
    exact ⟨l, u, lA, uA, al, au, e4, h3, h4⟩

/-! ### the new data -/

/-- The Hessian handed over is `M`, and it is not zero; without a Hessian the object was told to use the identity. -/
def NewHessian (s : QPC K) (H : Option (Nat → K)) (M : Nat → Nat → K) : Prop :=
  (∃ h, H = some h ∧ M = (fun i j => h (i * s.nV + j)) ∧ ∃ i < s.nV, ∃ j < s.nV, EPS < |M i j|) ∨
  (H = none ∧ s.hessianType = HST_IDENTITY ∧ M = fun i j => if i = j then 1 else 0)

theorem determineHessianType_unknown (s : QPB K) (h : s.hessianType = HST_UNKNOWN) : (s.determineHessianType).2.hessianType ≠ HST_SEMIDEF := by
  have hens : ∀ s : QPB K, s.ensureRegularisation.hessianType = s.hessianType := by
    intro s
    unfold QPB.ensureRegularisation
    split <;> rfl
  unfold QPB.determineHessianType
  rw [h]
  cases s.H with
  | none => dsimp only; rw [hens]; show HST_ZERO ≠ HST_SEMIDEF; decide
  | some H =>
    dsimp only
    split
    · split
      · split <;> (show HST_INDEF ≠ HST_SEMIDEF; decide)
      · show HST_POSDEF ≠ HST_SEMIDEF; decide
      · split
        · rw [hens]; show HST_ZERO ≠ HST_SEMIDEF; decide
        · split
          · show HST_IDENTITY ≠ HST_SEMIDEF; decide
          · show HST_POSDEF ≠ HST_SEMIDEF; decide
    · show HST_POSDEF ≠ HST_SEMIDEF; decide

theorem changeHessian_spec {sq : K → K} {s s1 : QPC K} {H : Option (Nat → K)} {M : Nat → Nat → K} (hM : NewHessian s H M) (hsym : QP.Symmetric s.nV M)
    (hreg : s.usingRegularisation = false) (e : changeHessian sq s H = .ok (SUCCESSFUL_RETURN, s1)) :
    (∃ H' t, s1 = { s with H := H', hessianType := t } ∧ t ≠ HST_ZERO) ∧ (∀ i < s.nV, ∀ j < s.nV, |s1.Heff i j - M i j| ≤ EPS) ∧
    (¬ s1.scalarH → s1.H ≠ none) ∧ s1.SymH := by
  rcases hM with ⟨h, rfl, rfl, hbig⟩ | ⟨rfl, ht, rfl⟩
  · unfold changeHessian at e
    dsimp only at e
    obtain ⟨t, o, ef, hf⟩ := QPB.determineHessianType_frame ({ s.toQPB with H := some fun i j => h (i * s.nV + j), hessianType := HST_UNKNOWN } : QPB K)
    have hG : GivenHessian ({ s.toQPB with H := some fun i j => h (i * s.nV + j), hessianType := HST_UNKNOWN } : QPB K) (fun i j => h (i * s.nV + j)) :=
      ⟨fun h => (by cases h), fun _ => ⟨(show HST_UNKNOWN ≠ HST_ZERO by decide), rfl⟩, fun _ => hbig⟩
    obtain ⟨m1, m2, m3, _⟩ := hG.spec hsym
    have hSD := determineHessianType_unknown ({ s.toQPB with H := some fun i j => h (i * s.nV + j), hessianType := HST_UNKNOWN } : QPB K) rfl
    rw [ef] at hSD
    have hSD : t ≠ HST_SEMIDEF := hSD
    generalize hp : ({ s.toQPB with H := some fun i j => h (i * s.nV + j), hessianType := HST_UNKNOWN } : QPB K).determineHessianType = p at *
    obtain ⟨r, b⟩ := p
    dsimp only at ef m1 m2 m3 e
    subst ef
    have m1 : t ≠ HST_ZERO := m1
    obtain ⟨rfl, hH⟩ := hf m1
    split at e
    · simp at e
    rw [if_neg (show ¬ _ by
      rintro (h | h | h)
      · exact m1 h
      · exact hSD h
      · have h : s.usingRegularisation = true := h
        rw [hreg] at h; cases h)] at e
    simp only [Res.ok.injEq, Prod.mk.injEq, true_and] at e
    subst e
    refine ⟨⟨_, t, rfl, m1⟩, m3, fun _ => by simp, ?_⟩
    intro H' hH'
    cases hH'
    exact hsym
  · unfold changeHessian at e
    cases hH : s.H with
    | some H => rw [hH] at e; simp at e
    | none =>
    rw [hH] at e
    simp only [Option.isSome_none, Bool.false_eq_true, if_false, Res.ok.injEq, Prod.mk.injEq, true_and] at e
    subst e
    refine ⟨⟨s.H, s.hessianType, rfl, by rw [ht]; decide⟩, fun i _ j _ => ?_, fun h => absurd (Or.inr ht) h, fun H' h => by rw [hH] at h; cases h⟩
    unfold QPB.Heff
    rw [ht]
    dsimp only
    rw [sub_self, abs_zero]
    exact EPS_pos'.le

/-- The object for which the factors are computed: data shifted to the new matrices. -/
structure PreparedNew (s2 s : QPC K) (M A : Nat → Nat → K) : Prop where
  frame : ∃ a lA uA ax al au ty H t g, s2 = { s with A := a, lbA := lA, ubA := uA, Ax := ax, Axl := al, Axu := au, cons := { s.cons with type := ty }, H := H, hessianType := t, g := g, status := QPS_PREPARINGAUXILIARYQP } ∧ t ≠ HST_ZERO
  eqC : ∀ k, s2.cons.type k = ST_EQUALITY → s.cons.type k = ST_EQUALITY
  typeC : ∀ k, s2.cons.type k ≠ ST_DISABLED → s2.cons.type k = s.cons.type k
  A : ∀ k < s.nC, s2.A k = A k
  ax : ∀ k < s.nC, s2.Ax k = s2.prodA s2.x k ∧ s2.lbA k = s2.Ax k - s.Axl k ∧ s2.ubA k = s2.Ax k + s.Axu k ∧ s2.Axl k = s.Axl k ∧ s2.Axu k = s.Axu k
  hess : ∀ i < s.nV, ∀ j < s.nV, |s2.Heff i j - M i j| ≤ EPS
  hasH : ¬ s2.scalarH → s2.H ≠ none
  sym : s2.SymH
  stat : ∀ i < s2.nV, ∑ j ∈ range s2.nV, s2.Heff i j * s2.x j + s2.g i = s2.y i + ∑ k ∈ range s2.nC, s2.A k i * s2.y (s2.nV + k)

theorem shift_spec (sq : K → K) (s : QPC K) {A : Option (Nat → K)} {a : Nat → K} (hA : A = some a ∨ A = none ∧ s.nC = 0) :
    ∃ b lA uA ax al au ty, changeMatrix sq s A = { s with A := b, lbA := lA, ubA := uA, Ax := ax, Axl := al, Axu := au, cons := { s.cons with type := ty } } ∧
      (∀ k, ty k = ST_EQUALITY → s.cons.type k = ST_EQUALITY) ∧ (∀ k, ty k ≠ ST_DISABLED → ty k = s.cons.type k) ∧ ∀ k < s.nC, b k = (fun j => a (k * s.nV + j)) ∧ ax k = sumTo (fun j => b k j * s.x j) s.nV ∧ lA k = ax k - s.Axl k ∧ uA k = ax k + s.Axu k ∧
        al k = s.Axl k ∧ au k = s.Axu k := by
  rcases hA with rfl | ⟨rfl, h0⟩
  · unfold changeMatrix
    by_cases h0 : s.nC > 0
    · dsimp only
      rw [if_pos h0]
      refine ⟨_, _, _, _, _, _, _, rfl, fun k hk => ?_, fun k hk => ?_, fun k hk => ⟨rfl, rfl, ?_, ?_, ?_, ?_⟩⟩
      · unfold setNewA at hk
        dsimp only at hk
        split at hk
        · cases hk
        · exact hk
      · dsimp only at hk ⊢
        split at hk
        · exact absurd rfl hk
        · next hh => rw [if_neg hh]
      all_goals (unfold setNewA; dsimp only; ring)
    · dsimp only
      rw [if_neg h0]
      exact ⟨s.A, s.lbA, s.ubA, s.Ax, s.Axl, s.Axu, s.cons.type, rfl, fun _ h => h, fun _ _ => rfl, fun k hk => absurd hk (by omega)⟩
  · exact ⟨s.A, s.lbA, s.ubA, s.Ax, s.Axl, s.Axu, s.cons.type, rfl, fun _ h => h, fun _ _ => rfl, fun k hk => absurd hk (by omega)⟩

theorem setupNewAuxiliaryQP_prepared {sq : K → K} {s : QPC K} {H A lbNew ubNew lbANew ubANew : Option (Nat → K)} {M : Nat → Nat → K} {a : Nat → K}
    (hA : A = some a ∨ A = none ∧ s.nC = 0) (hM : NewHessian s H M) (hsym : QP.Symmetric s.nV M) (hreg : s.usingRegularisation = false)
    {s' : QPC K} (e : setupNewAuxiliaryQP sq s H A lbNew ubNew lbANew ubANew = .ok (SUCCESSFUL_RETURN, s')) :
    ∃ s1 s2, changeHessian sq (changeMatrix sq { s with status := QPS_PREPARINGAUXILIARYQP } A) H = .ok (SUCCESSFUL_RETURN, s1) ∧
      setupAuxiliaryQPgradient s1 = .ok s2 ∧ PreparedNew s2 s M (fun k j => a (k * s.nV + j)) ∧
      newFactors sq s2 lbNew ubNew lbANew ubANew = .ok (SUCCESSFUL_RETURN, s') := by
  unfold setupNewAuxiliaryQP at e
  split at e
  · simp at e
  split at e
  · simp at e
  dsimp only at e
  obtain ⟨b, lA, uA, ax, al, au, ty, e1, h0, h0', h1⟩ := shift_spec sq ({ s with status := QPS_PREPARINGAUXILIARYQP } : QPC K) hA
  rw [Res.bind_eq_ok] at e
  obtain ⟨⟨r, s1⟩, e2, e⟩ := e
  dsimp only at e
  split at e
  · next hr =>
    simp only [Res.ok.injEq, Prod.mk.injEq] at e
    exact absurd e.1 hr
  next hr =>
  have hr : r = SUCCESSFUL_RETURN := not_not.1 hr
  subst hr
  refine ⟨s1, ?_⟩
  rw [e1] at e2 ⊢
  obtain ⟨⟨H', t, ef, ht⟩, c2, c3, c4⟩ := changeHessian_spec (M := M) (by exact hM) (by exact hsym) (by exact hreg) e2
  rw [Res.bind_eq_ok] at e
  obtain ⟨s2, e3, e⟩ := e
  obtain ⟨g', e4, hg⟩ := setupAuxiliaryQPgradient_spec c3
  rw [e4] at e3
  simp only [Res.ok.injEq] at e3
  subst e3
  subst ef
  refine ⟨_, e2, e4, ?_, e⟩
  exact ⟨⟨_, _, _, _, _, _, _, _, _, _, rfl, ht⟩, h0, h0', fun k hk => (h1 k hk).1, fun k hk => (h1 k hk).2, c2, c3, c4, hg⟩

/-! ### the working set is kept -/

theorem side_new {w w0 old : WS} {obs : Nat → Prop} {v l u y : Nat → K} {n : Nat} (hn : old.n = n)
    (hlo : ∀ i < n, old.status i = ST_LOWER → v i = l i) (hup : ∀ i < n, old.status i = ST_UPPER → v i = u i)
    (hold : ∀ i < n, old.type i = ST_EQUALITY → l i = u i) (hin : ∀ i < n, l i ≤ v i ∧ v i ≤ u i)
    (hst : ∀ i < n, w.status i = ST_INACTIVE ∨ w.status i = (switchSides old w0 y n).getStatus i ∨ (w0.type i = ST_EQUALITY ∧ w.status i = ST_LOWER))
    (hfix : ∀ i < n, w0.type i = ST_EQUALITY → l i = u i) (heq : ∀ i < n, w.type i = ST_EQUALITY → w.status i ≠ ST_INACTIVE ∧ l i = u i)
    (hs : SignFit w y n) : SideOK w obs v l u y n := by
  have hsw : ∀ i < n, (switchSides old w0 y n).getStatus i = ST_LOWER → v i = l i := by
    intro i hi h
    rw [WS.getStatus_of_lt (show i < (switchSides old w0 y n).n by show i < old.n; omega)] at h
    unfold switchSides at h
    dsimp only at h
    split at h
    · next hc =>
      split at h
      · cases h
      · split at h
        · next h1 => rw [hup i hi h1.1, hold i hi hc.2.1]
        · exact hlo i hi h
    · exact hlo i hi h
  have hsu : ∀ i < n, (switchSides old w0 y n).getStatus i = ST_UPPER → v i = u i := by
    intro i hi h
    rw [WS.getStatus_of_lt (show i < (switchSides old w0 y n).n by show i < old.n; omega)] at h
    unfold switchSides at h
    dsimp only at h
    split at h
    · next hc =>
      split at h
      · next h1 => rw [hlo i hi h1.1, hold i hi hc.2.1]
      · split at h
        · cases h
        · exact hup i hi h
    · exact hup i hi h
  refine ⟨fun i hi h => ⟨?_, (hs i hi).1 h⟩, fun i hi h => ⟨?_, (hs i hi).2.1 h⟩, fun i hi h => ⟨(hs i hi).2.2 h, fun _ => ⟨fun _ => (hin i hi).1, fun _ => (hin i hi).2⟩⟩,
    fun i hi => (hin i hi).1.trans (hin i hi).2, heq⟩
  · rcases hst i hi with k | k | ⟨k, _⟩
    · rw [h] at k; cases k
    · exact hsw i hi (k ▸ h)
    · have := hfix i hi k
      exact le_antisymm (this ▸ (hin i hi).2) (hin i hi).1
  · rcases hst i hi with k | k | ⟨_, k⟩
    · rw [h] at k; cases k
    · exact hsu i hi (k ▸ h)
    · rw [h] at k; cases k

theorem switchSides_proper {old w : WS} {y : Nat → K} {n : Nat} (ho : old.OK) (hn : old.n = n) {i : Nat} (hi : i < n) :
    Proper ((switchSides old w y n).getStatus i) := by
  rw [WS.getStatus_of_lt (show i < (switchSides old w y n).n by show i < old.n; omega)]
  have := ho.status_cases (show i < old.n by omega)
  unfold switchSides
  dsimp only
  split
  · split
    · exact Or.inr (Or.inr rfl)
    · split
      · exact Or.inr (Or.inl rfl)
      · exact this
  · exact this

/-- Members with a multiplier stay active: `old` is the former working set, `w0` the empty one with the new types, `w` the new one.  They have
not been disabled, and equalities among them do not lose all their limits. -/
def KeptWith (old w0 w : WS) (y : Nat → K) (n : Nat) : Prop :=
  ∀ i < n, y i ≠ 0 → w.status i ≠ ST_INACTIVE ∧ w.type i = w0.type i ∧ old.type i ≠ ST_DISABLED ∧
    (old.type i = ST_EQUALITY → w0.type i = ST_BOUNDED ∨ w0.type i = ST_EQUALITY)

/-- The multipliers have the signs required by the new working set, since former equalities change sides where necessary. -/
theorem signFit_new {w w0 old before : WS} {y : Nat → K} {n : Nat} (hn : old.n = n)
    (hty : ∀ i < n, old.type i ≠ ST_DISABLED → before.type i ≠ ST_EQUALITY ∨ old.type i = ST_EQUALITY)
    (hlo : ∀ i < n, old.status i = ST_LOWER → before.type i ≠ ST_EQUALITY → 0 ≤ y i)
    (hup : ∀ i < n, old.status i = ST_UPPER → before.type i ≠ ST_EQUALITY → y i ≤ 0)
    (hst : ∀ i < n, w.status i = ST_INACTIVE ∨ w.status i = (switchSides old w0 y n).getStatus i ∨ (w0.type i = ST_EQUALITY ∧ w.status i = ST_LOWER))
    (hk : KeptWith old w0 w y n) : SignFit w y n := by
  intro i hi
  by_cases h0 : y i = 0
  · exact ⟨fun _ _ => h0.ge, fun _ _ => h0.le, fun _ => h0⟩
  obtain ⟨k1, k2, k3, k4⟩ := hk i hi h0
  refine ⟨fun h1 h2 => ?_, fun h1 h2 => ?_, fun h1 => absurd h1 k1⟩
  all_goals
    rw [k2] at h2
    rcases hst i hi with k | k | ⟨k, _⟩
    · exact absurd k k1
    · rw [WS.getStatus_of_lt (show i < (switchSides old w0 y n).n by show i < old.n; omega), h1] at k
      unfold switchSides at k
      dsimp only at k
      by_cases ho : old.type i = ST_EQUALITY
      · rw [if_pos ⟨hi, ho, (k4 ho).resolve_right h2⟩] at k
        split at k
        · next hh =>
          first
            | exact hh.2.le
            | cases k
        · next h3 =>
          split at k
          · next hh =>
            first
              | exact hh.2.le
              | cases k
          · next h4 =>
            by_contra hc
            first
              | exact h3 ⟨k.symm, not_le.1 hc⟩
              | exact h4 ⟨k.symm, not_le.1 hc⟩
      · rw [if_neg (fun h => ho h.2.1)] at k
        have hb := (hty i hi k3).resolve_right ho
        first
          | exact hlo i hi k.symm hb
          | exact hup i hi k.symm hb
    · exact absurd k h2

/-- The former working set can be set up again with exact factors: no member is lost that has a multiplier, and the projected Hessian is
positive definite. -/
def WorkingSetClean (sq : K → K) (s : QPC K) (lbNew ubNew lbANew ubANew : Option (Nat → K)) : Prop :=
  ((s.freshWS lbNew ubNew lbANew ubANew).isTrivial (some (s.formerB lbNew ubNew lbANew ubANew s.bounds)) (some (s.formerC lbNew ubNew lbANew ubANew s.cons)) = false →
    LoopsClean sq (s.freshWS lbNew ubNew lbANew ubANew).plainLI (s.formerB lbNew ubNew lbANew ubANew s.bounds) (s.formerC lbNew ubNew lbANew ubANew s.cons)) ∧
  ∀ s3, setupAuxiliaryWorkingSet sq (s.freshWS lbNew ubNew lbANew ubANew) (some (s.formerB lbNew ubNew lbANew ubANew s.bounds))
      (some (s.formerC lbNew ubNew lbANew ubANew s.cons)) true = .ok (SUCCESSFUL_RETURN, s3) →
    KeptWith s.bounds (s.freshWS lbNew ubNew lbANew ubANew).bounds s3.bounds s3.y s3.nV ∧
    KeptWith s.cons (s.freshWS lbNew ubNew lbANew ubANew).cons s3.cons (fun k => s3.y (s3.nV + k)) s3.nC ∧
    (s3.general = true → ∀ H, s3.H = some H → PivotsOK sq s3.nZ s3.nV s3.nZ 0 (fun q => s3.cholInput H (q % s3.nV) (q / s3.nV))) ∧
    ∀ r s4, computeProjectedCholesky sq s3 = .ok (r, s4) → r = SUCCESSFUL_RETURN

def NewClean (sq : K → K) (s : QPC K) (H A lbNew ubNew lbANew ubANew : Option (Nat → K)) : Prop :=
  ∀ s1, changeHessian sq (changeMatrix sq { s with status := QPS_PREPARINGAUXILIARYQP } A) H = .ok (SUCCESSFUL_RETURN, s1) →
    ∀ s2, setupAuxiliaryQPgradient s1 = .ok s2 → WorkingSetClean sq s2 lbNew ubNew lbANew ubANew

theorem freshWS_base {s : QPC K} (hT : s.sizeT = min s.nV s.nC) (hsym : s.SymH) (lbNew ubNew lbANew ubANew : Option (Nat → K)) :
    (s.freshWS lbNew ubNew lbANew ubANew).Base :=
  setupTQfactorisation_base (s := { (s.setupTypesFor lbNew ubNew lbANew ubANew) with
      bounds := (({ s with bounds := WS.init s.nV, cons := WS.init s.nC } : QPC K).setupTypesFor lbNew ubNew lbANew ubANew).bounds.setupAllFree
      cons := (({ s with bounds := WS.init s.nV, cons := WS.init s.nC } : QPC K).setupTypesFor lbNew ubNew lbANew ubANew).cons.setupAllFree })
    ⟨WS.setupAllFree_ok rfl rfl, WS.setupAllFree_ok rfl rfl, rfl, rfl, hT⟩ hsym rfl

/-- New matrices keep the invariant, now for the new matrices and the kinds of the new limits. -/
theorem Live.newMatrices {sq : K → K} {n m : Nat} {M A : Nat → Nat → K} {l0 u0 : Nat → K} {s : QPC K} (h : Live n m M A l0 u0 s)
    {H Anew : Option (Nat → K)} {M' : Nat → Nat → K} {a l u lA uA : Nat → K} (hA : Anew = some a ∨ Anew = none ∧ m = 0) (hM : NewHessian s H M')
    (hsym : QP.Symmetric n M') (hx : ∀ i < n, s.lb i ≤ s.x i ∧ s.x i ≤ s.ub i) (hxA : ∀ k < m, 0 ≤ s.Axl k ∧ 0 ≤ s.Axu k)
    (hunb : ∀ k < m, s.cons.type k = ST_UNBOUNDED → s.cons.status k = ST_INACTIVE)
    (heq : s.options.enableEqualities = true → ∀ i < n, s.lb i > s.ub i - s.options.boundTolerance → s.lb i = s.ub i)
    (heqA : s.options.enableEqualities = true → ∀ k < m, -s.Axl k > s.Axu k - s.options.boundTolerance → -s.Axl k = s.Axu k)
    (hc : NewClean sq s H Anew (some l) (some u) (some lA) (some uA)) {s' : QPC K}
    (e : setupNewAuxiliaryQP sq s H Anew (some l) (some u) (some lA) (some uA) = .ok (SUCCESSFUL_RETURN, s')) :
    Live n m M' (fun k j => a (k * n + j)) lA uA s' ∧ s'.status = QPS_AUXILIARYQPSOLVED ∧ s'.options = s.options ∧ s'.x = s.x ∧ s'.y = s.y ∧
      s'.lb = s.lb ∧ s'.ub = s.ub ∧
      ((s.options.enableEqualities = true → ∀ i < n, l i > u i - s.options.boundTolerance → l i = u i) → EqualitiesOK s'.toQPB (some l) (some u)) := by
  have hn := h.nV
  have hm := h.nC
  subst hn hm
  obtain ⟨s1, s2, e1, e2, p, e⟩ := setupNewAuxiliaryQP_prepared hA hM hsym h.reg e
  obtain ⟨c1, c2⟩ := hc s1 e1 s2 e2
  obtain ⟨b, lA', uA', ax, al, au, ty, H', t, g, hfr, ht⟩ := p.frame
  have nV2 : s2.nV = s.nV := by rw [hfr]
  have nC2 : s2.nC = s.nC := by rw [hfr]
  have x2 : s2.x = s.x := by rw [hfr]
  have y2 : s2.y = s.y := by rw [hfr]
  have lb2 : s2.lb = s.lb := by rw [hfr]
  have ub2 : s2.ub = s.ub := by rw [hfr]
  have o2 : s2.options = s.options := by rw [hfr]
  have b2 : s2.bounds = s.bounds := by rw [hfr]
  have cst2 : s2.cons.status = s.cons.status := by rw [hfr]
  have cn2 : s2.cons.n = s.cons.n := by rw [hfr]
  have cok2 : s2.cons.OK := by
    rw [hfr]
    exact ⟨h.good.facs.shape.okC.perm, h.good.facs.shape.okC.free, h.good.facs.shape.okC.fixed⟩
  have hT2 : s2.sizeT = min s2.nV s2.nC := by rw [nV2, nC2, hfr]; exact h.good.facs.shape.size
  have hb := freshWS_base hT2 p.sym (some l) (some u) (some lA) (some uA)
  unfold newFactors at e
  rw [Res.bind_eq_ok] at e
  obtain ⟨⟨ro, s4, oB, oC⟩, e3, e⟩ := e
  obtain ⟨r3, s3, e4, hcase⟩ := tryWorkingSet_cases e3
  dsimp only at hcase e
  rcases hcase with ⟨_, hro, _⟩ | ⟨hr3, r4, e5, hro⟩
  · rw [hro] at e
    simp at e
  subst hr3
  obtain ⟨c3, c4, c5, c6⟩ := c2 s3 e4
  have hr4 := c6 r4 s4 e5
  subst hr4
  rw [hro] at e
  simp only [Res.ok.injEq, Prod.mk.injEq, true_and] at e
  have ad := setupAuxiliaryWorkingSet_adopts e4
  have hpB : ∀ i < (s2.freshWS (some l) (some u) (some lA) (some uA)).nV, Proper ((s2.formerB (some l) (some u) (some lA) (some uA) s2.bounds).getStatus i) := by
    intro i hi
    exact switchSides_proper (by rw [b2]; exact h.good.facs.shape.okB) (by rw [b2, nV2]; exact h.good.facs.shape.nB) hi
  have hpC : ∀ i < (s2.freshWS (some l) (some u) (some lA) (some uA)).nC, Proper ((s2.formerC (some l) (some u) (some lA) (some uA) s2.cons).getStatus i) := by
    intro i hi
    exact switchSides_proper cok2 (by rw [cn2, nC2]; exact h.good.facs.shape.nC) hi
  obtain ⟨k1, k2, k3, k4⟩ := setupAuxiliaryWorkingSet_spec hb rfl (fun i _ => rfl) hpB hpC c1 e4
  obtain ⟨T, Q, R, wB, wC, ef⟩ := k2.frame
  have hgen : s3.general = true → s2.general = true := by rw [ef]; exact id
  have hplain : s3.general = true → s3.nFX + s3.nAC = 0 → ∀ j < s3.nFR, ∀ i ∈ s3.F, s3.Q i j = if i = s3.fr j then 1 else 0 := by
    intro _ h0 j hj i hi
    rcases k2.plain h0 with h1 | ⟨h1, h2⟩
    · rw [h1] at hj; omega
    · have hfr : s3.fr j = (s2.freshWS (some l) (some u) (some lA) (some uA)).fr j := by show s3.bounds.fr j = _; rw [h2]; rfl
      have hnr : s3.nFR = (s2.freshWS (some l) (some u) (some lA) (some uA)).nFR := by show s3.bounds.nFR = _; rw [h2]; rfl
      rw [h1, hfr]
      rw [hnr] at hj
      show (if j < (s2.freshWS (some l) (some u) (some lA) (some uA)).nFR ∧ i = (s2.freshWS (some l) (some u) (some lA) (some uA)).fr j then (1:K) else 0) = _
      by_cases hh : i = (s2.freshWS (some l) (some u) (some lA) (some uA)).fr j
      · rw [if_pos ⟨hj, hh⟩, if_pos hh]
      · rw [if_neg (fun h => hh h.2), if_neg hh]
  obtain ⟨⟨R4, Q4, e6⟩, hF⟩ := computeProjectedCholesky_spec k1.shape k1.tq k1.sym ⟨hplain, c5⟩
    (fun hg => by
      have hg := hgen hg
      have : s3.H = s2.H := by rw [ef]; rfl
      rw [this]
      refine Option.ne_none_iff_exists'.1 (p.hasH ?_)
      unfold general at hg
      rw [Bool.and_eq_true, bne_iff_ne, bne_iff_ne] at hg
      rintro (h1 | h1)
      · exact hg.1 h1
      · exact hg.2 h1) e5
  have ef' : s' = { s2 with T := s3.T, Q := Q4, R := R4, bounds := s3.bounds, cons := s3.cons, status := QPS_AUXILIARYQPSOLVED } := by
    rw [← e, e6, ef]; rfl
  have hF' : s'.Facs := by
    rw [← e]
    exact hF.congr rfl rfl rfl rfl rfl rfl rfl rfl rfl rfl id
  have tyB : ∀ i < s.nV, s3.bounds.type i = s2.toQPB.typeOf (some l) (some u) i := by
    intro i hi
    rw [k2.typeB]
    exact if_pos (show i < s2.nV by rw [nV2]; exact hi)
  have tyC : ∀ k < s.nC, (s2.freshWS (some l) (some u) (some lA) (some uA)).cons.type k =
      ({ s2 with bounds := WS.init s2.nV, cons := WS.init s2.nC } : QPC K).typeOfC (some lA) (some uA) k := by
    intro k hk
    exact if_pos (show k < s2.nC by rw [nC2]; exact hk)
  have hbo := h.good.opt.bounds
  have hco := h.good.opt.cons
  have eqB : ∀ i < s2.nV, (s2.freshWS (some l) (some u) (some lA) (some uA)).bounds.type i = ST_EQUALITY → s2.lb i = s2.ub i := by
    intro i hi hty
    have hi : i < s.nV := nV2 ▸ hi
    rw [← k2.typeB, tyB i hi] at hty
    rw [lb2, ub2]
    unfold QPB.typeOf at hty
    dsimp only at hty
    rw [lb2, ub2, o2] at hty
    split at hty
    · cases hty
    · split at hty
      · next hh => exact heq hh.1 i hi hh.2.1
      · cases hty
  have eqC : ∀ k < s2.nC, (s2.freshWS (some l) (some u) (some lA) (some uA)).cons.type k = ST_EQUALITY → s2.lbA k = s2.ubA k := by
    intro k hk hty
    have hk : k < s.nC := nC2 ▸ hk
    rw [tyC k hk] at hty
    unfold typeOfC at hty
    split at hty
    · cases hty
    dsimp only at hty
    rw [o2, (p.ax k hk).2.1, (p.ax k hk).2.2.1] at hty
    split at hty
    · cases hty
    · split at hty
      · next hh =>
        have := heqA hh.1 k hk (by linarith [hh.2.1])
        rw [(p.ax k hk).2.1, (p.ax k hk).2.2.1]
        linarith
      · cases hty
  have hsideB : SideOK s3.bounds (fun _ => True) s2.x s2.lb s2.ub s2.y s2.nV := by
    refine side_new (w0 := (s2.freshWS (some l) (some u) (some lA) (some uA)).bounds) (old := s2.bounds) ?_ ?_ ?_ ?_ ?_ ?_ eqB ?_ ?_
    · rw [b2, nV2]; exact h.good.facs.shape.nB
    · rw [b2, nV2, x2, lb2]; exact fun i hi hs => (hbo.lower i hi hs).1
    · rw [b2, nV2, x2, ub2]; exact fun i hi hs => (hbo.upper i hi hs).1
    · rw [b2, nV2, lb2, ub2]; exact fun i hi hs => (hbo.eq i hi hs).2
    · rw [nV2, x2, lb2, ub2]; exact hx
    · intro i _
      exact ad.stB i
    · intro i hi hty
      exact ⟨k3 i hi hty, eqB i hi (by rw [← k2.typeB]; exact hty)⟩
    · have := c3
      rw [show s3.y = s2.y by rw [ef]; rfl, show s3.nV = s2.nV by rw [ef]; rfl] at this
      refine signFit_new (before := s.bounds) ?_ ?_ ?_ ?_ (fun i _ => ad.stB i) this
      · rw [b2, nV2]; exact h.good.facs.shape.nB
      · rw [b2]; exact fun i _ _ => em' _
      · rw [b2, nV2, y2]; exact fun i hi hs => (hbo.lower i hi hs).2
      · rw [b2, nV2, y2]; exact fun i hi hs => (hbo.upper i hi hs).2
  have hAxl : ∀ k < s.nC, s2.prodA s2.x k = s2.lbA k + s.Axl k ∧ s2.prodA s2.x k = s2.ubA k - s.Axu k := by
    intro k hk
    obtain ⟨h1, h2, h3, _, _⟩ := p.ax k hk
    rw [h2, h3, ← h1]
    constructor <;> ring
  have hsideC : SideOK s3.cons (fun k => s3.cons.type k ≠ ST_UNBOUNDED) (s2.prodA s2.x) s2.lbA s2.ubA (fun k => s2.y (s2.nV + k)) s2.nC := by
    refine side_new (w0 := (s2.freshWS (some l) (some u) (some lA) (some uA)).cons) (old := s2.cons) ?_ ?_ ?_ ?_ ?_ ?_ eqC ?_ ?_
    · rw [cn2, nC2]; exact h.good.facs.shape.nC
    · intro k hk hs
      rw [nC2] at hk
      rw [cst2] at hs
      have hun : s.cons.type k ≠ ST_UNBOUNDED := fun hu => by rw [hunb k hk hu] at hs; cases hs
      rw [(hAxl k hk).1, (h.good.ax k hk hun).2.1, (hco.lower k hk hs).1, sub_self, add_zero]
    · intro k hk hs
      rw [nC2] at hk
      rw [cst2] at hs
      have hun : s.cons.type k ≠ ST_UNBOUNDED := fun hu => by rw [hunb k hk hu] at hs; cases hs
      rw [(hAxl k hk).2, (h.good.ax k hk hun).2.2, (hco.upper k hk hs).1, sub_self, sub_zero]
    · intro k hk hs
      rw [nC2] at hk
      have hs := p.eqC k hs
      obtain ⟨_, h2⟩ := hco.eq k hk hs
      obtain ⟨_, a1, a2⟩ := h.good.ax k hk (by rw [hs]; decide)
      have := (hAxl k hk).1.symm.trans (hAxl k hk).2
      rw [a1, a2, h2] at this
      linarith
    · intro k hk
      rw [nC2] at hk
      obtain ⟨z1, z2⟩ := hxA k hk
      obtain ⟨w1, w2⟩ := hAxl k hk
      constructor <;> linarith
    · intro i _
      exact ad.stC i
    · intro i hi hty
      exact ⟨k4 i hi hty, eqC i hi (ad.eqC i hty)⟩
    · have := c4
      rw [show s3.y = s2.y by rw [ef]; rfl, show s3.nV = s2.nV by rw [ef]; rfl, show s3.nC = s2.nC by rw [ef]; rfl] at this
      refine signFit_new (before := s.cons) ?_ ?_ ?_ ?_ (fun i _ => ad.stC i) this
      · rw [cn2, nC2]; exact h.good.facs.shape.nC
      · intro k _ hd
        rw [p.typeC k hd]
        exact em' _
      · rw [cst2, nC2, y2, nV2]; exact fun i hi hs => (hco.lower i hi hs).2
      · rw [cst2, nC2, y2, nV2]; exact fun i hi hs => (hco.upper i hi hs).2
  have hG : s'.Good := by
    refine ⟨hF', ?_, ?_⟩
    · rw [ef']; exact ⟨p.stat, hsideB, hsideC⟩
    · rw [ef']
      intro k hk _
      have hk : k < s.nC := nC2 ▸ hk
      obtain ⟨h1, h2, h3, h4, h5⟩ := p.ax k hk
      refine ⟨h1, ?_, ?_⟩
      · show s2.Axl k = s2.prodA s2.x k - s2.lbA k
        rw [h4, h2, h1]; ring
      · show s2.Axu k = s2.ubA k - s2.prodA s2.x k
        rw [h5, h3, h1]; ring
  have ho' : s'.options = s.options := by rw [ef']; exact o2
  refine ⟨⟨hG, by rw [ef']; exact nV2, by rw [ef']; exact nC2, ?_, h.pos, ?_, ⟨by rw [ho']; exact h.params.options, ?_⟩, by rw [ho']; exact h.relax, ?_, ?_, ?_, ?_, ?_, ?_, ?_⟩,
    by rw [ef'], ho', by rw [ef']; exact x2, by rw [ef']; exact y2, by rw [ef']; exact lb2, by rw [ef']; exact ub2, ?_⟩
  · rw [ef']; exact p.A
  · rw [ef', hfr]; exact h.chol
  · rw [ho', ef', hfr]; exact h.params.ramp
  · rw [ef', hfr]; exact h.reg
  · rw [ef']; exact p.hess
  · intro i hi hty
    have hty : s3.bounds.type i = ST_EQUALITY := by rw [ef'] at hty; exact hty
    rw [tyB i hi] at hty
    rw [ho', ← o2]
    exact QPB.typeOf_eq hty
  · intro k hk hty
    have hty : s3.cons.type k = ST_UNBOUNDED := by rw [ef'] at hty; exact hty
    rcases k2.typeC k with h1 | ⟨_, h1⟩
    · rw [h1, tyC k hk] at hty
      have := typeOfC_unbounded hty
      rw [ho', ← o2]
      exact this
    · rw [h1] at hty; cases hty
  · intro k hk hty
    have hty : s3.cons.type k = ST_EQUALITY := by rw [ef'] at hty; exact hty
    have := typeOfC_eq ((tyC k hk).symm.trans (ad.eqC k hty))
    rw [ho', ← o2]
    exact this
  · intro hl k hk
    have hl : s3.cons.noLower = true := by rw [ef'] at hl; exact hl
    rw [k2.noLowerC] at hl
    have hl : ((List.range s2.nC).all fun i => !decide (lA i > -INFTY)) = true := hl
    rw [List.all_eq_true] at hl
    simpa using hl k (List.mem_range.2 (by rw [nC2]; exact hk))
  · intro hl k hk
    have hl : s3.cons.noUpper = true := by rw [ef'] at hl; exact hl
    rw [k2.noUpperC] at hl
    have hl : ((List.range s2.nC).all fun i => !decide (uA i < INFTY)) = true := hl
    rw [List.all_eq_true] at hl
    simpa using hl k (List.mem_range.2 (by rw [nC2]; exact hk))
  · intro hnew
    have hty : ∀ i < s.nV, s'.bounds.type i = s'.toQPB.typeOf (some l) (some u) i := by rw [ef']; exact tyB
    refine ⟨fun i hi e => ?_, fun i hi e e' => ?_⟩
    · have hi' : i < s.nV := by rw [ef'] at hi; exact nV2 ▸ hi
      obtain ⟨q1, q2⟩ := hG.opt.bounds.eq i hi ((hty i hi').trans e)
      refine ⟨q1, q2, ?_⟩
      unfold QPB.typeOf at e
      dsimp only at e
      rw [ho'] at e
      split at e
      · cases e
      · split at e
        · next hh => exact hnew hh.1 i hi' hh.2.2
        · cases e
    · have hi' : i < s.nV := by rw [ef'] at hi; exact nV2 ▸ hi
      exact absurd ((hty i hi').symm.trans e') e

end QPC
end QpOASES
