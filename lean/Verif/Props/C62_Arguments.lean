import Verif.Proofs.QPCRuns

/-!
C62: a cold start with missing or contradictory arguments is refused.
-/
namespace QpOASES.Props
open QpOASES.Runs ReturnValue SubjectToStatus SubjectToType HessianType QProblemStatus

variable {K : Type} [Field K] [LinearOrder K] [IsStrictOrderedRing K]

/-- Some member of a guessed working set has no status. -/
def Undefined (n : Nat) (guess : Option WS) : Prop := ∃ w, guess = some w ∧ ∃ i < n, w.getStatus i = ST_UNDEFINED

theorem undefined_iff (n : Nat) (guess : Option WS) :
    (guess.any fun w => (List.range n).any fun i => w.getStatus i == ST_UNDEFINED) = true ↔ Undefined n guess := by
  cases guess with
  | none => simp [Undefined]
  | some w => simp [Undefined]

/-- What a refused call leaves behind: the budgets as they were, and an object that does not report a solution. -/
structure Refused (nWSR nWSR' : Int) (c c' : Option K) (s : QPB K) : Prop where
  nWSR : nWSR' = nWSR
  cputime : c' = c
  status : s.status = QPS_NOTINITIALISED
  primal : ∀ a, s.getPrimalSolution a = (RET_QP_NOT_SOLVED, a)
  objective : s.getObjVal = .ok INFTY

theorem Refused.of {nWSR : Int} {c : Option K} {s : QPB K} (h : s.status = QPS_NOTINITIALISED) : Refused nWSR nWSR c c s := by
  have n : s.hasSolution = false := by
    unfold QPB.hasSolution
    rw [h]
    decide
  refine ⟨rfl, rfl, h, fun a => ?_, ?_⟩
  · unfold QPB.getPrimalSolution
    rw [n]
    rfl
  · unfold QPB.getObjVal
    rw [n]
    rfl

namespace QPB
open QpOASES.QPB

theorem fresh_status (s : QPB K) : (if s.status ≠ QPS_NOTINITIALISED then s.reset else s).status = QPS_NOTINITIALISED := by
  split
  · rfl
  · rename_i h
    exact not_not.1 h

theorem fresh_nV (s : QPB K) : (if s.status ≠ QPS_NOTINITIALISED then s.reset else s).nV = s.nV := by
  split <;> rfl

theorem setH_status (s : QPB K) (H : Option (Nat → K)) : (s.setH H).status = s.status := by
  unfold setH
  split
  · split <;> rfl
  · rfl

end QPB
open QPB

/-- C62, bound-constrained solver.  Refused are: a guessed working set with undefined members; guessed multipliers and a guessed working
set without a guessed point; a Cholesky factor together with any guess; and a missing gradient. -/
theorem C62_bounds (sq : K → K) (fuel : Nat) (s : QPB K) (H g lb ub : Option (Nat → K)) (nWSR : Int) (c : Option K)
    (xOpt yOpt : Option (Nat → K)) (guess : Option WS) (R : Option (Nat → K)) (hn : s.nV ≠ 0)
    (h : Undefined s.nV guess ∨ (xOpt.isNone ∧ yOpt.isSome ∧ guess.isSome) ∨ (R.isSome ∧ (xOpt.isSome ∨ yOpt.isSome ∨ guess.isSome)) ∨ g = none) :
    ∃ o, QPB.init sq fuel s H g lb ub nWSR c xOpt yOpt guess R = .ok o ∧ Refused nWSR o.nWSR c o.cputime o.s ∧
      (o.rv = RET_NO_CHOLESKY_WITH_INITIAL_GUESS ∧ R.isSome ∧ (xOpt.isSome ∨ yOpt.isSome ∨ guess.isSome) ∨
       o.rv = RET_INVALID_ARGUMENTS ∧ ¬ (R.isSome ∧ (xOpt.isSome ∨ yOpt.isSome ∨ guess.isSome)) ∨
       o.rv = RET_INVALID_ARGUMENTS ∧ (Undefined s.nV guess ∨ (xOpt.isNone ∧ yOpt.isSome ∧ guess.isSome))) := by
  unfold QPB.init
  rw [if_neg hn]
  dsimp only
  have f := fresh_status s
  have n := fresh_nV s
  generalize (if s.status ≠ QPS_NOTINITIALISED then s.reset else s) = s1 at f n ⊢
  rw [← n] at h ⊢
  split
  · rename_i u
    exact ⟨_, rfl, Refused.of f, Or.inr (Or.inr ⟨rfl, Or.inl ((undefined_iff _ _).1 u)⟩)⟩
  · rename_i u
    rw [undefined_iff] at u
    split
    · rename_i u2
      simp only [Bool.and_eq_true] at u2
      exact ⟨_, rfl, Refused.of f, Or.inr (Or.inr ⟨rfl, Or.inr ⟨u2.1.1, u2.1.2, u2.2⟩⟩)⟩
    · rename_i u2
      split
      · rename_i u3
        simp only [Bool.and_eq_true, Bool.or_eq_true] at u3
        exact ⟨_, rfl, Refused.of f, Or.inl ⟨rfl, u3.1, by tauto⟩⟩
      · rename_i u3
        simp only [Bool.and_eq_true, Bool.or_eq_true] at u2 u3
        obtain rfl : g = none := by tauto
        exact ⟨_, rfl, Refused.of (by exact (setH_status s1 H).trans f), Or.inr (Or.inl ⟨rfl, by tauto⟩)⟩

/-- C62, general solver; the constraint matrix may not be missing either. -/
theorem C62_general (sq : K → K) (fuel : Nat) (s : QPC K) (H g A lb ub lbA ubA : Option (Nat → K)) (nWSR : Int) (c : Option K)
    (xOpt yOpt : Option (Nat → K)) (gB gC : Option WS) (R : Option (Nat → K)) (hn : s.nV ≠ 0)
    (h : Undefined s.nV gB ∨ Undefined s.nC gC ∨ (xOpt.isNone ∧ yOpt.isSome ∧ (gB.isSome ∨ gC.isSome)) ∨
      (R.isSome ∧ (xOpt.isSome ∨ yOpt.isSome ∨ gB.isSome ∨ gC.isSome)) ∨ g = none ∨ (s.nC ≠ 0 ∧ A = none)) :
    ∃ o, QPC.init sq fuel s H g A lb ub lbA ubA nWSR c xOpt yOpt gB gC R = .ok o ∧ Refused nWSR o.nWSR c o.cputime o.s.toQPB ∧
      (o.rv = RET_NO_CHOLESKY_WITH_INITIAL_GUESS ∧ R.isSome ∧ (xOpt.isSome ∨ yOpt.isSome ∨ gB.isSome ∨ gC.isSome) ∨
       o.rv = RET_INVALID_ARGUMENTS ∧ ¬ (R.isSome ∧ (xOpt.isSome ∨ yOpt.isSome ∨ gB.isSome ∨ gC.isSome)) ∨
       o.rv = RET_INVALID_ARGUMENTS ∧ (Undefined s.nV gB ∨ Undefined s.nC gC ∨ (xOpt.isNone ∧ yOpt.isSome ∧ (gB.isSome ∨ gC.isSome)))) := by
  unfold QPC.init
  rw [if_neg hn]
  dsimp only
  have f : (if s.status ≠ QPS_NOTINITIALISED then s.reset else s).status = QPS_NOTINITIALISED := by
    split
    · rfl
    · rename_i h
      exact not_not.1 h
  have n : (if s.status ≠ QPS_NOTINITIALISED then s.reset else s).nV = s.nV := by split <;> rfl
  have m : (if s.status ≠ QPS_NOTINITIALISED then s.reset else s).nC = s.nC := by split <;> rfl
  generalize (if s.status ≠ QPS_NOTINITIALISED then s.reset else s) = s1 at f n m ⊢
  rw [← n, ← m] at h ⊢
  split
  · rename_i u
    exact ⟨_, rfl, Refused.of f, Or.inr (Or.inr ⟨rfl, Or.inl ((undefined_iff _ _).1 u)⟩)⟩
  · rename_i u
    rw [undefined_iff] at u
    split
    · rename_i u1
      exact ⟨_, rfl, Refused.of f, Or.inr (Or.inr ⟨rfl, Or.inr (Or.inl ((undefined_iff _ _).1 u1))⟩)⟩
    · rename_i u1
      rw [undefined_iff] at u1
      split
      · rename_i u2
        simp only [Bool.and_eq_true, Bool.or_eq_true] at u2
        exact ⟨_, rfl, Refused.of f, Or.inr (Or.inr ⟨rfl, Or.inr (Or.inr ⟨u2.1.1, u2.1.2, u2.2⟩)⟩)⟩
      · rename_i u2
        split
        · rename_i u3
          simp only [Bool.and_eq_true, Bool.or_eq_true] at u3
          exact ⟨_, rfl, Refused.of f, Or.inl ⟨rfl, u3.1, by tauto⟩⟩
        · rename_i u3
          simp only [Bool.and_eq_true, Bool.or_eq_true] at u2 u3
          have hd : g = none ∨ (s1.nC ≠ 0 ∧ A = none) := by tauto
          have key : (s1.setupQPdata H g A lb ub lbA ubA).1 ≠ SUCCESSFUL_RETURN ∧
              (s1.setupQPdata H g A lb ub lbA ubA).2.status = QPS_NOTINITIALISED := by
            have hst := (setH_status s1.toQPB H).trans f
            have hC : (s1.toQPB.setH H).status = QPS_NOTINITIALISED := hst
            cases g with
            | none => exact ⟨(show RET_INVALID_ARGUMENTS ≠ SUCCESSFUL_RETURN by decide), hC⟩
            | some g =>
              rcases hd with hd | ⟨a, rfl⟩
              · cases hd
              · unfold QPC.setupQPdata QPB.setupQPdata
                dsimp only
                rw [if_neg (by decide), if_neg a]
                exact ⟨(show RET_INVALID_ARGUMENTS ≠ SUCCESSFUL_RETURN by decide), hC⟩
          generalize s1.setupQPdata H g A lb ub lbA ubA = p at key ⊢
          obtain ⟨r, s2⟩ := p
          dsimp only at key ⊢
          rw [if_pos key.1]
          exact ⟨_, rfl, Refused.of key.2, Or.inr (Or.inl ⟨rfl, fun hh => u3 ⟨hh.1, by simpa only [or_assoc] using hh.2⟩⟩)⟩

/-- A factor and a guess for the point: refused. -/
example : ∃ o, QPB.init id 5 (start 2 HST_IDENTITY plain) none (some fun _ => 0) none none 10 none (some fun _ => 1) none none (some fun _ => 1) = .ok o ∧
    o.rv = RET_NO_CHOLESKY_WITH_INITIAL_GUESS ∧ o.nWSR = 10 := by
  obtain ⟨o, e, r, h⟩ := C62_bounds id 5 (start 2 HST_IDENTITY plain) none (some fun _ => 0) none none 10 none (some fun _ => 1) none none
    (some fun _ => 1) (by decide) (Or.inr (Or.inr (Or.inl ⟨rfl, Or.inl rfl⟩)))
  refine ⟨o, e, ?_, r.nWSR⟩
  rcases h with h | h | h
  · exact h.1
  · exact absurd ⟨rfl, Or.inl rfl⟩ h.2
  · rcases h.2 with ⟨w, hw, _⟩ | h
    · cases hw
    · exact absurd h.1 (by decide)

/-- No constraint matrix: refused, also after a successful cold start. -/
example : ∃ o o', coldC (startC 2 2 HST_IDENTITY plain) none [0,0] [1,0,0,1] [-100,-100] [100,100] [1,2] [50,50] = .ok o ∧ o.s.status = QPS_SOLVED ∧
    QPC.init id 5 o.s none (some fun _ => 0) none none none none none 10 none none none none none none = .ok o' ∧
    Refused 10 o'.nWSR none o'.cputime o'.s.toQPB := by
  obtain ⟨o, e, h⟩ := of_holds (r := coldC (startC 2 2 HST_IDENTITY plain) none [0,0] [1,0,0,1] [-100,-100] [100,100] [1,2] [50,50])
    (p := fun o => decide (o.s.status = QPS_SOLVED ∧ o.s.nV ≠ 0 ∧ o.s.nC ≠ 0)) (by decide +kernel)
  obtain ⟨h1, h2, h3⟩ := of_decide_eq_true h
  obtain ⟨o', e', r, _⟩ := C62_general id 5 o.s none (some fun _ => 0) none none none none none 10 none none none none none none h2
    (Or.inr (Or.inr (Or.inr (Or.inr (Or.inr ⟨h3, rfl⟩)))))
  exact ⟨o, o', e, h1, e', r⟩

end QpOASES.Props
