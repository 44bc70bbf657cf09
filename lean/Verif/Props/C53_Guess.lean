import Verif.Proofs.QPBGuess
import Verif.Props.C38_C41_Protocol

/-!
C53: a guessed working set is adopted (bound-constrained solver).

Without general constraints nothing is linearly dependent, and the solver does not force equalities to be active; so the
guess has to be adopted exactly.
-/
namespace QpOASES.Props
open Spec QPB ReturnValue SubjectToStatus SubjectToType HessianType QProblemStatus

set_option linter.unusedSectionVars false

variable {K : Type} [Field K] [LinearOrder K] [IsStrictOrderedRing K]

/-- The guess `w` says of each of the first `n` variables whether it is free or at one of its limits. -/
def CompleteGuess (n : Nat) (w : WS) : Prop :=
  ∀ i < n, w.getStatus i = ST_INACTIVE ∨ w.getStatus i = ST_LOWER ∨ w.getStatus i = ST_UPPER

/-- **C53** (part): whatever the previous working set was, the homotopy starts from the guess. -/
theorem C53_start_partial {sq : K → K} {s s1 : QPB K} (hw : s.bounds.OK) (hn : s.bounds.n = s.nV) {w : WS}
    (hg : CompleteGuess s.nV w) {c : Option K} (h : StartsFrom sq s c (.other w) s1) :
    s1.bounds.OK ∧ s1.bounds.n = s.nV ∧ ∀ i < s.nV, s1.bounds.getStatus i = w.getStatus i := by
  obtain ⟨r, e⟩ := h
  obtain ⟨k, ek⟩ := startClock_keep s c
  rw [ek] at e
  obtain ⟨a1, a2, a3, a4⟩ := setupAuxiliaryQP_spec (s := { s with now := k }) hw hn hg e
  exact ⟨a1, a3, fun i hi => (WS.getStatus_of_lt (by rw [a3]; exact hi)).trans (a4 i hi)⟩

/-- **C53** (part), as seen from outside: the number of variables whose final status differs from the guess is at most the
number of working set recalculations allowed; if none is allowed, the final working set is the guess. -/
theorem C53_adopted_partial {sq : K → K} {fuel : Nat} {s : QPB K} (hw : s.bounds.OK) (hn : s.bounds.n = s.nV) (hv : s.nV ≠ 0)
    {w : WS} (hg : CompleteGuess s.nV w) {gNew : Nat → K} {lbNew ubNew : Option (Nat → K)} {nWSR : Int} (hb : 0 ≤ nWSR)
    {c : Option K} {o : Out K} (h : hotstart sq fuel s gNew lbNew ubNew nWSR c (.other w) = .ok o) :
    ((List.range s.nV).countP fun i => o.s.bounds.status i ≠ w.getStatus i : Int) ≤ nWSR ∧
    (nWSR = 0 → ∀ i < s.nV, o.s.bounds.status i = w.getStatus i) := by
  obtain ⟨_, s1, hs, k, a, b, _⟩ := C38_hotstart hv hb h
  obtain ⟨p1, p2, p3⟩ := C53_start_partial hw hn hg hs
  have hcard := a.card s.nV
  have e : ((List.range s.nV).countP fun i => decide (o.s.bounds.status i ≠ w.getStatus i)) =
      (List.range s.nV).countP fun i => decide (o.s.bounds.status i ≠ s1.bounds.status i) := by
    apply List.countP_congr
    intro i hi
    have hi := List.mem_range.1 hi
    have := p3 i hi
    rw [WS.getStatus_of_lt (by rw [p2]; exact hi)] at this
    rw [this]
  rw [e]
  refine ⟨by omega, fun h0 i hi => ?_⟩
  have hz : (List.range s.nV).countP (fun i => decide (o.s.bounds.status i ≠ w.getStatus i)) = 0 := by rw [e]; omega
  have := List.countP_eq_zero.1 hz i (List.mem_range.2 hi)
  simpa using this

/-! Both ways of installing the guess: three variables at their lower limits, then a guess that changes one status
(members are removed and added) and one that changes all of them (the working set is set up afresh). -/

section Example
open QpOASES.Runs

def guessOf (l : List SubjectToStatus) : WS :=
  { WS.init l.length with
    status := fun i => l.getD i ST_UNDEFINED
    fixed := (List.range l.length).filter fun i => l.getD i ST_UNDEFINED != ST_INACTIVE }

def lowers : Res (Out ℚ) := cold (start 3 HST_IDENTITY plain) none [1, 1, 1] [0, 0, 0] [2, 2, 2]

def adopts (l : List SubjectToStatus) : Bool :=
  holds (do
    let o ← lowers
    let o' ← QPB.hotstart root 5 o.s (vec [1, 1, 1]) (some (vec [0, 0, 0])) (some (vec [2, 2, 2])) 0 none (.other (guessOf l))
    .ok (o, o'))
    fun (o, o') => decide (o.rv = SUCCESSFUL_RETURN) &&
      (List.range 3).all (fun i => decide (o.s.bounds.status i = ST_LOWER)) &&
      (List.range 3).all (fun i => decide (o'.s.bounds.status i = l.getD i ST_UNDEFINED)) &&
      decide (o'.s.bounds.free = (List.range 3).filter fun i => l.getD i ST_UNDEFINED = ST_INACTIVE)

example : adopts [ST_LOWER, ST_LOWER, ST_INACTIVE] = true ∧ adopts [ST_UPPER, ST_INACTIVE, ST_UPPER] = true := by decide +kernel

example : CompleteGuess 3 (guessOf [ST_LOWER, ST_LOWER, ST_INACTIVE]) := by
  unfold CompleteGuess
  decide

/-- The object meets the conditions of the theorems. -/
example : ∃ o, lowers = .ok o ∧ o.s.bounds.OK ∧ o.s.bounds.n = o.s.nV ∧ o.s.nV ≠ 0 := by
  obtain ⟨o, e, h⟩ := of_holds (r := lowers) (p := fun o => decide ((o.s.bounds.free ++ o.s.bounds.fixed).Perm (List.range o.s.bounds.n)) &&
    (decide (∀ i ∈ o.s.bounds.free, o.s.bounds.status i = ST_INACTIVE) &&
    (decide (∀ i ∈ o.s.bounds.fixed, o.s.bounds.status i = ST_LOWER ∨ o.s.bounds.status i = ST_UPPER) &&
    (decide (o.s.bounds.n = o.s.nV) && decide (o.s.nV ≠ 0))))) (by decide +kernel)
  simp only [Bool.and_eq_true, decide_eq_true_eq] at h
  exact ⟨o, e, ⟨h.1, h.2.1, h.2.2.1⟩, h.2.2.2⟩

end Example

end QpOASES.Props
