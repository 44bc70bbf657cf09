import Verif.Proofs.QPBFactor
import Verif.Model.SQProblem
import Mathlib.Algebra.BigOperators.Group.Finset.Basic

/-!
What it means that a guessed working set has been adopted by the solver for general constraints.
-/
namespace QpOASES.Spec
open SubjectToStatus SubjectToType Finset

variable {K : Type} [Field K] [LinearOrder K] [IsStrictOrderedRing K]

/-- What was active at `t` is still active, on the same side; matrix and tolerance have not changed. -/
structure Stage (t s : QPC K) : Prop where
  keptB : ∀ j, t.bounds.status j ≠ ST_INACTIVE → s.bounds.status j = t.bounds.status j
  keptC : ∀ j, t.cons.status j ≠ ST_INACTIVE → s.cons.status j = t.cons.status j
  A : t.A = s.A
  eps : t.options.epsLITests = s.options.epsLITests

/-- At `t`, fixing variable `i` leaves no freedom: row `i` of the null space basis vanishes up to the tolerance. -/
def DependentB (t : QPC K) (i : Nat) : Prop := ∀ j < t.nZ, |t.Q i j| ≤ t.options.epsLITests

/-- At `t`, row `i` of the constraint matrix vanishes on the null space basis up to the tolerance, relative to its length. -/
def DependentC (t : QPC K) (i : Nat) : Prop :=
  ∀ j < t.nZ, |∑ k ∈ range t.nFR, t.A i (t.fr k) * t.Q (t.fr k) j| ≤ t.options.epsLITests * ∑ k ∈ range t.nFR, t.A i (t.fr k) * t.A i (t.fr k)

/-- Changes of the working set made while a guess is installed. -/
inductive Move
  /-- bound `i` becomes active -/
  | fix (i : Nat) (st : SubjectToStatus)
  /-- constraint `i` becomes active -/
  | activate (i : Nat) (st : SubjectToStatus)
  /-- bound `i` becomes inactive -/
  | free (i : Nat)
  /-- constraint `i` becomes inactive -/
  | deactivate (i : Nat)
  /-- constraint `i` is no longer regarded as an equality -/
  | relax (i : Nat)

/-- Members are removed only from a previous working set, whose factors are updated. -/
def Move.Valid (upd : Bool) (s : QPC K) : Move → Prop
  | fix i st => i < s.nV ∧ (st = ST_LOWER ∨ st = ST_UPPER)
  | activate i st => i < s.nC ∧ (st = ST_LOWER ∨ st = ST_UPPER)
  | free i => upd = true ∧ i < s.nV
  | deactivate i => upd = true ∧ i < s.nC
  | relax i => i < s.nC

/-- The solver makes the change; `upd`: the Cholesky factor is updated. -/
def Move.run (sq : K → K) (upd : Bool) (s : QPC K) : Move → Res (ReturnValue × QPC K)
  | fix i st => QPC.addBoundAs sq s i st upd
  | activate i st => QPC.addConstraintAs sq s i st upd
  | free i => QPC.removeBound sq s i true false false
  | deactivate i => QPC.removeConstraint sq s i true false false
  | relax i => .ok (ReturnValue.SUCCESSFUL_RETURN, { s with cons := { s.cons with type := updA s.cons.type i ST_BOUNDED } })

/-- From `s0` the solver has come to `t` by successful changes of the working set; the list says which ones, the last one first, with the
states before. -/
inductive Reached (sq : K → K) (upd : Bool) (s0 : QPC K) : List (QPC K × Move) → QPC K → Prop
  | start : Reached sq upd s0 [] s0
  | step {l : List (QPC K × Move)} {t t' : QPC K} {m : Move} (h : Reached sq upd s0 l t) (hv : m.Valid upd t)
      (e : m.run sq upd t = .ok (ReturnValue.SUCCESSFUL_RETURN, t')) : Reached sq upd s0 ((t, m) :: l) t'

/-- On the way from `s0` to `s`, bound `i` has been left out because of linear dependence on members that are active. -/
def LeftOutB (sq : K → K) (upd : Bool) (s0 s : QPC K) (i : Nat) : Prop := ∃ l t, Reached sq upd s0 l t ∧ Stage t s ∧ DependentB t i

/-- On the way from `s0` to `s`, constraint `i` has been left out because of linear dependence on members that are active. -/
def LeftOutC (sq : K → K) (upd : Bool) (s0 s : QPC K) (i : Nat) : Prop := ∃ l t, Reached sq upd s0 l t ∧ Stage t s ∧ DependentC t i

/-- The first `nZ` columns of `Q` are orthonormal and in the null space of the active constraints; `nZ` is the number of free variables less
that of active constraints. -/
structure NullBasis (s : QPC K) : Prop where
  count : s.nZ + s.cons.fixed.length = s.bounds.free.length
  orth : ∀ j < s.nZ, ∀ j' < s.nZ, ∑ i ∈ s.bounds.free.toFinset, s.Q i j * s.Q i j' = if j = j' then 1 else 0
  null : ∀ k ∈ s.cons.fixed, ∀ j < s.nZ, ∑ i ∈ s.bounds.free.toFinset, s.A k i * s.Q i j = 0

/-- Starting from `s0`, the solver has adopted the guess `wB`, `wC`: its working set is the guess, except for members left out because of
linear dependence and equalities, which are forced to be active; `typeB`, `typeC`: the types of bounds and constraints. -/
structure Adopted (sq : K → K) (upd : Bool) (s0 s : QPC K) (wB wC : WS) (typeB typeC : Nat → SubjectToType) : Prop where
  /-- nothing is active that has not been guessed, apart from equalities -/
  onlyB : ∀ i < s.nV, s.bounds.status i ≠ ST_INACTIVE → s.bounds.status i = wB.getStatus i ∨ typeB i = ST_EQUALITY
  onlyC : ∀ i < s.nC, s.cons.status i ≠ ST_INACTIVE → s.cons.status i = wC.getStatus i ∨ typeC i = ST_EQUALITY
  /-- what has been guessed to be active is active, unless left out -/
  allB : ∀ i < s.nV, wB.getStatus i ≠ ST_INACTIVE → s.bounds.status i ≠ ST_INACTIVE ∨ LeftOutB sq upd s0 s i
  allC : ∀ i < s.nC, wC.getStatus i ≠ ST_INACTIVE → s.cons.status i ≠ ST_INACTIVE ∨ LeftOutC sq upd s0 s i
  /-- equalities are active, constraints unless left out -/
  eqB : ∀ i < s.nV, typeB i = ST_EQUALITY → s.bounds.status i ≠ ST_INACTIVE
  eqC : ∀ i < s.nC, typeC i = ST_EQUALITY → s.cons.status i ≠ ST_INACTIVE ∨ LeftOutC sq upd s0 s i

/-- The data of the object are such that its iterates are stationary and complementary, and the active members are at their limits. -/
structure Consistent (s : QPC K) : Prop where
  stat : ∀ i < s.nV, ∑ j ∈ range s.nV, s.Heff i j * s.x j + s.g i = s.y i + ∑ k ∈ range s.nC, s.A k i * s.y (s.nV + k)
  inactiveB : ∀ i < s.nV, s.bounds.status i = ST_INACTIVE → s.y i = 0
  inactiveC : ∀ k < s.nC, s.cons.status k = ST_INACTIVE → s.y (s.nV + k) = 0
  lowerB : ∀ i < s.nV, s.bounds.status i = ST_LOWER → s.x i = s.lb i
  upperB : ∀ i < s.nV, s.bounds.status i = ST_UPPER → s.x i = s.ub i
  lowerC : ∀ k < s.nC, s.cons.status k = ST_LOWER → ∑ j ∈ range s.nV, s.A k j * s.x j = s.lbA k
  upperC : ∀ k < s.nC, s.cons.status k = ST_UPPER → ∑ j ∈ range s.nV, s.A k j * s.x j = s.ubA k
  value : ∀ k < s.nC, s.Ax k = ∑ j ∈ range s.nV, s.A k j * s.x j
  slackL : ∀ k < s.nC, s.Axl k = s.Ax k - s.lbA k
  slackU : ∀ k < s.nC, s.Axu k = s.ubA k - s.Ax k

end QpOASES.Spec
