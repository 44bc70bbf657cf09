import Verif.Model.SubjectTo
import Verif.Model.Constants
import Mathlib.Algebra.Order.Field.Basic

/-!
The working set a cold start is asked to begin with.
-/
namespace QpOASES.Spec
open SubjectToStatus SubjectToType

variable {K : Type} [Field K] [LinearOrder K] [IsStrictOrderedRing K]

/-- Status wanted for a member with limits `l`, `u` at the beginning of a cold start.  It is guessed; else given by the sign of the guessed
multiplier `y`; else by the limit near which the value `v` at the guessed point lies; else by default.  Equalities are never inactive.
`kind`: the kind of member its limits make it, `tol`: what counts as near. -/
def Wanted (guess : Option SubjectToStatus) (y v : Option K) (l u tol : K) (kind : SubjectToType) (default st : SubjectToStatus) : Prop :=
  match guess, y, v with
  | some w, _, _ => (kind = ST_EQUALITY → st = ST_LOWER) ∧ (kind ≠ ST_EQUALITY → st = w)
  | none, some y, _ =>
    (EPS < y → st = ST_LOWER) ∧ (y < -EPS → st = ST_UPPER) ∧
    (|y| ≤ EPS → (kind = ST_EQUALITY → st = ST_LOWER) ∧ (kind ≠ ST_EQUALITY → st = ST_INACTIVE))
  | none, none, some v =>
    (v - l ≤ tol → st = ST_LOWER) ∧ (tol < v - l → u - v ≤ tol → st = ST_UPPER) ∧
    (tol < v - l → tol < u - v → (kind = ST_EQUALITY → st = ST_LOWER) ∧ (kind ≠ ST_EQUALITY → st = ST_INACTIVE))
  | none, none, none =>
    (kind = ST_EQUALITY → st = ST_LOWER) ∧ (kind = ST_UNBOUNDED → st = ST_INACTIVE) ∧ (kind = ST_BOUNDED → st = default)

end QpOASES.Spec
