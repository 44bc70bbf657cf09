import Verif.Model.Constants
import Mathlib.Algebra.Order.Field.Basic

/-!
Lists of coordinate triples (row, column, value) as they are passed to sparse linear solvers.
-/
namespace QpOASES.Spec

variable {K : Type} [Field K] [LinearOrder K] [IsStrictOrderedRing K]

/-- The triples stand for the matrix with entries `E i j`, `i < nr`, `j < nc`, whose first row and column have numbers `ro`, `co`; only the
positions with `sel` are asked for.  No position occurs twice, and entries of absolute value up to `tol` may be missing. -/
structure IsSubmatrix (L : List (Int × Int × K)) (nr nc : Nat) (ro co : Int) (sel : Nat → Nat → Prop) (E : Nat → Nat → K) (tol : K) : Prop where
  once : (L.map fun t => (t.1, t.2.1)).Nodup
  sound : ∀ t ∈ L, ∃ i < nr, ∃ j < nc, sel i j ∧ t = ((i : Int) + ro, (j : Int) + co, E i j)
  complete : ∀ i < nr, ∀ j < nc, sel i j → ((i : Int) + ro, (j : Int) + co, E i j) ∈ L ∨ |E i j| ≤ tol

end QpOASES.Spec
