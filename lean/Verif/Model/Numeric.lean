import Verif.Model.Constants
import Mathlib.Algebra.Order.Group.Abs

/-!
Loops and small numeric helpers shared by the numerical parts of the model.
-/
namespace QpOASES

/-- `for (i = 0; i < n; ++i) s = f(i, s)` for loop bodies without undefined behaviour. -/
def loop {σ : Type} (f : Nat → σ → σ) : Nat → σ → σ
  | 0, s => s
  | n+1, s => f n (loop f n s)

/-- `sum = 0.0; for (i = 0; i < n; ++i) sum += f(i)` -/
def sumTo {K : Type} [Field K] (f : Nat → K) : Nat → K
  | 0 => 0
  | n+1 => sumTo f n + f n

/-- pointwise update of an array -/
def updA {α : Type} (f : Nat → α) (i : Nat) (x : α) : Nat → α := fun k => if k = i then x else f k

section
variable {K : Type} [Field K] [LinearOrder K] [IsStrictOrderedRing K]

/-- `getAbs`, include/qpOASES/Utils.ipp:143-151 (`fabs`) -/
def getAbs (x : K) : K := |x|

/-- `isEqual`, include/qpOASES/Utils.ipp:45-54, `TOL` defaults to `ZERO` -/
def isEqual (x y : K) (TOL : K := ZERO) : Bool := decide (getAbs (x - y) ≤ TOL)

/-- `isZero`, include/qpOASES/Utils.ipp:60-68, `TOL` defaults to `ZERO` -/
def isZero (x : K) (TOL : K := ZERO) : Bool := decide (getAbs x ≤ TOL)

/-- `getSign`, include/qpOASES/Utils.ipp:74-81 -/
def getSign (arg : K) : K := if arg ≥ 0 then 1 else -1

/-- `getMax(real_t,real_t)`, include/qpOASES/Utils.ipp:111-121 -/
def getMax (x y : K) : K := if y < x then x else y

/-- `getMin(real_t,real_t)`, include/qpOASES/Utils.ipp:127-137 -/
def getMin (x y : K) : K := if y > x then x else y

end
end QpOASES
