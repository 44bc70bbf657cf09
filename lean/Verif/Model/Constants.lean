import Mathlib.Algebra.Order.Field.Basic
import Verif.Model.SubjectTo

/-!
Numbers.  `real_t` (double) is modelled by an arbitrary linearly ordered field `K`; rounding, NaN and
signed zeros are not modelled.
-/
namespace QpOASES

section
variable {K : Type} [Field K]

/-- `EPS`, include/qpOASES/Constants.hpp:50 (double precision) -/
def EPS : K := 2221 / 10^19
/-- `ZERO`, include/qpOASES/Constants.hpp:57 -/
def ZERO : K := 1 / 10^25
/-- `INFTY`, include/qpOASES/Constants.hpp:61 -/
def INFTY : K := 10^20
end

/-- `enum PrintLevel`, include/qpOASES/Types.hpp:212-220 -/
inductive PrintLevel where
  | PL_DEBUG_ITER | PL_TABULAR | PL_NONE | PL_LOW | PL_MEDIUM | PL_HIGH
  deriving DecidableEq, Repr

/-- numeric values, include/qpOASES/Types.hpp:214 -/
def PrintLevel.code : PrintLevel → Int
  | PL_DEBUG_ITER => -2 | PL_TABULAR => -1 | PL_NONE => 0 | PL_LOW => 1 | PL_MEDIUM => 2 | PL_HIGH => 3

/-- numeric values, include/qpOASES/Types.hpp:274 -/
def SubjectToStatus.code : SubjectToStatus → Int
  | ST_LOWER => -1 | ST_INACTIVE => 0 | ST_UPPER => 1 | ST_INFEASIBLE_LOWER => 2 | ST_INFEASIBLE_UPPER => 3
  | ST_UNDEFINED => 4

/-- numeric values of `BooleanType`, include/qpOASES/Types.hpp:203-207 -/
def boolCode (b : Bool) : Int := if b then 1 else 0

end QpOASES
