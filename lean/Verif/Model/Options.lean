import Verif.Model.Constants

/-!
Options: src/Options.cpp, include/qpOASES/Options.hpp, and the C interface
interfaces/c/qpOASES_wrapper.{h,cpp}.  Double precision, no `__DEBUG__`, no `__SUPPRESSANYOUTPUT__`.
-/
namespace QpOASES
open SubjectToStatus ReturnValue PrintLevel

/-- Data members of `class Options`, include/qpOASES/Options.hpp:122-162. -/
@[ext] structure Options (K : Type) where
  printLevel : PrintLevel
  enableRamping : Bool
  enableFarBounds : Bool
  enableFlippingBounds : Bool
  enableRegularisation : Bool
  enableFullLITests : Bool
  enableNZCTests : Bool
  enableDriftCorrection : Int
  enableCholeskyRefactorisation : Int
  enableEqualities : Bool
  terminationTolerance : K
  boundTolerance : K
  boundRelaxation : K
  epsNum : K
  epsDen : K
  maxPrimalJump : K
  maxDualJump : K
  initialRamping : K
  finalRamping : K
  initialFarBounds : K
  growFarBounds : K
  initialStatusBounds : SubjectToStatus
  epsFlipping : K
  numRegularisationSteps : Int
  epsRegularisation : K
  numRefinementSteps : Int
  epsIterRef : K
  epsLITests : K
  epsNZCTests : K
  rcondSMin : K
  enableInertiaCorrection : Bool
  enableDropInfeasibles : Bool
  dropBoundPriority : Int
  dropEqConPriority : Int
  dropIneqConPriority : Int

namespace Options
variable {K : Type} [Field K]

/-- `Options::setToDefault`, src/Options.cpp:91-165. -/
def setToDefault : Options K where
  printLevel := PL_MEDIUM
  enableRamping := true
  enableFarBounds := true
  enableFlippingBounds := true
  enableRegularisation := false
  enableFullLITests := false
  enableNZCTests := true
  enableDriftCorrection := 1
  enableCholeskyRefactorisation := 0
  enableEqualities := false
  terminationTolerance := 5 * 10^6 * EPS
  boundTolerance := 10^6 * EPS
  boundRelaxation := 10^4
  epsNum := -(10^3) * EPS
  epsDen := 10^3 * EPS
  maxPrimalJump := 10^8
  maxDualJump := 10^8
  initialRamping := 1 / 2
  finalRamping := 1
  initialFarBounds := 10^6
  growFarBounds := 10^3
  initialStatusBounds := ST_LOWER
  epsFlipping := 10^3 * EPS
  numRegularisationSteps := 0
  epsRegularisation := 10^3 * EPS
  numRefinementSteps := 1
  epsIterRef := 10^2 * EPS
  epsLITests := 10^5 * EPS
  epsNZCTests := 3 * 10^3 * EPS
  rcondSMin := 1 / 10^14
  enableInertiaCorrection := true
  enableDropInfeasibles := false
  dropBoundPriority := 1
  dropEqConPriority := 1
  dropIneqConPriority := 1

/-- `Options::setToReliable`, src/Options.cpp:171-185. -/
def setToReliable : Options K :=
  { (setToDefault : Options K) with
    enableFullLITests := true
    enableCholeskyRefactorisation := 1
    numRefinementSteps := 2 }

/-- `Options::setToMPC`, src/Options.cpp:191-218. -/
def setToMPC : Options K :=
  { (setToDefault : Options K) with
    enableRamping := false
    enableFarBounds := true
    enableFlippingBounds := false
    enableRegularisation := true
    enableNZCTests := false
    enableDriftCorrection := 0
    enableEqualities := true
    terminationTolerance := 10^9 * EPS
    initialStatusBounds := ST_INACTIVE
    numRegularisationSteps := 1
    numRefinementSteps := 0 }

/-- `Options::setToFast`, src/Options.cpp:224-227. -/
def setToFast : Options K := setToMPC

/-- `Options::copy`, src/Options.cpp:510-555: member by member assignment to `self`. -/
def copy (self rhs : Options K) : Options K :=
  { self with
    printLevel := rhs.printLevel
    enableRamping := rhs.enableRamping
    enableFarBounds := rhs.enableFarBounds
    enableFlippingBounds := rhs.enableFlippingBounds
    enableRegularisation := rhs.enableRegularisation
    enableFullLITests := rhs.enableFullLITests
    enableNZCTests := rhs.enableNZCTests
    enableDriftCorrection := rhs.enableDriftCorrection
    enableCholeskyRefactorisation := rhs.enableCholeskyRefactorisation
    enableEqualities := rhs.enableEqualities
    terminationTolerance := rhs.terminationTolerance
    boundTolerance := rhs.boundTolerance
    boundRelaxation := rhs.boundRelaxation
    epsNum := rhs.epsNum
    epsDen := rhs.epsDen
    maxPrimalJump := rhs.maxPrimalJump
    maxDualJump := rhs.maxDualJump
    initialRamping := rhs.initialRamping
    finalRamping := rhs.finalRamping
    initialFarBounds := rhs.initialFarBounds
    growFarBounds := rhs.growFarBounds
    initialStatusBounds := rhs.initialStatusBounds
    epsFlipping := rhs.epsFlipping
    numRegularisationSteps := rhs.numRegularisationSteps
    epsRegularisation := rhs.epsRegularisation
    numRefinementSteps := rhs.numRefinementSteps
    epsIterRef := rhs.epsIterRef
    epsLITests := rhs.epsLITests
    epsNZCTests := rhs.epsNZCTests
    rcondSMin := rhs.rcondSMin
    enableInertiaCorrection := rhs.enableInertiaCorrection
    enableDropInfeasibles := rhs.enableDropInfeasibles
    dropBoundPriority := rhs.dropBoundPriority
    dropEqConPriority := rhs.dropEqConPriority
    dropIneqConPriority := rhs.dropIneqConPriority }

variable [LinearOrder K]

/-- The pattern `if ( cond ) { member = value; needToAdjust = BT_TRUE; }`. -/
def adjust (cond : Options K → Bool) (set : Options K → Options K) (s : Options K × Bool) : Options K × Bool :=
  if cond s.1 then (set s.1, true) else s

/-- `Options::ensureConsistency`, src/Options.cpp:234-369. -/
def ensureConsistency (self : Options K) : ReturnValue × Options K :=
  let s := (self, false)
  let s := adjust (fun o : Options K => decide (o.enableDriftCorrection < 0)) (fun o : Options K => { o with enableDriftCorrection := 0 }) s
  let s := adjust (fun o : Options K => decide (o.enableCholeskyRefactorisation < 0)) (fun o : Options K => { o with enableCholeskyRefactorisation := 0 }) s
  let s := adjust (fun o : Options K => decide (o.terminationTolerance ≤ 0)) (fun o : Options K => { o with terminationTolerance := EPS }) s
  let s := adjust (fun o : Options K => decide (o.epsIterRef ≤ 0)) (fun o : Options K => { o with epsIterRef := EPS }) s
  let s := adjust (fun o : Options K => decide (o.epsRegularisation ≤ 0)) (fun o : Options K => { o with epsRegularisation := EPS }) s
  let s := adjust (fun o : Options K => decide (o.boundTolerance ≤ 0)) (fun o : Options K => { o with boundTolerance := EPS }) s
  let s := adjust (fun o : Options K => decide (o.boundRelaxation ≤ 0)) (fun o : Options K => { o with boundRelaxation := EPS }) s
  let s := adjust (fun o : Options K => decide (o.maxPrimalJump ≤ 0)) (fun o : Options K => { o with maxPrimalJump := EPS }) s
  let s := adjust (fun o : Options K => decide (o.maxDualJump ≤ 0)) (fun o : Options K => { o with maxDualJump := EPS }) s
  let s := adjust (fun o : Options K => decide (o.initialRamping < 0)) (fun o : Options K => { o with initialRamping := 0 }) s
  let s := adjust (fun o : Options K => decide (o.finalRamping < 0)) (fun o : Options K => { o with finalRamping := 0 }) s
  let s := adjust (fun o : Options K => decide (o.initialFarBounds ≤ o.boundRelaxation)) (fun o : Options K => { o with initialFarBounds := o.boundRelaxation + EPS }) s
  let s := adjust (fun o : Options K => decide (o.growFarBounds < 11 / 10)) (fun o : Options K => { o with growFarBounds := 11 / 10 }) s
  let s := adjust (fun o : Options K => decide (o.epsFlipping ≤ 0)) (fun o : Options K => { o with epsFlipping := EPS }) s
  let s := adjust (fun o : Options K => decide (o.numRegularisationSteps < 0)) (fun o : Options K => { o with numRegularisationSteps := 0 }) s
  let s := adjust (fun o : Options K => decide (o.epsRegularisation < 0)) (fun o : Options K => { o with epsRegularisation := EPS }) s
  let s := adjust (fun o : Options K => decide (o.numRefinementSteps < 0)) (fun o : Options K => { o with numRefinementSteps := 0 }) s
  let s := adjust (fun o : Options K => decide (o.epsIterRef < 0)) (fun o : Options K => { o with epsIterRef := EPS }) s
  let s := adjust (fun o : Options K => decide (o.epsLITests < 0)) (fun o : Options K => { o with epsLITests := EPS }) s
  let s := adjust (fun o : Options K => decide (o.epsNZCTests < 0)) (fun o : Options K => { o with epsNZCTests := EPS }) s
  if s.2 then (RET_OPTIONS_ADJUSTED, s.1) else (SUCCESSFUL_RETURN, s.1)

/-- `QProblemB::setOptions`, include/qpOASES/QProblemB.ipp:191-200: the stored options afterwards
(`self` is the options object stored before). -/
def setOptions (self given : Options K) : Options K := (ensureConsistency (copy self given)).2

end Options

/-- The struct `qpOASES_Options` of the C interface, interfaces/c/qpOASES_wrapper.h:136-181: enumerations and
booleans are plain integers. -/
@[ext] structure COptions (K : Type) where
  printLevel : Int
  enableRamping : Int
  enableFarBounds : Int
  enableFlippingBounds : Int
  enableRegularisation : Int
  enableFullLITests : Int
  enableNZCTests : Int
  enableDriftCorrection : Int
  enableCholeskyRefactorisation : Int
  enableEqualities : Int
  terminationTolerance : K
  boundTolerance : K
  boundRelaxation : K
  epsNum : K
  epsDen : K
  maxPrimalJump : K
  maxDualJump : K
  initialRamping : K
  finalRamping : K
  initialFarBounds : K
  growFarBounds : K
  initialStatusBounds : Int
  epsFlipping : K
  numRegularisationSteps : Int
  epsRegularisation : K
  numRefinementSteps : Int
  epsIterRef : K
  epsLITests : K
  epsNZCTests : K
  enableDropInfeasibles : Int
  dropBoundPriority : Int
  dropEqConPriority : Int
  dropIneqConPriority : Int

namespace COptions
variable {K : Type} [Field K]

/-- Assignments common to all modes, interfaces/c/qpOASES_wrapper.cpp:62-129. -/
def defaults : COptions K where
  printLevel := PL_MEDIUM.code
  enableRamping := boolCode true
  enableFarBounds := boolCode true
  enableFlippingBounds := boolCode true
  enableRegularisation := boolCode false
  enableFullLITests := boolCode false
  enableNZCTests := boolCode true
  enableDriftCorrection := 1
  enableCholeskyRefactorisation := 0
  enableEqualities := boolCode false
  terminationTolerance := 5 * 10^6 * EPS
  boundTolerance := 10^6 * EPS
  boundRelaxation := 10^4
  epsNum := -(10^3) * EPS
  epsDen := 10^3 * EPS
  maxPrimalJump := 10^8
  maxDualJump := 10^8
  initialRamping := 1 / 2
  finalRamping := 1
  initialFarBounds := 10^6
  growFarBounds := 10^3
  initialStatusBounds := ST_LOWER.code
  epsFlipping := 10^3 * EPS
  numRegularisationSteps := 0
  epsRegularisation := 10^3 * EPS
  numRefinementSteps := 1
  epsIterRef := 10^2 * EPS
  epsLITests := 10^5 * EPS
  epsNZCTests := 3 * 10^3 * EPS
  enableDropInfeasibles := boolCode false
  dropBoundPriority := 1
  dropEqConPriority := 1
  dropIneqConPriority := 1

/-- `case 1` of the switch, interfaces/c/qpOASES_wrapper.cpp:139-149 (no `break` at its end). -/
def case1 (o : COptions K) : COptions K :=
  { o with
    enableFullLITests := boolCode true
    enableCholeskyRefactorisation := 1
    numRefinementSteps := 2 }

/-- `case 2` of the switch, interfaces/c/qpOASES_wrapper.cpp:151-174. -/
def case2 (o : COptions K) : COptions K :=
  { o with
    enableRamping := boolCode false
    enableFarBounds := boolCode true
    enableFlippingBounds := boolCode false
    enableRegularisation := boolCode true
    enableNZCTests := boolCode false
    enableDriftCorrection := 0
    enableEqualities := boolCode true
    terminationTolerance := 10^9 * EPS
    initialStatusBounds := ST_INACTIVE.code
    numRegularisationSteps := 1
    numRefinementSteps := 0 }

/-- `qpOASES_Options_init`, interfaces/c/qpOASES_wrapper.cpp:51-177.  `none` is a null pointer. -/
def init (options : Option (COptions K)) (mode : Int) : Int × Option (COptions K) :=
  if mode < 0 ∨ mode > 2 then (-1, options)
  else match options with
    | none => (-1, none)
    | some _ =>
      let o := defaults
      -- switch without `break` after `case 1`
      let o := if mode = 0 then o else if mode = 1 then case2 (case1 o) else case2 o
      (0, some o)

/-- C cast `(BooleanType)i` for the two values of the enumeration; other integers have no `BooleanType`
meaning in C++ and are mapped to true here (they behave as neither value in comparisons). -/
def toBool (i : Int) : Bool := i ≠ 0

/-- C cast `(PrintLevel)i` -/
def toPrintLevel (i : Int) : PrintLevel :=
  if i = -2 then PL_DEBUG_ITER else if i = -1 then PL_TABULAR else if i = 0 then PL_NONE
  else if i = 1 then PL_LOW else if i = 2 then PL_MEDIUM else PL_HIGH

/-- C cast `(SubjectToStatus)i` -/
def toStatus (i : Int) : SubjectToStatus :=
  if i = -1 then ST_LOWER else if i = 0 then ST_INACTIVE else if i = 1 then ST_UPPER
  else if i = 2 then ST_INFEASIBLE_LOWER else if i = 3 then ST_INFEASIBLE_UPPER else ST_UNDEFINED

/-- `qpOASES_Options_copy`, interfaces/c/qpOASES_wrapper.cpp:183-230 (both pointers non-null). -/
def copyTo (src : COptions K) (dst : Options K) : Options K :=
  { dst with
    printLevel := toPrintLevel src.printLevel
    enableRamping := toBool src.enableRamping
    enableFarBounds := toBool src.enableFarBounds
    enableFlippingBounds := toBool src.enableFlippingBounds
    enableRegularisation := toBool src.enableRegularisation
    enableFullLITests := toBool src.enableFullLITests
    enableNZCTests := toBool src.enableNZCTests
    enableDriftCorrection := src.enableDriftCorrection
    enableCholeskyRefactorisation := src.enableCholeskyRefactorisation
    enableEqualities := toBool src.enableEqualities
    terminationTolerance := src.terminationTolerance
    boundTolerance := src.boundTolerance
    boundRelaxation := src.boundRelaxation
    epsNum := src.epsNum
    epsDen := src.epsDen
    maxPrimalJump := src.maxPrimalJump
    maxDualJump := src.maxDualJump
    initialRamping := src.initialRamping
    finalRamping := src.finalRamping
    initialFarBounds := src.initialFarBounds
    growFarBounds := src.growFarBounds
    initialStatusBounds := toStatus src.initialStatusBounds
    epsFlipping := src.epsFlipping
    numRegularisationSteps := src.numRegularisationSteps
    epsRegularisation := src.epsRegularisation
    numRefinementSteps := src.numRefinementSteps
    epsIterRef := src.epsIterRef
    epsLITests := src.epsLITests
    epsNZCTests := src.epsNZCTests
    enableDropInfeasibles := toBool src.enableDropInfeasibles
    dropBoundPriority := src.dropBoundPriority
    dropEqConPriority := src.dropEqConPriority
    dropIneqConPriority := src.dropIneqConPriority }

end COptions
end QpOASES
