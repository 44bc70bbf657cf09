import Verif.Model.Options

/-! Specification for options. -/
namespace QpOASES.Spec
variable {K : Type} [Field K] [LinearOrder K]

/-- The documented ranges of all options that have one. -/
structure ValidOptions (o : Options K) : Prop where
  enableDriftCorrection : 0 ≤ o.enableDriftCorrection
  enableCholeskyRefactorisation : 0 ≤ o.enableCholeskyRefactorisation
  terminationTolerance : 0 < o.terminationTolerance
  boundTolerance : 0 < o.boundTolerance
  boundRelaxation : 0 < o.boundRelaxation
  maxPrimalJump : 0 < o.maxPrimalJump
  maxDualJump : 0 < o.maxDualJump
  initialRamping : 0 ≤ o.initialRamping
  finalRamping : 0 ≤ o.finalRamping
  initialFarBounds : o.boundRelaxation < o.initialFarBounds
  growFarBounds : 11 / 10 ≤ o.growFarBounds
  epsFlipping : 0 < o.epsFlipping
  numRegularisationSteps : 0 ≤ o.numRegularisationSteps
  epsRegularisation : 0 < o.epsRegularisation
  numRefinementSteps : 0 ≤ o.numRefinementSteps
  epsIterRef : 0 < o.epsIterRef
  epsLITests : 0 ≤ o.epsLITests
  epsNZCTests : 0 ≤ o.epsNZCTests

/-- The C struct carrying the settings of a C++ options object: enumerators and booleans as their integer
codes.  (The C struct has no counterparts of `rcondSMin` and `enableInertiaCorrection`.) -/
def toC (o : Options K) : COptions K where
  printLevel := o.printLevel.code
  enableRamping := boolCode o.enableRamping
  enableFarBounds := boolCode o.enableFarBounds
  enableFlippingBounds := boolCode o.enableFlippingBounds
  enableRegularisation := boolCode o.enableRegularisation
  enableFullLITests := boolCode o.enableFullLITests
  enableNZCTests := boolCode o.enableNZCTests
  enableDriftCorrection := o.enableDriftCorrection
  enableCholeskyRefactorisation := o.enableCholeskyRefactorisation
  enableEqualities := boolCode o.enableEqualities
  terminationTolerance := o.terminationTolerance
  boundTolerance := o.boundTolerance
  boundRelaxation := o.boundRelaxation
  epsNum := o.epsNum
  epsDen := o.epsDen
  maxPrimalJump := o.maxPrimalJump
  maxDualJump := o.maxDualJump
  initialRamping := o.initialRamping
  finalRamping := o.finalRamping
  initialFarBounds := o.initialFarBounds
  growFarBounds := o.growFarBounds
  initialStatusBounds := o.initialStatusBounds.code
  epsFlipping := o.epsFlipping
  numRegularisationSteps := o.numRegularisationSteps
  epsRegularisation := o.epsRegularisation
  numRefinementSteps := o.numRefinementSteps
  epsIterRef := o.epsIterRef
  epsLITests := o.epsLITests
  epsNZCTests := o.epsNZCTests
  enableDropInfeasibles := boolCode o.enableDropInfeasibles
  dropBoundPriority := o.dropBoundPriority
  dropEqConPriority := o.dropEqConPriority
  dropIneqConPriority := o.dropIneqConPriority

end QpOASES.Spec
