import Verif.Model.Constants

/-!
The message handler: src/MessageHandling.cpp, include/qpOASES/MessageHandling.ipp and `myPrintf` of
src/Utils.cpp.
-/
namespace QpOASES
open ReturnValue

/-- One row of `returnValueList`: key, text, `globalVisibilityStatus == VS_VISIBLE`
(include/qpOASES/MessageHandling.hpp `ReturnValueList`). -/
structure MsgEntry where
  key : ReturnValue
  data : String
  visible : Bool

/-- `returnValueList`, src/MessageHandling.cpp:59-223, all rows in order, including the terminating one. -/
def returnValueList : List MsgEntry := [
  ⟨SUCCESSFUL_RETURN, "Successful return", true⟩,
  ⟨RET_DIV_BY_ZERO, "Division by zero", true⟩,
  ⟨RET_INDEX_OUT_OF_BOUNDS, "Index out of bounds", true⟩,
  ⟨RET_INVALID_ARGUMENTS, "At least one of the arguments is invalid", true⟩,
  ⟨RET_ERROR_UNDEFINED, "Error number undefined", true⟩,
  ⟨RET_WARNING_UNDEFINED, "Warning number undefined", true⟩,
  ⟨RET_INFO_UNDEFINED, "Info number undefined", true⟩,
  ⟨RET_EWI_UNDEFINED, "Error/warning/info number undefined", true⟩,
  ⟨RET_AVAILABLE_WITH_LINUX_ONLY, "This function is available under Linux only", false⟩,
  ⟨RET_UNKNOWN_BUG, "The error occurred is not yet known", true⟩,
  ⟨RET_PRINTLEVEL_CHANGED, "Print level changed", true⟩,
  ⟨RET_NOT_YET_IMPLEMENTED, "Requested function is not yet implemented.", true⟩,
  ⟨RET_INDEXLIST_MUST_BE_REORDERD, "Index list has to be reordered", true⟩,
  ⟨RET_INDEXLIST_EXCEEDS_MAX_LENGTH, "Index list exceeds its maximal physical length", true⟩,
  ⟨RET_INDEXLIST_CORRUPTED, "Index list corrupted", true⟩,
  ⟨RET_INDEXLIST_OUTOFBOUNDS, "Physical index is out of bounds", true⟩,
  ⟨RET_INDEXLIST_ADD_FAILED, "Adding indices from another index set failed", true⟩,
  ⟨RET_INDEXLIST_INTERSECT_FAILED, "Intersection with another index set failed", true⟩,
  ⟨RET_INDEX_ALREADY_OF_DESIRED_STATUS, "Index is already of desired status", true⟩,
  ⟨RET_ADDINDEX_FAILED, "Adding index to index set failed", true⟩,
  ⟨RET_REMOVEINDEX_FAILED, "Removing index from index set failed", true⟩,
  ⟨RET_SWAPINDEX_FAILED, "Cannot swap between different indexsets", true⟩,
  ⟨RET_NOTHING_TO_DO, "Nothing to do", true⟩,
  ⟨RET_SETUP_BOUND_FAILED, "Setting up bound index failed", true⟩,
  ⟨RET_SETUP_CONSTRAINT_FAILED, "Setting up constraint index failed", true⟩,
  ⟨RET_MOVING_BOUND_FAILED, "Moving bound between index sets failed", true⟩,
  ⟨RET_MOVING_CONSTRAINT_FAILED, "Moving constraint between index sets failed", true⟩,
  ⟨RET_SHIFTING_FAILED, "Shifting of bounds/constraints failed", true⟩,
  ⟨RET_ROTATING_FAILED, "Rotating of bounds/constraints failed", true⟩,
  ⟨RET_QPOBJECT_NOT_SETUP, "The QP object has not been setup correctly, use another constructor", true⟩,
  ⟨RET_QP_ALREADY_INITIALISED, "QProblem has already been initialised", true⟩,
  ⟨RET_NO_INIT_WITH_STANDARD_SOLVER, "Initialisation via extern QP solver is not yet implemented", true⟩,
  ⟨RET_RESET_FAILED, "Reset failed", true⟩,
  ⟨RET_INIT_FAILED, "Initialisation failed", true⟩,
  ⟨RET_INIT_FAILED_TQ, "Initialisation failed due to TQ factorisation", true⟩,
  ⟨RET_INIT_FAILED_CHOLESKY, "Initialisation failed due to Cholesky decomposition", true⟩,
  ⟨RET_INIT_FAILED_HOTSTART, "Initialisation failed! QP could not be solved!", true⟩,
  ⟨RET_INIT_FAILED_INFEASIBILITY, "Initial QP could not be solved due to infeasibility!", true⟩,
  ⟨RET_INIT_FAILED_UNBOUNDEDNESS, "Initial QP could not be solved due to unboundedness!", true⟩,
  ⟨RET_INIT_FAILED_REGULARISATION, "Initialisation failed as Hessian matrix could not be regularised", true⟩,
  ⟨RET_INIT_SUCCESSFUL, "Initialisation done", true⟩,
  ⟨RET_OBTAINING_WORKINGSET_FAILED, "Failed to obtain working set for auxiliary QP", true⟩,
  ⟨RET_SETUP_WORKINGSET_FAILED, "Failed to setup working set for auxiliary QP", true⟩,
  ⟨RET_SETUP_AUXILIARYQP_FAILED, "Failed to setup auxiliary QP for initialised homotopy", true⟩,
  ⟨RET_NO_CHOLESKY_WITH_INITIAL_GUESS, "Externally computed Cholesky factor cannot be combined with an initial guess", true⟩,
  ⟨RET_NO_EXTERN_SOLVER, "No extern QP solver available", true⟩,
  ⟨RET_QP_UNBOUNDED, "QP is unbounded", true⟩,
  ⟨RET_QP_INFEASIBLE, "QP is infeasible", true⟩,
  ⟨RET_QP_NOT_SOLVED, "Problems occurred while solving QP with standard solver", true⟩,
  ⟨RET_QP_SOLVED, "QP successfully solved", true⟩,
  ⟨RET_UNABLE_TO_SOLVE_QP, "Problems occurred while solving QP", true⟩,
  ⟨RET_INITIALISATION_STARTED, "Starting problem initialisation...", true⟩,
  ⟨RET_HOTSTART_FAILED, "Unable to perform homotopy due to internal error", true⟩,
  ⟨RET_HOTSTART_FAILED_TO_INIT, "Unable to initialise problem", true⟩,
  ⟨RET_HOTSTART_FAILED_AS_QP_NOT_INITIALISED, "Unable to perform homotopy as previous QP is not solved", true⟩,
  ⟨RET_ITERATION_STARTED, "Iteration", true⟩,
  ⟨RET_SHIFT_DETERMINATION_FAILED, "Determination of shift of the QP data failed", true⟩,
  ⟨RET_STEPDIRECTION_DETERMINATION_FAILED, "Determination of step direction failed", true⟩,
  ⟨RET_STEPLENGTH_DETERMINATION_FAILED, "Determination of step direction failed", true⟩,
  ⟨RET_OPTIMAL_SOLUTION_FOUND, "Optimal solution of neighbouring QP found", true⟩,
  ⟨RET_HOMOTOPY_STEP_FAILED, "Unable to perform homotopy step", true⟩,
  ⟨RET_HOTSTART_STOPPED_INFEASIBILITY, "Premature homotopy termination because QP is infeasible", true⟩,
  ⟨RET_HOTSTART_STOPPED_UNBOUNDEDNESS, "Premature homotopy termination because QP is unbounded", true⟩,
  ⟨RET_WORKINGSET_UPDATE_FAILED, "Unable to update working sets according to initial guesses", true⟩,
  ⟨RET_MAX_NWSR_REACHED, "Maximum number of working set recalculations performed", true⟩,
  ⟨RET_CONSTRAINTS_NOT_SPECIFIED, "Problem does comprise constraints! You have to specify new constraints' bounds", true⟩,
  ⟨RET_INVALID_FACTORISATION_FLAG, "Invalid factorisation flag", true⟩,
  ⟨RET_UNABLE_TO_SAVE_QPDATA, "Unable to save QP data", true⟩,
  ⟨RET_STEPDIRECTION_FAILED_TQ, "Abnormal termination due to TQ factorisation", true⟩,
  ⟨RET_STEPDIRECTION_FAILED_CHOLESKY, "Abnormal termination due to Cholesky factorisation", true⟩,
  ⟨RET_CYCLING_DETECTED, "Cycling detected", true⟩,
  ⟨RET_CYCLING_NOT_RESOLVED, "Cycling cannot be resolved, QP is probably infeasible", true⟩,
  ⟨RET_CYCLING_RESOLVED, "Cycling probably resolved", true⟩,
  ⟨RET_STEPSIZE, "", true⟩,
  ⟨RET_STEPSIZE_NONPOSITIVE, "", true⟩,
  ⟨RET_SETUPSUBJECTTOTYPE_FAILED, "Setup of SubjectToTypes failed", true⟩,
  ⟨RET_ADDCONSTRAINT_FAILED, "Addition of constraint to working set failed", true⟩,
  ⟨RET_ADDCONSTRAINT_FAILED_INFEASIBILITY, "Addition of constraint to working set failed", true⟩,
  ⟨RET_ADDBOUND_FAILED, "Addition of bound to working set failed", true⟩,
  ⟨RET_ADDBOUND_FAILED_INFEASIBILITY, "Addition of bound to working set failed", true⟩,
  ⟨RET_REMOVECONSTRAINT_FAILED, "Removal of constraint from working set failed", true⟩,
  ⟨RET_REMOVEBOUND_FAILED, "Removal of bound from working set failed", true⟩,
  ⟨RET_REMOVE_FROM_ACTIVESET, "Removing from active set:", true⟩,
  ⟨RET_ADD_TO_ACTIVESET, "Adding to active set:", true⟩,
  ⟨RET_REMOVE_FROM_ACTIVESET_FAILED, "Removing from active set failed", true⟩,
  ⟨RET_ADD_TO_ACTIVESET_FAILED, "Adding to active set failed", true⟩,
  ⟨RET_CONSTRAINT_ALREADY_ACTIVE, "Constraint is already active", true⟩,
  ⟨RET_ALL_CONSTRAINTS_ACTIVE, "All constraints are active, no further constraint can be added", true⟩,
  ⟨RET_LINEARLY_DEPENDENT, "New bound/constraint is linearly dependent", true⟩,
  ⟨RET_LINEARLY_INDEPENDENT, "New bound/constraint is linearly independent", true⟩,
  ⟨RET_LI_RESOLVED, "Linear independence of active constraint matrix successfully resolved", true⟩,
  ⟨RET_ENSURELI_FAILED, "Failed to ensure linear independence of active constraint matrix", true⟩,
  ⟨RET_ENSURELI_FAILED_TQ, "Abnormal termination due to TQ factorisation", true⟩,
  ⟨RET_ENSURELI_FAILED_NOINDEX, "QP is infeasible", true⟩,
  ⟨RET_ENSURELI_FAILED_CYCLING, "QP is infeasible", true⟩,
  ⟨RET_BOUND_ALREADY_ACTIVE, "Bound is already active", true⟩,
  ⟨RET_ALL_BOUNDS_ACTIVE, "All bounds are active, no further bound can be added", true⟩,
  ⟨RET_CONSTRAINT_NOT_ACTIVE, "Constraint is not active", true⟩,
  ⟨RET_BOUND_NOT_ACTIVE, "Bound is not active", true⟩,
  ⟨RET_HESSIAN_NOT_SPD, "Projected Hessian matrix not positive definite", true⟩,
  ⟨RET_HESSIAN_INDEFINITE, "Hessian matrix is indefinite", true⟩,
  ⟨RET_MATRIX_SHIFT_FAILED, "Unable to update matrices or to transform vectors", true⟩,
  ⟨RET_MATRIX_FACTORISATION_FAILED, "Unable to calculate new matrix factorisations", true⟩,
  ⟨RET_PRINT_ITERATION_FAILED, "Unable to print information on current iteration", true⟩,
  ⟨RET_NO_GLOBAL_MESSAGE_OUTPUTFILE, "No global message output file initialised", true⟩,
  ⟨RET_DISABLECONSTRAINTS_FAILED, "Unable to disable constraints", true⟩,
  ⟨RET_ENABLECONSTRAINTS_FAILED, "Unable to enable constraints", true⟩,
  ⟨RET_ALREADY_ENABLED, "Bound or constraint is already enabled", true⟩,
  ⟨RET_ALREADY_DISABLED, "Bound or constraint is already disabled", true⟩,
  ⟨RET_NO_HESSIAN_SPECIFIED, "No Hessian matrix has been specified", true⟩,
  ⟨RET_USING_REGULARISATION, "Using regularisation as Hessian matrix is not positive definite", true⟩,
  ⟨RET_EPS_MUST_BE_POSITVE, "Eps for regularisation must be sufficiently positive", true⟩,
  ⟨RET_REGSTEPS_MUST_BE_POSITVE, "Maximum number of regularisation steps must be non-negative", true⟩,
  ⟨RET_HESSIAN_ALREADY_REGULARISED, "Hessian has been already regularised", true⟩,
  ⟨RET_CANNOT_REGULARISE_IDENTITY, "Identity Hessian matrix cannot be regularised", true⟩,
  ⟨RET_CANNOT_REGULARISE_SPARSE, "Sparse matrix cannot be regularised as diagonal entry is missing", true⟩,
  ⟨RET_NO_REGSTEP_NWSR, "No additional regularisation step could be performed due to limits", true⟩,
  ⟨RET_FEWER_REGSTEPS_NWSR, "Fewer additional regularisation steps have been performed due to limits", true⟩,
  ⟨RET_CHOLESKY_OF_ZERO_HESSIAN, "Cholesky decomposition of (unregularised) zero Hessian matrix", true⟩,
  ⟨RET_ZERO_HESSIAN_ASSUMED, "Zero Hessian matrix assumed as null pointer passed without specifying hessianType", true⟩,
  ⟨RET_CONSTRAINTS_ARE_NOT_SCALED, "(should not be thrown, no longer in use)", true⟩,
  ⟨RET_INITIAL_BOUNDS_STATUS_NYI, "(should not be thrown, no longer in use)", true⟩,
  ⟨RET_ERROR_IN_CONSTRAINTPRODUCT, "Error in user-defined constraint product function", true⟩,
  ⟨RET_FIX_BOUNDS_FOR_LP, "All initial bounds must be fixed when solving an (unregularised) LP", true⟩,
  ⟨RET_USE_REGULARISATION_FOR_LP, "Set options.enableRegularisation=BT_TRUE for solving LPs", true⟩,
  ⟨RET_UPDATEMATRICES_FAILED, "Unable to update QP matrices", true⟩,
  ⟨RET_UPDATEMATRICES_FAILED_AS_QP_NOT_SOLVED, "Unable to update matrices as previous QP is not solved", true⟩,
  ⟨RET_UNABLE_TO_OPEN_FILE, "Unable to open file", true⟩,
  ⟨RET_UNABLE_TO_WRITE_FILE, "Unable to write into file", true⟩,
  ⟨RET_UNABLE_TO_READ_FILE, "Unable to read from file", true⟩,
  ⟨RET_FILEDATA_INCONSISTENT, "File contains inconsistent data", true⟩,
  ⟨RET_OPTIONS_ADJUSTED, "Options needed to be adjusted for consistency reasons", true⟩,
  ⟨RET_UNABLE_TO_ANALYSE_QPROBLEM, "Unable to analyse (S)QProblem(B) object", true⟩,
  ⟨RET_NWSR_SET_TO_ONE, "Maximum number of working set changes was set to 1", true⟩,
  ⟨RET_UNABLE_TO_READ_BENCHMARK, "Unable to read benchmark data", true⟩,
  ⟨RET_BENCHMARK_ABORTED, "Benchmark aborted", true⟩,
  ⟨RET_INITIAL_QP_SOLVED, "Initial QP solved", true⟩,
  ⟨RET_QP_SOLUTION_STARTED, "Solving QP no.", true⟩,
  ⟨RET_BENCHMARK_SUCCESSFUL, "Benchmark terminated successfully", true⟩,
  ⟨RET_NO_DIAGONAL_AVAILABLE, "Sparse matrix does not have entries on full diagonal", true⟩,
  ⟨RET_DIAGONAL_NOT_INITIALISED, "Diagonal data of sparse matrix has not been initialised", true⟩,
  ⟨RET_ENSURELI_DROPPED, "Linear independence resolved by dropping blocking constraint", true⟩,
  ⟨RET_KKT_MATRIX_SINGULAR, "KKT matrix is singular", true⟩,
  ⟨RET_QR_FACTORISATION_FAILED, "QR factorization of Schur complement failed", true⟩,
  ⟨RET_INERTIA_CORRECTION_FAILED, "Inertia correction of KKT matrix failed", true⟩,
  ⟨RET_NO_SPARSE_SOLVER, "No Sparse Solver installed", true⟩,
  ⟨RET_SIMPLE_STATUS_P1, "QP problem could not be solved within given number of iterations", true⟩,
  ⟨RET_SIMPLE_STATUS_P0, "QP problem solved", true⟩,
  ⟨RET_SIMPLE_STATUS_M1, "QP problem could not be solved due to an internal error", true⟩,
  ⟨RET_SIMPLE_STATUS_M2, "QP problem is infeasible (and thus could not be solved)", true⟩,
  ⟨RET_SIMPLE_STATUS_M3, "QP problem is unbounded (and thus could not be solved)", true⟩,
  ⟨TERMINAL_LIST_ELEMENT, "", false⟩]

/-- Search loop of `throwMessage` and `getErrorCodeMessage`: src/MessageHandling.cpp:492-498, 578-584.
`none` is the case that the loop stops at the terminating row (or, for a list without one, runs off). -/
def lookup (r : ReturnValue) : List MsgEntry → Option MsgEntry
  | [] => none
  | e :: es =>
    if e.key = TERMINAL_LIST_ELEMENT then none
    else if e.key = r then some e else lookup r es

/-- Severity, the `RETstring` argument of `throwMessage`. -/
inductive Severity where
  | ERROR | WARNING | INFO
  deriving DecidableEq, Repr

/-- A piece of output: a bare newline, the indentation prefix `"   ->"` with its number of blanks, or the
message line of a code (with the optional additional text). -/
inductive Output where
  | newline
  | indent (blanks : Int)
  | message (sev : Severity) (text : String) (extra : Option String)
  deriving DecidableEq, Repr

/-- A `MessageHandling` object (include/qpOASES/MessageHandling.hpp, data members).  Visibilities are
Booleans (`true` = `VS_VISIBLE`); `hasFile` says whether `outputFile` is non-null; `out` is what has been
printed so far.  It is assumed to be the global handler, which `myPrintf` uses. -/
structure Handler where
  errorVis : Bool
  warningVis : Bool
  infoVis : Bool
  hasFile : Bool
  errorCount : Int
  out : List Output
  deriving DecidableEq, Repr

namespace Handler

/-- `numberOfWhitespaces`, src/MessageHandling.cpp:477-486 (`MAX_STRING_LENGTH` is 160) -/
def blanks (h : Handler) : Int :=
  let n := (h.errorCount - 1) * 2
  let n := if n < 0 then 0 else n
  let n := if n > 40 then 40 else n
  if n ≥ 160 then 159 else n

/-- A printing routine (`myPrintf`). -/
abbrev Printer := Handler → Output → Res Handler

/-- Printing part of `throwMessage`, src/MessageHandling.cpp:507-559 (without `__DEBUG__`). -/
def printMessage (pr : Printer) (h : Handler) (e : MsgEntry) (extra : Option String) (sev : Severity) :
    Res Handler := do
  let b := h.blanks
  let h ← if h.errorCount < 0 then do
      let h ← pr h .newline
      pure { h with errorCount := 0 }
    else pure h
  let h ← if h.errorCount > 0 then pr h (.indent b) else pure h
  let h ← pr h (.message sev e.data extra)
  if sev = .ERROR then pure { h with errorCount := h.errorCount + 1 }
  else do
    let h ← if h.errorCount > 0 then pr h .newline else pure h
    pure { h with errorCount := 0 }

/-- Found case of `throwMessage`, src/MessageHandling.cpp:506-563. -/
def throwFound (pr : Printer) (h : Handler) (e : MsgEntry) (r : ReturnValue) (extra : Option String)
    (locVis : Bool) (sev : Severity) : Res (ReturnValue × Handler) := do
  let h ← if e.visible && locVis then printMessage pr h e extra sev else pure h
  pure (r, h)

/-- `throwMessage`, src/MessageHandling.cpp:461-564.  In the not-found case it calls
`throwError(RET_EWI_UNDEFINED)`, which is inlined here: its argument is a positive code, and if that is
not in the list either, the C++ code recurses for ever. -/
def throwMessage (pr : Printer) (h : Handler) (r : ReturnValue) (extra : Option String) (locVis : Bool)
    (sev : Severity) : Res (ReturnValue × Handler) :=
  match lookup r returnValueList with
  | some e => throwFound pr h e r extra locVis sev
  | none =>
    if h.errorVis then
      match lookup RET_EWI_UNDEFINED returnValueList with
      | some e => do
        let (_, h) ← throwFound pr h e RET_EWI_UNDEFINED none true .ERROR
        pure (r, h)
      | none => .ub .diverge
    else pure (r, h)

/-- `throwError` for a code that passes the consistency check, src/MessageHandling.cpp:359-363 -/
def throwErrorChecked (pr : Printer) (h : Handler) (r : ReturnValue) (extra : Option String)
    (locVis : Bool) : Res (ReturnValue × Handler) :=
  if h.errorVis then throwMessage pr h r extra locVis .ERROR else pure (r, h)

/-- `throwError`, src/MessageHandling.cpp:347-364 -/
def throwErrorWith (pr : Printer) (h : Handler) (r : ReturnValue) (extra : Option String)
    (locVis : Bool) : Res (ReturnValue × Handler) :=
  if r.code ≤ SUCCESSFUL_RETURN.code then throwErrorChecked pr h RET_ERROR_UNDEFINED none true
  else throwErrorChecked pr h r extra locVis

/-- `myPrintf`, src/Utils.cpp:225-249: without output file it throws an error, which prints again.
The recursion depth is bounded by `fuel`. -/
def print : Nat → Printer
  | 0 => fun _ _ => .ub .diverge
  | fuel+1 => fun h o =>
    if h.hasFile then .ok { h with out := h.out ++ [o] }
    else do
      let (_, h) ← throwErrorWith (print fuel) h RET_NO_GLOBAL_MESSAGE_OUTPUTFILE none true
      pure h

/-- `throwError`, src/MessageHandling.cpp:347-364, with recursion depth bounded by `fuel` -/
def errorMsg (fuel : Nat) (h : Handler) (r : ReturnValue) (extra : Option String) (locVis : Bool) :
    Res (ReturnValue × Handler) :=
  throwErrorWith (print fuel) h r extra locVis

/-- `throwWarning`, src/MessageHandling.cpp:370-387 -/
def warningMsg (fuel : Nat) (h : Handler) (r : ReturnValue) (extra : Option String) (locVis : Bool) :
    Res (ReturnValue × Handler) :=
  if r.code ≤ SUCCESSFUL_RETURN.code then errorMsg fuel h RET_WARNING_UNDEFINED none true
  else if h.warningVis then throwMessage (print fuel) h r extra locVis .WARNING
  else pure (r, h)

/-- `throwInfo`, src/MessageHandling.cpp:393-410 -/
def infoMsg (fuel : Nat) (h : Handler) (r : ReturnValue) (extra : Option String) (locVis : Bool) :
    Res (ReturnValue × Handler) :=
  if r.code < SUCCESSFUL_RETURN.code then errorMsg fuel h RET_INFO_UNDEFINED none true
  else if h.infoVis then throwMessage (print fuel) h r extra locVis .INFO
  else pure (r, h)

/-- `setErrorVisibilityStatus`, include/qpOASES/MessageHandling.ipp:88-94 -/
def setErrorVis (h : Handler) (b : Bool) : Handler := { h with errorVis := b }
/-- `setWarningVisibilityStatus`, include/qpOASES/MessageHandling.ipp:97-103 -/
def setWarningVis (h : Handler) (b : Bool) : Handler := { h with warningVis := b }
/-- `setInfoVisibilityStatus`, include/qpOASES/MessageHandling.ipp:106-112 -/
def setInfoVis (h : Handler) (b : Bool) : Handler := { h with infoVis := b }
/-- `setOutputFile`, include/qpOASES/MessageHandling.ipp:115-121 (`b` = the new file is non-null) -/
def setOutputFile (h : Handler) (b : Bool) : Handler := { h with hasFile := b }
/-- `setErrorCount`, include/qpOASES/MessageHandling.ipp:124-136 -/
def setErrorCount (h : Handler) (c : Int) : ReturnValue × Handler :=
  if c ≥ -1 then (SUCCESSFUL_RETURN, { h with errorCount := c }) else (RET_INVALID_ARGUMENTS, h)

/-- `reset`, src/MessageHandling.cpp:416-426 (`stdFile` is `stdout`, non-null) -/
def reset (h : Handler) : Handler :=
  ((((h.setErrorVis true).setWarningVis false).setInfoVis false).setOutputFile true).setErrorCount 0 |>.2

end Handler

/-- `getErrorCodeMessage`, src/MessageHandling.cpp:570-598 (no `data` of the list is null) -/
def getErrorCodeMessage (r : ReturnValue) : String :=
  match lookup r returnValueList with
  | some e => e.data
  | none => "Unknown error code"

/-- Simple status of a return value: the `switch` of src/Utils.cpp:919-942 -/
def simpleStatus : ReturnValue → Int
  | SUCCESSFUL_RETURN => 0
  | RET_MAX_NWSR_REACHED => 1
  | RET_INIT_FAILED_INFEASIBILITY => -2
  | RET_HOTSTART_STOPPED_INFEASIBILITY => -2
  | RET_INIT_FAILED_UNBOUNDEDNESS => -3
  | RET_HOTSTART_STOPPED_UNBOUNDEDNESS => -3
  | _ => -1

/-- The cast `(returnValue) n` for the five codes RET_SIMPLE_STATUS_P1 .. RET_SIMPLE_STATUS_M3
(include/qpOASES/MessageHandling.hpp:226-230); other arguments do not occur. -/
def simpleStatusCode (n : Int) : ReturnValue :=
  if n = RET_SIMPLE_STATUS_P1.code then RET_SIMPLE_STATUS_P1
  else if n = RET_SIMPLE_STATUS_P0.code then RET_SIMPLE_STATUS_P0
  else if n = RET_SIMPLE_STATUS_M1.code then RET_SIMPLE_STATUS_M1
  else if n = RET_SIMPLE_STATUS_M2.code then RET_SIMPLE_STATUS_M2
  else if n = RET_SIMPLE_STATUS_M3.code then RET_SIMPLE_STATUS_M3
  else TERMINAL_LIST_ELEMENT

/-- `getSimpleStatus`, src/Utils.cpp:912-957.  `THROWINFO(x)` is `throwInfo` with no additional text and
local visibility `VS_VISIBLE` (include/qpOASES/MessageHandling.hpp). -/
def getSimpleStatus (fuel : Nat) (h : Handler) (r : ReturnValue) (doPrint : Bool) : Res (Int × Handler) :=
  if doPrint then do
    let vs := h.infoVis
    let h := h.setInfoVis true
    let h := (h.setErrorCount (-1)).2
    let (_, h) ← h.infoMsg fuel (simpleStatusCode (RET_SIMPLE_STATUS_P0.code - simpleStatus r)) none true
    pure (simpleStatus r, h.setInfoVis vs)
  else pure (simpleStatus r, h)

end QpOASES
