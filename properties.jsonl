{"id": "C01", "title": "Index lists behave as sequences of distinct numbers", "statement": "An index list that is only given numbers it does not yet contain, is only asked to remove numbers, and is only asked to swap numbers it contains, behaves exactly like a plain sequence: addNumber appends, removeNumber deletes the number and closes the gap, swapNumbers exchanges two positions, getNumber(i) returns the i-th entry, getLength the number of entries, and getIndex the position of a number.", "quantifier": "every capacity, every initial content and every finite history of add/remove/swap calls, of any length", "why_tests_cant": "The list keeps a second sort-permutation array that must stay in step with the numbers after every shift; a bug shows only for particular orders of insertions and removals, and the histories are unbounded.", "anchors": ["src/Indexlist.cpp: Indexlist::addNumber, removeNumber, swapNumbers, getIndex, findInsert", "include/qpOASES/Indexlist.ipp: getNumber, getLength, isMember"]}
{"id": "C02", "title": "Membership queries are answered for every number", "statement": "Asking an index list whether a number is a member, for its position, or to remove it, is well defined for every integer: the answer is positive exactly when the number is contained, and asking never reads outside the list's storage.", "quantifier": "every list reachable by any history and every queried integer, including numbers smaller than all stored ones and queries on the empty list", "why_tests_cant": "Whether the out-of-range read happens depends on the relation of the queried number to the minimum of the stored ones; when it happens the observed result depends on adjacent memory, so a test can pass by luck.", "anchors": ["src/Indexlist.cpp: Indexlist::getIndex, removeNumber, swapNumbers, findInsert", "include/qpOASES/Indexlist.ipp: isMember"]}
{"id": "C03", "title": "Index list capacity is respected and failed insertions change nothing", "statement": "An index list never holds more numbers than the capacity it was initialised with; inserting into a full list returns RET_INDEXLIST_EXCEEDS_MAX_LENGTH and leaves the contents unchanged; initialising with a negative capacity is rejected and leaves the list unchanged.", "quantifier": "every capacity and every history of operations", "why_tests_cant": "Requires all histories that fill the list, for all capacities.", "anchors": ["src/Indexlist.cpp: Indexlist::init, addNumber"]}
{"id": "C04", "title": "Reading an index list outside its contents is reported", "statement": "getNumber(i) returns the error value exactly for those i that are not positions of stored entries (i<0 or i>=getLength), for every i.", "quantifier": "every list content and every integer position", "why_tests_cant": "The single failing position is the current length; the value read there is whatever the storage holds, so most assertions on it pass.", "anchors": ["include/qpOASES/Indexlist.ipp: Indexlist::getNumber", "src/Indexlist.cpp: getNumber doc"]}
{"id": "C05", "title": "Bounds: free and fixed variables partition the variables", "statement": "After any history of correctly used working-set operations on a Bounds object, every variable is listed exactly once, either as free (status inactive) or as fixed (status lower/upper), the reported status agrees with the list it is in, and getNFR()+getNFX()=getNV().", "quantifier": "every number of variables and every finite history of setup, move-to-free, move-to-fixed, flip, swap, rotate and shift calls that respect the documented preconditions", "why_tests_cant": "The solver's linear algebra indexes its factors by these lists; consistency has to hold in every reachable working set, of which there are exponentially many.", "anchors": ["src/Bounds.cpp: setupBound, moveFixedToFree, moveFreeToFixed, flipFixed, swapFree, setupAll, rotate, shift", "src/SubjectTo.cpp: addIndex, removeIndex, swapIndex"]}
{"id": "C06", "title": "Constraints: active and inactive constraints partition the constraints", "statement": "After any history of correctly used working-set operations on a Constraints object, every constraint is listed exactly once, either as inactive or as active (lower/upper), the reported status agrees with the list it is in, and getNAC()+getNIAC()=getNC().", "quantifier": "every number of constraints and every finite history of setup, move, flip, rotate and shift calls that respect the documented preconditions", "why_tests_cant": "Same as for bounds: exponentially many working sets, unbounded histories.", "anchors": ["src/Constraints.cpp: setupConstraint, moveActiveToInactive, moveInactiveToActive, flipFixed, setupAll, rotate, shift", "src/SubjectTo.cpp"]}
{"id": "C07", "title": "Misused working-set moves are rejected without damage", "statement": "A request to move a variable that is not in the source set (for example freeing a variable that is already free) is rejected with an error and leaves the working set unchanged; after any history including such misuses no index occurs twice.", "quantifier": "every working set and every move request, valid or not", "why_tests_cant": "Needs all pairs of working set and request; the damage (duplicated index) only becomes visible in later operations.", "anchors": ["src/Bounds.cpp: moveFixedToFree, moveFreeToFixed", "src/SubjectTo.cpp: addIndex, removeIndex"]}
{"id": "C08", "title": "Initialising all variables at one status", "statement": "setupAllFree / setupAllLower / setupAllUpper (and the constraint counterparts) put every index into the corresponding list exactly once with the corresponding status, ordered with unbounded ones first, then bounded, then equalities, then the rest, and within each group in increasing order.", "quantifier": "every dimension and every assignment of types", "why_tests_cant": "All type assignments of all dimensions (exponentially many).", "anchors": ["src/Bounds.cpp: setupAllFree, setupAllLower, setupAllUpper, setupAll", "src/Constraints.cpp: setupAllInactive, setupAllLower, setupAllUpper, setupAll"]}
{"id": "C09", "title": "Rotating and shifting a working set", "statement": "rotate(k) moves the type and status of index (i+k) mod n to index i for every i, rotating by k and then by n-k restores all types and statuses, shift(k) moves the type and status of index i+k to index i and leaves the last k entries unchanged; invalid offsets are rejected without any change; after success the index lists are again a partition in increasing order.", "quantifier": "every dimension, every offset and every working set", "why_tests_cant": "All dimensions, offsets and working sets.", "anchors": ["src/Bounds.cpp: shift, rotate", "src/Constraints.cpp: shift, rotate"]}
{"id": "C10", "title": "Flipping an active bound", "statement": "Flipping an active bound or constraint turns lower into upper and upper into lower and changes nothing else, so flipping twice restores the working set; flipping an inactive one is rejected without effect.", "quantifier": "every working set and every index", "why_tests_cant": "All working sets and indices.", "anchors": ["src/Bounds.cpp: flipFixed", "src/Constraints.cpp: flipFixed"]}
{"id": "C11", "title": "Option validation establishes consistent options", "statement": "After setOptions every option satisfies its documented range (positive tolerances, nonnegative counters, far bounds larger than the bound relaxation, growth factor at least 1.1, nonnegative ramping values); validation changes only values that are out of range, reports RET_OPTIONS_ADJUSTED exactly when it changed something, and validating twice is the same as validating once.", "quantifier": "every assignment of values to all option fields", "why_tests_cant": "About twenty real-valued fields; the interaction of adjusted boundRelaxation with initialFarBounds must be right for all values.", "anchors": ["src/Options.cpp: Options::ensureConsistency", "include/qpOASES/QProblemB.ipp: setOptions"]}
{"id": "C12", "title": "Option presets are valid, and the C interface's presets are the C++ presets", "statement": "Each preset (default, reliable, MPC, fast) passes validation unchanged, and qpOASES_Options_init with mode 0/1/2 yields the same settings as setToDefault/setToReliable/setToMPC.", "quantifier": "every field of every preset", "why_tests_cant": "A preset is a table of thirty values per mode in two languages; a switch fall-through silently turns one preset into another and no functional test notices because every preset solves ordinary QPs.", "anchors": ["src/Options.cpp: setToDefault, setToReliable, setToMPC, setToFast", "interfaces/c/qpOASES_wrapper.cpp: qpOASES_Options_init"]}
{"id": "C13", "title": "Copying options preserves every setting", "statement": "Copying or assigning an Options object yields an object whose every setting equals the original's; handing options through the C interface preserves every setting the C struct carries.", "quantifier": "every options value", "why_tests_cant": "Thirty-odd independent fields of unbounded range; a forgotten field is only seen by a test that varies it.", "anchors": ["src/Options.cpp: Options::copy, operator=", "interfaces/c/qpOASES_wrapper.cpp: qpOASES_Options_copy"]}
{"id": "C14", "title": "Dense matrix products", "statement": "Multiplying a dense matrix (or its transpose, or a submatrix selected by row/column index lists, with compressed or uncompressed result) with a block of vectors computes alpha*A*X+beta*Y (resp. alpha*A'*X+beta*Y) on exactly the selected entries and leaves all other entries of Y unchanged.", "quantifier": "every matrix size, leading dimension, index lists, number of vectors, alpha, beta and data", "why_tests_cant": "The code has separate branches for alpha in {1,-1,other} and beta in {0,1,-1,other} times index-list and compression options; only exhaustive reasoning covers all combinations for all sizes.", "anchors": ["src/Matrices.cpp: DenseMatrix::times, DenseMatrix::transTimes", "src/BLASReplacement.cpp: dgemm_, sgemm_"]}
{"id": "C15", "title": "Built-in BLAS matrix multiplication", "statement": "The bundled GEMM computes C := alpha*op(A)*B+beta*C for op(A)=A or A' on column-major arrays with leading dimensions, touching exactly the M-by-N result block.", "quantifier": "all sizes, leading dimensions, alpha, beta and data", "why_tests_cant": "Nine coefficient branches times all sizes.", "anchors": ["src/BLASReplacement.cpp: dgemm_, sgemm_"]}
{"id": "C16", "title": "Sparse matrices represent the dense matrix they were built from", "statement": "Constructing a compressed-column or compressed-row matrix from a dense array and expanding it with full() returns the original matrix, for every matrix; the stored structure is well formed (monotone pointers, strictly increasing in-range indices).", "quantifier": "every matrix size and every pattern of zeros", "why_tests_cant": "All sizes and sparsity patterns, including empty rows/columns and zero diagonals.", "anchors": ["src/Matrices.cpp: SparseMatrix::SparseMatrix(nr,nc,ld,v), SparseMatrix::full, SparseMatrixRow::SparseMatrixRow(nr,nc,ld,v), SparseMatrixRow::full"]}
{"id": "C17", "title": "Sparse matrix products agree with dense products", "statement": "For a well-formed sparse matrix, times and transTimes compute the same result as the represented dense matrix would, with and without index lists.", "quantifier": "every sparsity structure, index lists, alpha, beta, number of vectors and data", "why_tests_cant": "All structures, all branch combinations; the merge of index list and column entries has many boundary cases.", "anchors": ["src/Matrices.cpp: SparseMatrix::times, SparseMatrix::transTimes, SparseMatrixRow::times, SparseMatrixRow::transTimes"]}
{"id": "C18", "title": "Row, column and diagonal access is independent of the storage format", "statement": "getRow, getCol, diag and isDiag return the entries of the represented matrix for dense, compressed-column and compressed-row storage alike, restricted to the selected indices and scaled by alpha.", "quantifier": "every matrix, storage format, row/column number, index list and scaling factor", "why_tests_cant": "All formats, positions and index lists; one format/argument combination dereferences a null pointer.", "anchors": ["src/Matrices.cpp: getRow, getCol, diag, isDiag of DenseMatrix, SparseMatrix, SparseMatrixRow"]}
{"id": "C19", "title": "Adding to the diagonal", "statement": "addToDiag(alpha) on a square matrix adds alpha to every diagonal entry and changes no other entry; if it reports an error the matrix is unchanged.", "quantifier": "every matrix in every storage format and every alpha", "why_tests_cant": "The sparse variants use a precomputed diagonal index that, for a column without a diagonal entry, points into the next column; only particular structures expose it.", "anchors": ["src/Matrices.cpp: DenseMatrix::addToDiag, SparseMatrix::addToDiag, SparseMatrixRow::addToDiag, createDiagInfo"]}
{"id": "C20", "title": "Quadratic forms", "statement": "The bilinear product of a symmetric matrix returns X'*H*X over the selected rows, exactly, in dense and sparse storage.", "quantifier": "every symmetric matrix, index list, number of vectors and data", "why_tests_cant": "All sizes and index lists.", "anchors": ["src/Matrices.cpp: SymDenseMat::bilinear, SymSparseMat::bilinear"]}
{"id": "C21", "title": "Duplicating a matrix yields an equal independent matrix", "statement": "duplicate() returns a matrix representing the same dense matrix, reading only memory that belongs to the original.", "quantifier": "every matrix in every storage format", "why_tests_cant": "The defect (swapped loop bounds) reads past the end only if the number of nonzeros and the dimensions differ in a particular way.", "anchors": ["src/Matrices.cpp: DenseMatrix::duplicate, SparseMatrix::duplicate, SparseMatrixRow::duplicate"]}
{"id": "C22", "title": "Row norms", "statement": "getRowNorm returns for every row the requested norm of that row, in every storage format; an all-zero row is reported as zero and only such a row is.", "quantifier": "every matrix, storage format and norm type", "why_tests_cant": "All matrices; the result decides which constraints are silently disabled.", "anchors": ["src/Matrices.cpp: getRowNorm of DenseMatrix, SparseMatrix, SparseMatrixRow", "include/qpOASES/QProblem.ipp: setA"]}
{"id": "C23", "title": "Built-in Cholesky factorisation", "statement": "The bundled Cholesky routine succeeds exactly when all leading minors are positive and then returns the upper triangular R with positive diagonal and R'R equal to the input matrix; otherwise it reports the 1-based index of the failing pivot.", "quantifier": "every order, leading dimension and symmetric matrix (in exact arithmetic)", "why_tests_cant": "All matrices of all orders.", "anchors": ["src/LAPACKReplacement.cpp: dpotrf_, spotrf_"]}
{"id": "C24", "title": "Triangular solves with the Cholesky factor", "statement": "If solving with R (or its transpose) succeeds, the returned vector solves the triangular system exactly; it fails only if a diagonal entry is negligibly small relative to its right-hand side.", "quantifier": "every order, every upper-triangular matrix and right-hand side (in exact arithmetic)", "why_tests_cant": "All orders and data.", "anchors": ["src/QProblemB.cpp: backsolveR"]}
{"id": "C25", "title": "Triangular solves with the constraint factor", "statement": "If solving with the reverse-triangular factor T (or its transpose) succeeds, the returned vector solves the system exactly; it fails only if an anti-diagonal entry is at most EPS in magnitude.", "quantifier": "every order, every reverse-triangular matrix and right-hand side (in exact arithmetic)", "why_tests_cant": "All orders and data; index arithmetic from the back.", "anchors": ["src/QProblem.cpp: backsolveT"]}
{"id": "C26", "title": "Plane rotations preserve the factorisations", "statement": "The rotation computed for a pair maps it to (r,0) up to sign with r^2=x^2+y^2, its coefficients satisfy c^2+s^2=1, and applying it to a pair of rows/columns (by the code's nu-formula) is an orthogonal transformation.", "quantifier": "every pair of numbers (in exact arithmetic)", "why_tests_cant": "All real pairs, including zeros and negative entries; the nu-formula divides by 1+c.", "anchors": ["include/qpOASES/QProblemB.ipp: computeGivens, applyGivens"]}
{"id": "C27", "title": "The Cholesky factor always belongs to the current free variables (box QPs)", "statement": "For bound-constrained QPs, after any sequence of adding and removing bounds, the stored factor R is upper triangular with R'R equal to the Hessian restricted to the current free variables in list order.", "quantifier": "every positive definite Hessian, every dimension and every history of working set changes (in exact arithmetic)", "why_tests_cant": "Unbounded histories; an error in one update silently yields wrong steps later.", "anchors": ["src/QProblemB.cpp: addBound, removeBound, computeCholesky"]}
{"id": "C28", "title": "The TQ and Cholesky factors always belong to the current working set (general QPs)", "statement": "For general QPs, after any sequence of adding/removing bounds and constraints, Q is orthogonal on the free variables, the active constraint rows times Q equal [0 T] with T reverse triangular, and R is upper triangular with R'R=Z'HZ, where Z is the null-space part of Q.", "quantifier": "every QP, dimension and history of working set changes that keeps the working set linearly independent (in exact arithmetic)", "why_tests_cant": "Unbounded histories and all dimensions.", "anchors": ["src/QProblem.cpp: setupTQfactorisation, addConstraint, addBound, removeConstraint, removeBound, computeProjectedCholesky"]}
{"id": "C29", "title": "Step directions solve the working-set optimality system", "statement": "The computed primal/dual step direction satisfies the linear optimality conditions for the data change on the current working set: stationarity on all variables, active bounds and constraints move with their limits, inactive multipliers stay zero.", "quantifier": "every QP, working set with correct factors, and data change (in exact arithmetic)", "why_tests_cant": "All QPs and working sets.", "anchors": ["src/QProblemB.cpp: determineStepDirection", "src/QProblem.cpp: determineStepDirection"]}
{"id": "C30", "title": "The ratio test never oversteps", "statement": "The step length returned is between 0 and 1, no inactive inequality is crossed and no active multiplier changes sign beyond the configured tolerances during the step, and if the step is shortened the reported index is one that blocks exactly at the returned length.", "quantifier": "every QP state and step direction", "why_tests_cant": "All data; ties, degenerate and tolerance cases.", "anchors": ["src/QProblemB.cpp: performRatioTest, performStep", "include/qpOASES/QProblemB.ipp: isBlocking", "src/QProblem.cpp: performStep"]}
{"id": "C31", "title": "Every homotopy iterate is optimal for its intermediate QP", "statement": "If the current primal-dual pair is optimal for the current QP data, then after a homotopy step the new pair is optimal for the new data: feasible, stationary, complementary, with correctly signed multipliers.", "quantifier": "every convex QP, working set and data change (exact arithmetic, zero ratio-test tolerances)", "why_tests_cant": "This is the central invariant of the online active set strategy; it must survive arbitrarily many steps.", "anchors": ["src/QProblemB.cpp: determineDataShift, determineStepDirection, performStep", "src/QProblem.cpp: determineDataShift, determineStepDirection, performStep"]}
{"id": "C32", "title": "Drift correction and ramping keep the iterate optimal", "statement": "After drift correction, and after ramping, the current primal-dual pair is exactly optimal for the (modified) current QP data, whatever rounding drift had accumulated before.", "quantifier": "every state of data, iterates, types and statuses, every ramping parameter", "why_tests_cant": "Their purpose is to repair arbitrary drifted states, so the state space is unrestricted.", "anchors": ["src/QProblemB.cpp: performDriftCorrection, performRamping", "src/QProblem.cpp: performDriftCorrection, performRamping"]}
{"id": "C33", "title": "A cold start begins at an optimal auxiliary QP", "statement": "init builds an auxiliary QP for which the user-supplied primal/dual guess (or zero) together with the initial working set is optimal, so the homotopy starts from a solved QP.", "quantifier": "every QP, every guess x, y consistent in sign with the working set, and every working set", "why_tests_cant": "All QPs and guesses.", "anchors": ["src/QProblemB.cpp: setupAuxiliaryQPsolution, setupAuxiliaryQPgradient, setupAuxiliaryQPbounds", "src/QProblem.cpp: the same"]}
{"id": "C34", "title": "SUCCESSFUL_RETURN means the QP is solved", "statement": "If init or hotstart returns SUCCESSFUL_RETURN then the returned primal-dual pair satisfies the optimality conditions of the QP that was passed (exactly if the homotopy ended with the passed data, and otherwise for data within the relative termination tolerance).", "quantifier": "every convex QP and every option setting (in exact arithmetic, without far bounds or regularisation altering the problem)", "why_tests_cant": "All QPs; the claim combines all iterations.", "anchors": ["src/QProblemB.cpp: solveQP, hotstart, init, getRelativeHomotopyLength", "src/QProblem.cpp: solveQP, hotstart, init"]}
{"id": "C35", "title": "The optimality conditions certify a global minimum", "statement": "For a positive semidefinite Hessian any primal-dual pair satisfying the conditions the solver maintains is a global minimiser of the QP, and for a positive definite Hessian it is the only one.", "quantifier": "every convex QP and every feasible competitor point", "why_tests_cant": "Universal over all competitor points.", "anchors": ["include/qpOASES/QProblem.hpp: class doc", "src/Utils.cpp: getKktViolation"]}
{"id": "C36", "title": "Reported objective value", "statement": "getObjVal returns 1/2 x'Hx + g'x of the QP at the current point, for every Hessian type; when the Hessian has been regularised the regularisation term is not included.", "quantifier": "every QP and point", "why_tests_cant": "All data and Hessian-type branches.", "anchors": ["src/QProblemB.cpp: getObjVal"]}
{"id": "C37", "title": "KKT residuals are exact", "statement": "The reported stationarity, feasibility and complementarity violations are all zero only if the pair satisfies the optimality conditions (up to the documented multiplier threshold), and each bounds the corresponding violation of every variable and constraint.", "quantifier": "every QP (with optional missing bounds or matrices) and every primal-dual pair", "why_tests_cant": "All QPs, pairs and null-pointer combinations.", "anchors": ["src/Utils.cpp: getKktViolation", "src/SolutionAnalysis.cpp: getKktViolation"]}
{"id": "C38", "title": "The working set recalculation budget is respected", "statement": "init and hotstart never report more working set recalculations than the maximum passed in nWSR, and never perform more, also across far-bound restarts and regularisation steps.", "quantifier": "every QP, option setting and budget", "why_tests_cant": "Runs are unbounded in length; budget bookkeeping crosses three nested loops.", "anchors": ["src/QProblemB.cpp: solveQP, solveRegularisedQP, hotstart", "src/QProblem.cpp: the same"]}
{"id": "C39", "title": "Solver status protocol", "statement": "hotstart on an object that has not been initialised, or whose last homotopy was aborted by an internal error, fails with RET_HOTSTART_FAILED_AS_QP_NOT_INITIALISED and changes neither data nor solution; if the solver's loop returns SUCCESSFUL_RETURN the object reports isSolved.", "quantifier": "every history of init/hotstart/reset calls and every internal failure pattern", "why_tests_cant": "All call histories and internal failure points.", "anchors": ["src/QProblemB.cpp: init, hotstart, solveQP, reset", "include/qpOASES/QProblemB.ipp: isInitialised, isSolved"]}
{"id": "C40", "title": "Solutions are only handed out when available", "statement": "getPrimalSolution and getDualSolution return SUCCESSFUL_RETURN and deliver the solution exactly if an (intermediate) QP has been solved; otherwise they return RET_QP_NOT_SOLVED and leave the caller's array untouched.", "quantifier": "every solver status and every caller array", "why_tests_cant": "Needs every status reachable by any history.", "anchors": ["src/QProblemB.cpp: getPrimalSolution, getDualSolution", "src/QProblem.cpp: getDualSolution"]}
{"id": "C41", "title": "Inconsistent bounds are reported as infeasibility", "statement": "If some lower limit exceeds the corresponding upper limit, init and hotstart return an error code indicating infeasibility and isInfeasible() becomes true.", "quantifier": "every QP with crossing limits, every prior state", "why_tests_cant": "All data and prior states.", "anchors": ["src/QProblemB.cpp: areBoundsConsistent, hotstart, solveInitialQP", "src/QProblem.cpp: the same"]}
{"id": "C42", "title": "Far bounds only ever tighten the problem and the enlargement loop terminates", "statement": "The artificial far bounds used internally never exceed the user's bounds and are finite, infinite or absent bounds are replaced by the far bound, and the loop enlarging them ends after finitely many rounds for every validated option setting.", "quantifier": "every bound vectors, option settings and inner solver behaviour", "why_tests_cant": "Termination for arbitrary inner results and arbitrary growth factors at least 1.1.", "anchors": ["src/QProblemB.cpp: hotstart, updateFarBounds", "src/QProblem.cpp: hotstart, updateFarBounds"]}
{"id": "C43", "title": "Regularisation steps solve the original problem and restore its gradient", "statement": "A regularised solve performs the configured number of correction solves with gradient g-eps*x within the given budget, stores the user's gradient at the end, and if consecutive iterates coincide the result satisfies the unregularised stationarity condition.", "quantifier": "every QP, number of steps and regularisation value", "why_tests_cant": "All data and step numbers.", "anchors": ["src/QProblemB.cpp: solveRegularisedQP, regulariseHessian", "src/QProblem.cpp: solveRegularisedQP"]}
{"id": "C44", "title": "CPU time limit", "statement": "A time limit never prevents the first iteration, stops the loop before any iteration that is predicted to exceed the limit, and then reports RET_MAX_NWSR_REACHED together with the number of performed recalculations.", "quantifier": "every clock behaviour and limit", "why_tests_cant": "All clock readings.", "anchors": ["src/QProblemB.cpp: isCPUtimeLimitExceeded, solveQP"]}
{"id": "C45", "title": "Simple status classification", "statement": "The simple status is 0 exactly for success, 1 exactly for an exhausted recalculation budget, -2 exactly for infeasibility, -3 exactly for unboundedness and -1 for every other return value.", "quantifier": "every return code", "why_tests_cant": "Covers the whole enumeration of return codes.", "anchors": ["src/Utils.cpp: getSimpleStatus"]}
{"id": "C46", "title": "Normalising constraints does not change the problem", "statement": "normaliseConstraints leaves the set of feasible points unchanged and gives every row unit norm.", "quantifier": "every constraint matrix and limits (in exact arithmetic)", "why_tests_cant": "All matrices, including zero rows and infinite limits.", "anchors": ["src/Utils.cpp: normaliseConstraints"]}
{"id": "C47", "title": "Reading vectors and matrices from text files", "statement": "readFromFile returns SUCCESSFUL_RETURN only if the file contained all requested numbers, and then delivers exactly them in order; otherwise it returns an error.", "quantifier": "every file content and requested size", "why_tests_cant": "All file contents, in particular files that end early.", "anchors": ["src/Utils.cpp: readFromFile, writeIntoFile"]}
{"id": "C48", "title": "MAT-file export layout", "statement": "writeIntoMatFile writes a header with the given dimensions followed by exactly nRows*nCols numbers in column-major order, so that reading it back column by column gives the row-major input matrix.", "quantifier": "every matrix size and content", "why_tests_cant": "All sizes.", "anchors": ["src/Utils.cpp: writeIntoMatFile"]}
{"id": "C49", "title": "Return codes pass through the message handler unchanged", "statement": "Throwing an error, warning or info with a legal code returns exactly that code whatever the visibility settings, an error thrown with a non-error code returns RET_ERROR_UNDEFINED, and switching a message class to hidden suppresses its output without changing control flow.", "quantifier": "every return code, visibility setting and message history", "why_tests_cant": "All codes and all histories of nested messages.", "anchors": ["src/MessageHandling.cpp: throwError, throwWarning, throwInfo, throwMessage", "include/qpOASES/MessageHandling.ipp"]}
{"id": "C50", "title": "Flipping strategy restores the saved factorisation", "statement": "The state saved before removing a bound or constraint is restored exactly, for every problem size; copying the object that holds it preserves the saved state.", "quantifier": "every working set, factor contents and size", "why_tests_cant": "All sizes and contents.", "anchors": ["src/Flipper.cpp: Flipper::set, get, copy, operator="]}
{"id": "C51", "title": "Absent bound vectors are accepted by hotstart", "statement": "Passing a null pointer for a bound or constraint limit vector means the limits are infinite, in every hotstart and with every option setting.", "quantifier": "every combination of null pointers and options", "why_tests_cant": "All combinations of pointers and options.", "anchors": ["src/QProblem.cpp: hotstart, updateActivitiesForHotstart", "src/QProblemB.cpp: determineDataShift, setupSubjectToType"]}
{"id": "C52", "title": "Ramping is defined for every problem size", "statement": "With ramping enabled all intermediate bounds and multipliers are finite numbers between the configured ramp values, for every number of variables and constraints.", "quantifier": "every problem size and ramp offset", "why_tests_cant": "The failing size is 1; all sizes and offsets must be considered.", "anchors": ["src/QProblemB.cpp: performRamping, updateFarBounds", "src/QProblem.cpp: performRamping, updateFarBounds"]}
{"id": "C53", "title": "A guessed working set is adopted", "statement": "hotstart with a guessed working set starts from exactly the guessed set, except for members that were left out because of linear dependence and equalities that are forced to be active, whatever the previous working set was.", "quantifier": "every previous working set and every guess", "why_tests_cant": "All pairs of working sets; a shortcut taken only for a particular class of guesses leaves stale members.", "anchors": ["src/QProblem.cpp: setupAuxiliaryQP, setupAuxiliaryWorkingSet, shallRefactorise", "src/QProblemB.cpp: setupAuxiliaryWorkingSet"]}
{"id": "C54", "title": "Changing QP matrices between solves", "statement": "Updating the matrices of an SQProblem shifts the internal data such that the old solution is optimal for the auxiliary QP with the new matrices, and failure to factorise is reported.", "quantifier": "every old solution, new matrices and working set", "why_tests_cant": "All matrices and working sets.", "anchors": ["src/SQProblem.cpp: hotstart, setupNewAuxiliaryQP"]}
{"id": "C55", "title": "Working set export", "statement": "The exported working set contains -1, +1 or 0 for every variable and constraint according to whether it is active at its lower limit, active at its upper limit or inactive.", "quantifier": "every working set", "why_tests_cant": "All working sets.", "anchors": ["src/QProblemB.cpp: getWorkingSetBounds", "src/QProblem.cpp: getWorkingSet, getWorkingSetConstraints"]}
{"id": "C56", "title": "The homotopy ends exactly at the requested data", "statement": "Taking a full step makes the internal data equal to the requested data, absent vectors meaning infinite limits; the relative homotopy length is nonnegative, zero exactly when the data agree, and after a partial step of length tau the remaining data difference is (1-tau) times the old one.", "quantifier": "every current and requested data (in exact arithmetic)", "why_tests_cant": "All data.", "anchors": ["src/QProblemB.cpp: determineDataShift, performStep, getRelativeHomotopyLength", "src/QProblem.cpp: the same"]}
{"id": "C57", "title": "Dropping infeasible constraints follows the configured priorities", "statement": "With dropping enabled, an equality is only dropped on behalf of the equality priority, an inequality on behalf of the inequality priority and a bound on behalf of the bound priority, and nothing of higher priority than the blocking one is dropped.", "quantifier": "every working set, type assignment and priority setting", "why_tests_cant": "All working sets; the defect needs a list order different from the natural one.", "anchors": ["src/QProblem.cpp: dropInfeasibles"]}
{"id": "C58", "title": "Classification of variables and constraints", "statement": "Each variable and constraint is classified from its limits as unbounded, bounded or equality exactly according to the documented tolerances, and the has-no-lower/has-no-upper flags are set exactly if no finite limit of that kind exists.", "quantifier": "every limit vectors and options", "why_tests_cant": "All limit vectors and option combinations.", "anchors": ["src/QProblemB.cpp: setupSubjectToType", "src/QProblem.cpp: setupSubjectToType"]}
{"id": "C59", "title": "Throwing messages without an output file", "statement": "If no output file is set (setOutputFile with a null pointer), throwing an error, warning or info still terminates and returns its code.", "quantifier": "every return code and every visibility setting", "why_tests_cant": "Non-termination for all stack depths cannot be observed by a test.", "anchors": ["src/Utils.cpp: myPrintf", "src/MessageHandling.cpp: throwMessage"]}
{"id": "C60", "title": "Submatrices for sparse solvers contain the selected entries", "statement": "Extracting a submatrix as coordinate triples yields, for every storage format, exactly the selected entries that are not (negligibly) zero, each once, at their position in the lists plus the offsets; with the lower-triangle flag only those on and below the diagonal; and the counting call made before to size the arrays returns the number of triples the second call writes.", "quantifier": "every matrix, storage format, list of rows and columns, and offset", "why_tests_cant": "All patterns and index lists; a count smaller than the number of triples written is a buffer overflow in the caller.", "anchors": ["src/Matrices.cpp: DenseMatrix::getSparseSubmatrix, SparseMatrix::getSparseSubmatrix, SparseMatrixRow::getSparseSubmatrix"]}
{"id": "C61", "title": "Replacing the values of a sparse matrix keeps its pattern", "statement": "After setVal every entry of the matrix is the new value given for its position in the storage and zero where nothing is stored; pattern and diagonal information are unchanged.", "quantifier": "every well-formed sparse matrix and every array of new values", "why_tests_cant": "All sparsity patterns.", "anchors": ["src/Matrices.cpp: SparseMatrix::setVal"]}
{"id": "C62", "title": "A cold start with missing or contradictory arguments is refused", "statement": "init with a guessed working set containing undefined members, with guessed multipliers and a guessed working set but no guessed point, with a Cholesky factor together with any guess, without a gradient or (for a problem with constraints) without a constraint matrix returns the documented error code, leaves both budgets as they were and leaves the object uninitialised: it reports no solution.", "quantifier": "every object state, every combination of optional arguments, every data and budget", "why_tests_cant": "All combinations of optional arguments with all histories of the object.", "anchors": ["src/QProblemB.cpp: init, setupQPdata", "src/QProblem.cpp: init, setupQPdata"]}
{"id": "C63", "title": "solveCurrentEQP solves the equality-constrained QP of the current working set for every right-hand side", "statement": "After a solved QP, solveCurrentEQP returns SUCCESSFUL_RETURN only if for every right-hand side (g, lb, ub, lbA, ubA) the block of x_out holds the minimiser of the QP in which every bound and constraint of the current working set is held at its limit and all others are ignored, and the block of y_out holds the multipliers (zero for everything outside the working set). getFreeVariablesFlags marks exactly the variables outside the working set.", "quantifier": "every history of init and hotstart calls, every number of right-hand sides, all data", "why_tests_cant": "The statement ranges over all working sets reachable by any history, all right-hand sides and their failures at any position of the batch.", "anchors": ["src/QProblem.cpp: solveCurrentEQP, getFreeVariablesFlags, determineStepDirection"]}
{"id": "C64", "title": "getVarianceCovariance propagates the covariance of the data to the solution", "statement": "If getVarianceCovariance succeeds, the matrix returned is J V J', where V is the given covariance matrix of (g, b, bA) and J is the matrix that maps every disturbance of (g, b, bA) to the reaction of the primal and dual solution for the current working set; J is uniquely determined.", "quantifier": "every history of init and hotstart calls, every matrix V", "why_tests_cant": "A test compares a few numbers; that the result is the exact propagation for all matrices and working sets needs a proof.", "anchors": ["src/SolutionAnalysis.cpp: getVarianceCovariance", "src/QProblem.cpp: determineStepDirection"]}
{"id": "C65", "title": "A cold start does not depend on what the object was used for before", "statement": "init with given arguments has the same return value, number of recalculations and resulting object whatever the object was used for before: for two objects of the same size with the same options, whatever calls were made on either, the outcomes are the same (or both calls fail and leave the objects not initialised).", "quantifier": "all pairs of objects whatever their history, all arguments of init", "why_tests_cant": "The claim compares all possible histories of an object; tests only try a few.", "anchors": ["src/QProblemB.cpp: init, reset, setupQPdata, solveInitialQP", "src/QProblem.cpp: init, reset, setupQPdata, solveInitialQP", "include/qpOASES/QProblemB.ipp: setOptions, setH"]}
{"id": "C66", "title": "A report of infeasibility is right", "statement": "If init returns RET_INIT_FAILED_INFEASIBILITY or hotstart returns RET_HOTSTART_STOPPED_INFEASIBILITY, then no point satisfies all limits of the QP that was passed.", "quantifier": "every convex QP, every history of calls, all option settings, in exact arithmetic", "why_tests_cant": "The report is issued in the middle of a homotopy, for data between the old and the new QP; that this implies infeasibility of the new QP is an argument over all points and all runs.", "anchors": ["src/QProblem.cpp: addConstraint_ensureLI, addBound_ensureLI, changeActiveSet, solveQP, solveInitialQP"]}
{"id": "C67", "title": "A report of unboundedness is right", "statement": "If init returns RET_INIT_FAILED_UNBOUNDEDNESS or hotstart returns RET_HOTSTART_STOPPED_UNBOUNDEDNESS, then the QP that was passed is unbounded below (or infeasible): there is a direction of constant descent along which no finite limit is ever met.", "quantifier": "every convex QP, every history of calls, all option settings, in exact arithmetic", "why_tests_cant": "The report is issued for intermediate data of the homotopy and must hold for the QP passed, for all points and all runs.", "anchors": ["src/QProblem.cpp: ensureNonzeroCurvature, removeBound, removeConstraint, changeActiveSet, solveQP, solveInitialQP"]}
{"id": "C68", "title": "An unbounded QP is not reported as solved", "statement": "If the QP passed to init is unbounded below (limits of at least 1e20 in absolute value count as infinite), init does not return SUCCESSFUL_RETURN.", "quantifier": "every convex QP that is unbounded below", "why_tests_cant": "The claim ranges over all unbounded QPs and all runs.", "anchors": ["src/QProblem.cpp: solveInitialQP, setupAuxiliaryQPbounds, performRatioTest, solveQP", "include/qpOASES/Constants.hpp: INFTY"]}
{"id": "C69", "title": "A cold start begins with the working set asked for", "statement": "If init gets as far as its homotopy, the homotopy starts with the working set asked for: a guessed working set if one is passed; else every bound and constraint with a positive (negative) guessed multiplier at its lower (upper) limit; else every bound and constraint whose value at the guessed point lies within boundTolerance of a limit at that limit; else the bounds according to initialStatusBounds and no constraints. Equalities are always part of it. Members are left out only because the test for linear independence finds them to depend on members that are active; with QProblemB nothing is left out. What differs when init returns is due to at most nWSR recalculations.", "quantifier": "every new or used object, all data, options, guesses (point, multipliers, working sets, in all combinations) and all outcomes of init that reach the homotopy", "why_tests_cant": "All combinations of guesses, limits, options and histories of the object count; the working set at the start of the homotopy is not visible from outside, only through the number of recalculations needed.", "anchors": ["src/QProblem.cpp: solveInitialQP, obtainAuxiliaryWorkingSet, setupAuxiliaryWorkingSet", "src/QProblemB.cpp: solveInitialQP, obtainAuxiliaryWorkingSet, setupAuxiliaryWorkingSet", "include/qpOASES/QProblem.hpp: init"]}
{"id": "C70", "title": "Hotstarts with new matrices keep the budget and the status protocol", "statement": "A hotstart of an SQProblem with new matrices is refused with RET_HOTSTART_FAILED_AS_QP_NOT_INITIALISED, changing nothing, if the object has not been initialised or its last call was aborted, also if working sets are guessed; it never reports or performs more working set recalculations than the maximum given; if it fails to take over the matrices, the object is either as before or must be initialised again; and if it returns SUCCESSFUL_RETURN for limits that do not cross, the object reports isSolved and neither isInfeasible nor isUnbounded.", "quantifier": "all states of the object, all matrices, vectors and options, all guesses, all budgets and time limits", "why_tests_cant": "It concerns every history of earlier calls, successful or not, and every place at which the change of the matrices can fail.", "anchors": ["src/SQProblem.cpp: SQProblem::hotstart", "src/SQProblem.cpp: SQProblem::setupNewAuxiliaryQP", "src/QProblem.cpp: QProblem::hotstart"]}
{"id": "C71", "title": "Data from files", "statement": "init and hotstart with file names do what they do with arrays that hold the numbers of the files (a null file name standing for a null pointer), and leave the object in the same state. If a file cannot be opened or contains something that is not a number where a number is needed, the call returns an error and changes neither the number of recalculations nor the time variable; hotstart then leaves the object as it was, init leaves it not initialised. Success is reported only if every file held all numbers needed, and the object can be used afterwards like any other.", "quantifier": "all file contents including missing, garbled and truncated files, all combinations of null names, all states of the object, all options and guesses, QProblemB, QProblem and SQProblem", "why_tests_cant": "Every position of a fault in every file counts, in every state of the object, and what happens to the object after the call: memory that is freed too early need not show in a test.", "anchors": ["src/QProblemB.cpp: init, hotstart (file names), setupQPdataFromFile, loadQPvectorsFromFile", "src/QProblem.cpp: init, hotstart (file names), setupQPdataFromFile, loadQPvectorsFromFile", "src/SQProblem.cpp: hotstart (file names)", "src/Utils.cpp: readFromFile"]}
{"id": "C72", "title": "Guess for one kind of limits only", "statement": "A hotstart that is given a guess for the bounds only keeps the previous working set of the constraints, and one that is given a guess for the constraints only keeps that of the bounds: the homotopy starts with the limits of that kind that were active before, at the same side, and no others. The call does the same as one in which the previous working set is passed explicitly.", "quantifier": "all sessions (any history of init and hotstarts), all guesses, QP data, budgets and time limits; null pointers and pointers to the object's own working set", "why_tests_cant": "Which limits survive depends on the previous working set, on the guess and on whether the solver decides to change the working set or to build it anew; a test sees one combination, and usually only the solution, which the homotopy may reach from any working set.", "anchors": ["include/qpOASES/QProblem.hpp: hotstart (guessedBounds, guessedConstraints)", "src/QProblem.cpp: hotstart, setupAuxiliaryQP, setupAuxiliaryWorkingSet, shallRefactorise"]}
{"id": "C73", "title": "Options are left alone", "statement": "Solving does not change the options: after any sequence of init, hotstart and reset, getOptions returns what setOptions has set.", "quantifier": "all sequences of calls, all QP data, guesses, budgets and time limits, all options, whatever the calls return", "why_tests_cant": "Options are written at several places deep in the solver, for special Hessians and after failed factorisations; only some histories get there, and the effect shows in later QPs only.", "anchors": ["src/QProblemB.cpp: determineHessianType, computeCholesky, init, hotstart, reset", "src/QProblem.cpp: computeProjectedCholesky", "include/qpOASES/QProblemB.ipp: getOptions, setOptions"]}
