# Formal model of qpOASES in Lean 4: design

This file says what is modelled, how each property is proved, and what has to be trusted.
`properties.jsonl` holds the English properties, `MANIFEST.json` maps each to its theorems.

## 1. Layout

| directory | content |
|---|---|
| `lean/Verif/Model/` | executable transcription of the C++ code, one file per class; every definition cites file and lines |
| `lean/Verif/Spec/` | small specifications that do not mention the model (plain lists, sums, matrices, optimality conditions) |
| `lean/Verif/Proofs/` | helper lemmas |
| `lean/Verif/Props/` | one file per property group: the property theorems and, beside each, a non-vacuity `example` |
| `seeded/LOG.jsonl` | results of mutating the model |

## 2. Modelling conventions

* **Undefined behaviour is an outcome.** Code whose memory safety is at stake (index lists, matrix
  storage, files) runs in the result type `Res`, with constructors `ok` and `ub`. Every array access
  is checked, and an access outside the allocation yields `ub`. A theorem that says a call returns `ok v`
  therefore also says that it does not read out of bounds.
* **Integers.** `int_t` is modelled by `Int` or `Nat`; overflow is not modelled (dimensions are far
  below 2^31 in any run that can allocate its matrices).
* **Reals.** `real_t` is modelled by an arbitrary linearly ordered field `K`. Rounding, NaN and signed
  zero are not modelled, with one exception: where the code divides by a quantity that can be zero
  the division is checked and yields a distinct outcome. `sqrt` is a parameter with the hypothesis
  `0 ≤ x → 0 ≤ sqrt x ∧ sqrt x * sqrt x = x`. Properties that speak about rounding error are therefore
  theorems about exact arithmetic; each says so in `properties.jsonl`.
* **Loops** become recursion over a list of indices, with `break`/`return` as explicit outcomes.
* **Return codes.** `ReturnValue` is the complete enumeration from `MessageHandling.hpp`, in order.
* **Internal calls that are not modelled** (e.g. the inner solver inside the far bound loop) are
  function parameters; the theorem then holds for every behaviour of that call, or states the assumed
  contract as a hypothesis which another theorem establishes.

## 3. Plan per property

Shapes: (R) refinement to an abstract specification, (I) invariant by induction over operations,
(L) round-trip law, (D) decision logic, (N) negation with concrete witness because the code violates
the property; the part that holds is then kept as a `_partial` theorem.

| id | model | proof |
|---|---|---|
| C01 | `Indexlist` as in C++: `number`, `iSort`, `length`, `physicallength` | (R)+(I): representation invariant (iSort is a permutation sorting `number`); each operation refines the operation on `List Int`; closed under histories |
| C02 | same, checked reads | (N): `isMember` below the minimum is `ub`; partial: exact for numbers not below the minimum |
| C03 | same | (I) over all histories |
| C04 | same | (N): at `i = length` no error value; partial: exact for all other `i` |
| C05, C06 | `SubjectTo`, `Bounds`, `Constraints` | (I): partition invariant preserved by all operations under their preconditions, histories by induction |
| C07 | same | (N): freeing a free variable duplicates it |
| C08 | `setupAll` with its four passes | (R) to the explicit order of filtered lists |
| C09 | `shift`, `rotate` | (R) pointwise, (L) rotate k then n-k |
| C10 | `flipFixed` | (L) |
| C11 | `Options::ensureConsistency`, field by field | (D) consistent afterwards, identity on consistent, idempotent, flag |
| C12 | presets and C wrapper switch with fall-through | (D), (N) for mode 1 |
| C13 | `Options::copy`, C wrapper copy | (L) |
| C14, C15 | `DenseMatrix::times/transTimes`, GEMM on flat arrays | (R) to sums over `Finset.range`; (N) for uncompressed beta = -1 and padded leading dimension |
| C16, C17, C18 | CSC and CSR structures, constructors, `full`, products, access | (R) to the represented matrix, (L) construct/full; (N) where code dereferences null |
| C19 | `addToDiag` | (R) dense; (N) sparse with missing diagonal; partial when all diagonal entries are stored |
| C20 | `bilinear` | (R) |
| C21 | `duplicate` | (R) dense/CSC; (N) CSR: `ub` |
| C22 | `getRowNorm` | (R) dense/CSR; (N) CSC type 1 |
| C23 | POTRF replacement | (R): RᵀR = A; failing pivot exactly |
| C24, C25 | `backsolveR`, `backsolveT` | (R) to the linear system |
| C26 | `computeGivens`, `applyGivens` | algebra over an ordered field |
| C27 | `addBound`/`removeBound` of QProblemB on R | (I) RᵀR = H restricted, over histories |
| C28 | TQ and R updates of QProblem | (I) |
| C29 | `determineStepDirection` | (R) to the KKT linear system |
| C30 | `performRatioTest`, `isBlocking` | loop invariant, safety and minimality |
| C31 | data shift + step + ratio test | (I) |
| C32 | `performDriftCorrection`, `performRamping` | (R) to the optimality predicate |
| C33 | `setupAuxiliaryQPsolution/gradient/bounds` | (R) |
| C34 | homotopy loop and far bound loop, both solvers | (I) over iterations and over rounds (`Proofs/QPBFarRun.lean`, `Proofs/QPCFar.lean`); (N) |
| C35 | specification level | convexity argument |
| C36 | `getObjVal` | (R) |
| C37 | `getKktViolation` | (R) |
| C38 | budget bookkeeping of the three nested loops | (I) for all inner behaviours |
| C39, C40 | solver status machine | (I) over call histories |
| C41 | `areBoundsConsistent`, `hotstart` | (N) for hotstart; partial for init |
| C42 | far bound loop and `updateFarBounds` | well-founded argument, (R) |
| C43 | `solveRegularisedQP`, `regulariseHessian`, cold start | (I) over steps; a cold start that regularises at once equals the cold start for the regularised object (`Proofs/QPCReg.lean`); the iteration is specified in `Spec/Proximal.lean`; (N) for hotstarts |
| C44 | `isCPUtimeLimitExceeded`, loop | (D) for all clocks |
| C45 | `getSimpleStatus` | (D) |
| C46 | `normaliseConstraints` | (R); |
| C47 | `readFromFile` with `fscanf` returning EOF | (N); partial for complete files |
| C48 | `writeIntoMatFile` | (L) |
| C49 | message handler | (D)/(I) |
| C50 | `Flipper` | (L); (N) copy |
| C51 | `hotstart` with optional limit vectors | proved with far bounds on (`Proofs/Absent.lean`); (N) with far bounds off; partial |
| C52 | ramp coefficients with checked division | (N); partial for sizes ≥ 2 |
| C53 | `setupAuxiliaryWorkingSet`, `setupAuxiliaryQP` of both solvers | loops over the members with the invariant `Only`; the changes made are recorded (`Spec.Reached`), so that "left out because of linear dependence" refers to factors the solver really had; partial because violated |
| C54 | `SQProblem::setupNewAuxiliaryQP`, `hotstart` with matrices | (R); (N) for the failure report |
| C55 | working set export | (R) |
| C56 | `determineDataShift`, step, `getRelativeHomotopyLength` | (R) |
| C57 | `dropInfeasibles` | choice and effect by case analysis in `Props/C57_Dropping.lean`; (N) for the lookup by position; partial |
| C58 | `setupSubjectToType` | (D) |
| C59 | message handler without output file | (N) |
| C60, C61 | `getSparseSubmatrix`, `setVal` | (R); (N) for storage by rows |
| C62 | argument checks of `init`, both solvers | case analysis over the optional arguments |
| C63 | `solveCurrentEQP` | (R); regularity of the working set's system from the tests inside the triangular solves; (N) for batches |
| C64 | `SolutionAnalysis::getVarianceCovariance` | the system is an injective linear map, hence has an inverse; the two loops compute products with it |
| C65 | `init` on a used object | `reset` and the setters overwrite everything `init` reads; (N) for what they do not overwrite |
| C66, C67 | `addConstraint_ensureLI`, `addBound_ensureLI`, `ensureNonzeroCurvature`, all loops around them | a blocked step is aimed at a limit of the new QP (`Proofs/QPCReport.lean`), which with the linear dependency gives a Farkas argument, or with the direction of zero curvature a ray; carried up to `init` and `hotstart` in `Proofs/QPCVerdict.lean`, and through the rounds with far bounds in `Proofs/QPCFar.lean`; for QProblemB only the check of the limits and the loop over the far bounds can report (`Proofs/QPBReport.lean`, `Props/C66_Bounds.lean`); (N) for the jumps |
| C68 | cold start | from the stationarity shown for C34 and convexity; (N) |
| C69 | `obtainAuxiliaryWorkingSet`, `solveInitialQP` up to the homotopy | case analysis for the statuses asked for (`Spec/StartSet.lean`), then the adoption theorem of C53 and frames for the rest |
| C70 | `SQProblem::hotstart` with new matrices, from the first test to the return | frames for the change of the matrices (status, dimensions), then C38, C39 and C44 for the homotopy |
| C71 | the variants of `init` and `hotstart` with file names on top of `readFromFile`; freed matrices of SQProblem | reduction to the array variants; (N) for truncated files, for the freed matrices and for the null name |
| C72 | hotstarts with a guess for the bounds or the constraints only | invariants of the three loops of `setupAuxiliaryWorkingSet` (proof by `OnlyC`, `Stays`); (N) if the working set is set up anew |
| C73 | options after any sequence of calls | frame lemmas (`QPBKept`, `QPCKept`, `SQKept`): all options but the size of the regularisation are equal after every function but `determineHessianType` and the set-up of a guess by QProblem; induction over the calls; violated for the regularisation and for the full tests for linear independence; hotstarts of SQProblem with new matrices included |

No property is considered inexpressible. What cannot be expressed with this model is the size of
rounding errors; the properties are therefore worded for exact arithmetic where this matters.

## 4. Trusted base

* **Kernel.** Lean 4.33.0. `#print axioms` on every theorem named in `MANIFEST.json` reports a subset of
  `propext`, `Classical.choice`, `Quot.sound`, and nothing else. About fifty of them do not use
  `Classical.choice` (for example C10, C13, C40, C49, C50, C55, C58). There are no own axioms, no
  `sorry`, no `native_decide`, no `bv_decide`. Concrete runs are evaluated by the kernel
  (`decide +kernel`) over the rationals.
* **Transcription** of the C++ code into `Verif/Model`, by reading; the code cannot be run here.
* **Numbers.** `real_t` is an arbitrary linearly ordered field, `int_t` an unbounded integer. Rounding, NaN,
  signed zero and overflow are outside the model. `INFTY`, `EPS`, `ZERO` are the numbers of `Constants.hpp`,
  compared as the code compares them.
* **Memory.** Array bounds and null pointers only; no aliasing except where the comment of a definition says so.
* **External calls** are parameters: square root, clock, LAPACK's `potrf` where linked externally.

### What is modelled

| code | model | remarks |
|---|---|---|
| `Indexlist`, `SubjectTo`, `Bounds`, `Constraints` | `Indexlist`, `SubjectTo` | exact, with checked array access |
| the same classes as seen by the solvers | `WS` | sequences of free/fixed indices instead of sorted arrays; justified by C01, C05, C06 |
| `Options`, C wrapper's option functions | `Options` | complete |
| `MessageHandling`, `getSimpleStatus` | `Message`, `ReturnValue` | complete except for text layout |
| `DenseMatrix`, `SparseMatrix`, `SparseMatrixRow`, symmetric variants | `DenseMatrix`, `SparseMatrix` | complete except for printing and file output |
| `BLASReplacement`, `LAPACKReplacement` | `Blas`, `Lapack` | double variants; the float variants are the same text |
| `Utils`: files, norms, KKT residuals, `normaliseConstraints`, step-length helpers | `FileIO`, `Kkt`, `Normalise`, `Numeric` | formatted printing omitted |
| `Flipper` | `Flipper` | complete |
| `QProblemB` | `QProblemB`, `Kernels` | array variants of `init`, `hotstart` with all guesses, far bounds, regularisation, ramping, drift correction, flipping, refinement, time limit |
| `QProblem` | `QProblemFactor`, `QProblem` | array variants; factor updates, linear independence tests, `ensureNonzeroCurvature`, all loops |
| `SQProblem` | `SQProblem` | `hotstart` with new dense matrices |
| file variants of `init` and `hotstart` (all three classes) | `FromFile` | a factor read into the object's own array is passed on by value; of the freed matrices only the Hessian becomes unusable |
| `SolutionAnalysis` | `Kkt`, `Analysis` | `getKktViolation` and `getVarianceCovariance` for both solvers |
| `solveCurrentEQP`, `getFreeVariablesFlags` | `Analysis` | arrays left unset by a failing step computation are a parameter |

### What is not modelled

* Solver calls that take `Matrix` objects as Hessian and constraint matrix (the solver models hold dense arrays;
  the matrix classes themselves are modelled and are interchangeable by C14 to C20).
* `SQProblemSchur`, `SparseSolver` and the external sparse solvers, `OQPinterface`, the matlab, octave, scilab, simulink, python and C wrappers (except the option
  functions of the C wrapper).
* Printing, suppressed output, debugging writes into MAT files during a run.

## 5. Disagreements between code and property

Each is proved in Lean with a concrete witness. Theorem names are in `QpOASES.Props`; what remains true is kept
beside it under a name ending in `_partial`.

### Containers, options, messages, files

* C02 `C02_membership_violated`: asking for a number below the smallest member reads `iSort[-1]`.
* C04 `C04_getNumber_violated`: reading at position `length` is not reported.
* C07 `C07_misuse_violated`, `C07_duplicate`: freeing a free variable is accepted and enters it twice.
* C12 `C12_c_presets_violated`: preset 1 of the C interface falls through to preset 2.
* C46 `C46_violated_zero_row`, `C46_violated_infinite_limits`: rows of norm at most EPS and infinite limits.
* C47 `C47_violated`: a file that ends early is accepted.
* C50 `C50_copy_violated`, `C50_copy_constructor_undefined`: copying a `Flipper` loses its dimensions.
* C59 `C59_violated`: without output file a message recurses without end.
* C71 `C71_violated`, `C71_truncated`: a hotstart from a truncated file succeeds, with the last number repeated. `C71_dangling`: after
  `SQProblem::hotstart` from files the object refers to matrices that have been freed (src/SQProblem.cpp:283-284); the next hotstart reads
  them. `C71_no_constraints`: without constraints a null name for the constraint matrix, allowed by include/qpOASES/SQProblem.hpp:187-188,
  is passed to `fopen`.

### Matrices and kernels

* C14 `C14_times_padded_violated`, `C14_times_uncompressed_violated`: padded storage, and beta = -1 with uncompressed result.
* C15 `C15_tiny_beta_dropped` (shown, not counted as violation): coefficients within 1e-25 of 0, 1, -1.
* C17 `C17_columns_double_free`, `C17_columns_uncompressed_violated`, `C17_rows_uncompressed_violated`.
* C18 `C18_columns_getRow_null`, `C18_rows_getCol_null`, `C18_rows_getCol_out_of_bounds`, `C18_isDiag_formats_disagree`.
* C19 `C19_partial_update_violated`, `C19_out_of_bounds_violated`, `C19_wrong_entry_violated`: missing diagonal entries.
* C20 `C20_sparse_violated`: only the leading contiguous block of the result is cleared.
* C21 `C21_dense_padded_violated`, `C21_rows_violated`: duplicates of padded matrices and of row storage with diagonal.
* C22 `C22_columns_norm1_violated`, `C22_columns_norm1_out_of_bounds`: stray semicolon.
* C24 `C24_zero_diagonal_violated`: 0/0 passes the guard.
* C26 `C26_negligible_violated`: components of size at most ZERO are not rotated away.
* C60 `C60_rows_violated`, `C60_lower_violated`: row storage not implemented; dense lower triangle ignores the column list.

### Factorisations and homotopy

* C27 `C27_tiny_violation`, `C27_guess_violation`: skipped rotations; hotstart with a guess that does not refactorise.
* C28 `C28_refactorisation_violated`: with enableCholeskyRefactorisation the factor Q is not reset.
* C30 `C30_negative_violation`: a multiplier of the wrong sign within tolerance gives a negative step length.
* C31 `C31_short_violation`: steps no longer than ZERO are not taken, but the blocking change is made.
* C32 `C32_unbounded_violation`, `C32_stored_violation`: no correction for variables without limits, nor of stored products A*x.
* C43 `C43_hotstart_violated`: with regularisation repeated hotstarts with the same data diverge;
  `General.C43_general_hotstart_violated`: a hotstart with the data of the regularised cold start returns wrong multipliers.
* C52 `C52_single_violation`, `C52_run_violation`, `General.C52_general_far_violation`: 0/0 for a single variable.
* C56 `C56_null_violation`, `General.C56_general_null_violation`: absent limit vectors are ignored by the homotopy length.
* C58 `C58_null_violation`, `C58_equality_violation`: absent limits are not infinite limits; equalities need equal old limits.

### Answers of the solver

* C34, QProblemB: `C34_guess_violation` (guessed working set), `C34_equality_violation`, `C34_equality_sign_violation`
  (equality detection), `C34_null_violation` (absent limits).
* C34, QProblem: `C34_types_violated` (types not updated), `C34_refactorisation_violated`, `C34_dropped_violated` (a dropped
  constraint keeps its multiplier), `C34_dual_guess_violated` (a guessed multiplier of a dependent constraint is kept),
  `C34_guess_sign_violated` (a guessed working set that contradicts the signs of the former multipliers: the ratio test skips them,
  and the hotstart reports success at the maximiser), `C34_vertex_guess_violated` (a guess that fixes all variables while a constraint
  is active: the constraint stays in the working set unwatched, and the hotstart reports success at an infeasible point).
* C36 `C36_regularised_violation`: the regularisation term is part of the reported objective.
* C37 `C37_missing_violated`, `C37_sign_violated`, `C37_outside_violated`.
* C39 `C39_violated`, `C39_budget_violated`: a guess overwrites the status before it is tested; nWSR = 0 leaves the object unusable.
* C40 `C40_dual_violation`, `General.C40_general_dual_violation`: the caller's array is overwritten before the failure is reported.
* C41 `C41_hotstart_violated`, `C41_general_violated`, `C41_tolerance_violated`: crossing limits give SUCCESSFUL_RETURN.
* C42 `C42_infinite_violated`, `C42_crossing_violated`: infinite far limits through ramping; far limits cross the user's.
* C44 `C44_far_violated`: the far bound loop takes the time used so far as the limit.
* C51 `C51_violated`: absent limit vectors are dereferenced. `C51_bounds_violated`, `C51_general_violated`: with far bounds off, a hotstart
  without a limit vector reports success at a point that is not the minimiser, because absent vectors are ignored when the
  remaining length of the homotopy is computed.
* C53 `C53_general_violated`: the shortcut for empty working sets ignores the guess.
* C53 `General.C53_null_guess_violated`: `hotstart` with a null pointer for the guessed bounds is documented to keep the previous working set of
  bounds; if the solver refactorises, the null pointer has been replaced by a pointer to the working set that is cleared first, and the previous
  working set is lost (src/QProblem.cpp:469, 5680).
* C72 `General.C72_constraints_emptied_violation`, `General.C72_bounds_emptied_violation`, `General.C72_violated`: the same in general. Whenever the
  solver refactorises, a guess for one kind of limits empties the working set of the other kind.
* C54 `C54_factorise_violated`, `C54_multiplier_violated`: unreported failure; kept multiplier of a dependent constraint.
* C63 `C63_violated`: a failure for a right-hand side that is not the last one is not reported.
* C64 `C64_violated`: not implemented for problems with bounds only.
* C65 `C65_type_violated`: `reset` sets the Hessian type to unknown, so a type given to the constructor is lost on the second `init`.
* C65 `C65_refused_violated`: `init` with neither Hessian nor gradient is refused, but leaves the Hessian type zero; the next `init` ignores the Hessian it is given.
* C65 `C65_ramp_violated`: `setOptions` does not pass on the ramping parameters; only the constructor and `reset` do, so the first `init` ignores them.
* C66 `C66_violated`: a QP with a minimiser is reported as infeasible because a multiplier exceeds maxDualJump = 1e8.
* C66 `C66_violated_bounds`: QProblemB, not initialised: a hotstart with crossing limits returns success and sets the flag of infeasibility; a hotstart with good limits then returns RET_HOTSTART_STOPPED_INFEASIBILITY.
* C67 `C67_violated`: a QP with finite limits is reported as unbounded because the next limit is farther away than maxPrimalJump = 1e8.
* C67 `C67_violated_bounds`: QProblemB with default options reports ½|x|² + 1e19·x₀ as unbounded below.
* C68 `C68_violated`: a QP that is unbounded below is reported as solved at the limit 1e20 of a constraint.
* C68 `C68_violated_bounds`: QProblemB without far bounds, the same at a bound of -1e20.
* C73 `C73_violated`: a zero Hessian switches on `enableRegularisation` in the user's options (src/QProblemB.cpp:1189-1190, 1220-1221, 1269-1270), and it stays on for QPs solved later.
* C73 `C73_violated_general`: in QProblem a guess that cannot be installed switches off `enableFullLITests` for good (src/QProblem.cpp:2424, restored only at 2535), and the hotstart returns success because `setupAuxiliaryQP` ignores the failure.
* C73 `C73_violated_new`: the same as `C73_violated` for a hotstart of SQProblem whose new Hessian is zero (src/SQProblem.cpp:400 determines its type).
* C57 `C57_violated`: priorities are looked up at the wrong position.

### Noticed, not stated as theorems

* User-supplied Cholesky factor together with enableEqualities: equalities are fixed after the factor was accepted.
* Identity Hessian with enableRegularisation: init fails.
* The caller's Hessian array is changed by regularisation.
* `setH(0)` with identity type keeps the previous matrix.
* Zero Hessian and zero gradient: the regularisation value is zero and init fails.
* `SQProblem`: error returns of `setupNewAuxiliaryQP` leave the status QPS_PREPARINGAUXILIARYQP.
* `getSparseSubmatrix` does not release `rowNumberInv` on invalid arguments.
