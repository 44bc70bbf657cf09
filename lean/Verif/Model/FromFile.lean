import Verif.Model.SQProblem
import Verif.Model.FileIO

/-!
The variants of `init` and `hotstart` that read the QP data from text files.
-/
namespace QpOASES
open ReturnValue SubjectToStatus HessianType QProblemStatus

section
variable {K : Type} [Field K] [LinearOrder K] [IsStrictOrderedRing K]

/-- The argument `const char* const …_file`: `none` is the null pointer, `some none` the name of a file that cannot be opened. -/
abbrev FileArg (K : Type) := Option (Option (TextFile K))

/-- An array of the object with `n` elements as memory -/
def memOf (n : Nat) (v : Nat → K) : Mem K := ⟨n, fun i => if i < n then some (v i) else none⟩

/-- `readFromFile( data, nrow,ncol, … )` where `data` has `nrow*ncol` elements; the array afterwards as a function (elements that do not
exist or have not been written are `0`; the latter occur only if the call failed, and then nobody reads them). -/
def readOver (d : Mem K) (nrow ncol : Nat) (f : Option (TextFile K)) : Res (ReturnValue × (Nat → K)) := do
  let (r, d) ← readFromFile d nrow ncol f
  .ok (r, fun i => (d.cell i).getD 0)

/-- Reading a vector into newly allocated memory if a file name is given, src/QProblemB.cpp:1887-1927, src/QProblem.cpp:5974-6008. -/
def loadVector (n : Nat) (f : FileArg K) : Res (ReturnValue × Option (Nat → K)) :=
  match f with
  | none => .ok (SUCCESSFUL_RETURN, none)
  | some f => do
    let (r, v) ← readOver (Mem.alloc n) n 1 f
    .ok (r, some v)

/-- Reading one of the vectors of limits into the object's own array, or infinite limits if no file is named,
src/QProblemB.cpp:1838-1868, src/QProblem.cpp:5906-5932 -/
def readLimits (n : Nat) (old : Nat → K) (inf : K) (f : FileArg K) : Res (ReturnValue × (Nat → K)) :=
  match f with
  | none => .ok (SUCCESSFUL_RETURN, fun _ => inf)
  | some f => readOver (memOf n old) n 1 f

namespace QPB

/-- `setupQPdataFromFile`, src/QProblemB.cpp:1805-1871.  The arrays `g`, `lb`, `ub` are overwritten in place; nothing is undone if a later
file cannot be read. -/
def setupQPdataFromFile (s : QPB K) (H g lb ub : FileArg K) : Res (ReturnValue × QPB K) := do
  let (r, s) ← match H with
    | none => Res.ok (SUCCESSFUL_RETURN, s.setH none)
    | some f => do
      let (r, v) ← readOver (Mem.alloc (s.nV * s.nV)) s.nV s.nV f
      Res.ok (if r ≠ SUCCESSFUL_RETURN then (r, s) else (SUCCESSFUL_RETURN, s.setH (some v)))
  if r ≠ SUCCESSFUL_RETURN then .ok (r, s) else
  match g with
  | none => .ok (RET_INVALID_ARGUMENTS, s)
  | some f => do
    let (r, v) ← readOver (memOf s.nV s.g) s.nV 1 f
    let s := { s with g := v }
    if r ≠ SUCCESSFUL_RETURN then .ok (r, s) else do
    let (r, v) ← readLimits s.nV s.lb (-INFTY) lb
    let s := { s with lb := v }
    if r ≠ SUCCESSFUL_RETURN then .ok (r, s) else do
    let (r, v) ← readLimits s.nV s.ub (INFTY) ub
    .ok (r, { s with ub := v })

/-- `init( const char* H_file, … )`, src/QProblemB.cpp:351-407.  A factor given in a file is read into the object's own array, which is
then passed on as `_R`; nothing changes that array before it is used (src/QProblemB.cpp:2274-2337), so `_R` is modelled by the numbers
read. -/
def initFile (sq : K → K) (fuel : Nat) (s : QPB K) (H g lb ub : FileArg K) (nWSR : Int) (cputime : Option K)
    (xOpt yOpt : Option (Nat → K)) (guess : Option WS) (R : FileArg K) : Res (Out K) :=
  if s.nV = 0 then .ok ⟨RET_QPOBJECT_NOT_SETUP, nWSR, cputime, s⟩
  else
    let s := if s.status ≠ QPS_NOTINITIALISED then s.reset else s
    if guess.any fun w => (List.range s.nV).any fun i => w.getStatus i == ST_UNDEFINED then
      .ok ⟨RET_INVALID_ARGUMENTS, nWSR, cputime, s⟩
    else if xOpt.isNone && yOpt.isSome && guess.isSome then .ok ⟨RET_INVALID_ARGUMENTS, nWSR, cputime, s⟩
    else if R.isSome && (xOpt.isSome || yOpt.isSome || guess.isSome) then
      .ok ⟨RET_NO_CHOLESKY_WITH_INITIAL_GUESS, nWSR, cputime, s⟩
    else do
      let (r, s) ← s.setupQPdataFromFile H g lb ub
      if r ≠ SUCCESSFUL_RETURN then .ok ⟨RET_UNABLE_TO_READ_FILE, nWSR, cputime, s⟩
      else match R with
        | none => solveInitialQP sq fuel s xOpt yOpt guess none nWSR cputime
        | some f => do
          let (r, v) ← readOver (memOf (s.nV * s.nV) fun k => s.R (k / s.nV) (k % s.nV)) s.nV s.nV f
          let s := { s with R := fun i j => if i < s.nV ∧ j < s.nV then v (i * s.nV + j) else s.R i j }
          if r ≠ SUCCESSFUL_RETURN then .ok ⟨r, nWSR, cputime, s⟩
          else solveInitialQP sq fuel s xOpt yOpt guess (some v) nWSR cputime

/-- `loadQPvectorsFromFile`, src/QProblemB.cpp:1877-1930, called with memory for every file named -/
def loadQPvectorsFromFile (n : Nat) (g lb ub : FileArg K) :
    Res (ReturnValue × Option (Nat → K) × Option (Nat → K) × Option (Nat → K)) := do
  let (r, g) ← loadVector n g
  if r ≠ SUCCESSFUL_RETURN then .ok (r, g, none, none) else
  if g.isNone then .ok (RET_INVALID_ARGUMENTS, none, none, none) else do
  let (r, lb) ← loadVector n lb
  if r ≠ SUCCESSFUL_RETURN then .ok (r, g, lb, none) else do
  let (r, ub) ← loadVector n ub
  .ok (r, g, lb, ub)

/-- `hotstart( const char* g_file, … )`, src/QProblemB.cpp:584-634 -/
def hotstartFile (sq : K → K) (fuel : Nat) (s : QPB K) (g lb ub : FileArg K) (nWSR : Int) (cputime : Option K) (guess : Guess) :
    Res (Out K) :=
  if s.nV = 0 then .ok ⟨RET_QPOBJECT_NOT_SETUP, nWSR, cputime, s⟩
  else if g.isNone then .ok ⟨RET_INVALID_ARGUMENTS, nWSR, cputime, s⟩
  else do
    let (r, g, lb, ub) ← loadQPvectorsFromFile s.nV g lb ub
    match r, g with
    | SUCCESSFUL_RETURN, some g => hotstart sq fuel s g lb ub nWSR cputime guess
    | _, _ => .ok ⟨RET_UNABLE_TO_READ_FILE, nWSR, cputime, s⟩

end QPB

namespace QPC

/-- `setupQPdataFromFile`, src/QProblem.cpp:5885-5948 -/
def setupQPdataFromFile (s : QPC K) (H g A lb ub lbA ubA : FileArg K) : Res (ReturnValue × QPC K) := do
  let (r, b) ← s.toQPB.setupQPdataFromFile H g lb ub
  let s := { s with toQPB := b }
  if r ≠ SUCCESSFUL_RETURN then .ok (r, s)
  else if s.nC = 0 then .ok (SUCCESSFUL_RETURN, s)
  else match A with
  | none => .ok (RET_INVALID_ARGUMENTS, s)
  | some fA => do
    let (r, v) ← readLimits s.nC s.lbA (-INFTY) lbA
    let s := { s with lbA := v }
    if r ≠ SUCCESSFUL_RETURN then .ok (r, s) else do
    let (r, v) ← readLimits s.nC s.ubA (INFTY) ubA
    let s := { s with ubA := v }
    if r ≠ SUCCESSFUL_RETURN then .ok (r, s) else do
    let (r, v) ← readOver (Mem.alloc (s.nC * s.nV)) s.nC s.nV fA
    if r ≠ SUCCESSFUL_RETURN then .ok (r, s) else
    let s := { s with A := fun i j => v (i * s.nV + j) }
    let Ax := s.prodA s.x
    .ok (SUCCESSFUL_RETURN, { s with Ax := Ax, Axu := fun i => s.ubA i - Ax i, Axl := fun i => Ax i - s.lbA i })

/-- `init( const char* H_file, … )`, src/QProblem.cpp:374-439; for `_R == R` see `QPB.initFile` (src/QProblem.cpp:1320-1395). -/
def initFile (sq : K → K) (fuel : Nat) (s : QPC K) (H g A lb ub lbA ubA : FileArg K) (nWSR : Int) (cputime : Option K)
    (xOpt yOpt : Option (Nat → K)) (gB gC : Option WS) (R : FileArg K) : Res (OutC K) :=
  if s.nV = 0 then .ok ⟨RET_QPOBJECT_NOT_SETUP, nWSR, cputime, s⟩
  else
    let s := if s.status ≠ QPS_NOTINITIALISED then s.reset else s
    if gB.any fun w => (List.range s.nV).any fun i => w.getStatus i == ST_UNDEFINED then .ok ⟨RET_INVALID_ARGUMENTS, nWSR, cputime, s⟩
    else if gC.any fun w => (List.range s.nC).any fun i => w.getStatus i == ST_UNDEFINED then
      .ok ⟨RET_INVALID_ARGUMENTS, nWSR, cputime, s⟩
    else if xOpt.isNone && yOpt.isSome && (gB.isSome || gC.isSome) then .ok ⟨RET_INVALID_ARGUMENTS, nWSR, cputime, s⟩
    else if R.isSome && (xOpt.isSome || yOpt.isSome || gB.isSome || gC.isSome) then
      .ok ⟨RET_NO_CHOLESKY_WITH_INITIAL_GUESS, nWSR, cputime, s⟩
    else do
      let (r, s) ← s.setupQPdataFromFile H g A lb ub lbA ubA
      if r ≠ SUCCESSFUL_RETURN then .ok ⟨RET_UNABLE_TO_READ_FILE, nWSR, cputime, s⟩
      else match R with
        | none => solveInitialQP sq fuel s xOpt yOpt gB gC none nWSR cputime
        | some f => do
          let (r, v) ← readOver (memOf (s.nV * s.nV) fun k => s.R (k / s.nV) (k % s.nV)) s.nV s.nV f
          let s := { s with R := fun i j => if i < s.nV ∧ j < s.nV then v (i * s.nV + j) else s.R i j }
          if r ≠ SUCCESSFUL_RETURN then .ok ⟨r, nWSR, cputime, s⟩
          else solveInitialQP sq fuel s xOpt yOpt gB gC (some v) nWSR cputime

/-- The vectors of a QP as read from files: gradient, limits of the variables and of the constraints -/
structure Loaded (K : Type) where
  rv : ReturnValue
  g : Option (Nat → K)
  lb : Option (Nat → K)
  ub : Option (Nat → K)
  lbA : Option (Nat → K)
  ubA : Option (Nat → K)

/-- Memory that is allocated if a file is named but never written, src/QProblem.cpp:668-669 with `nC == 0`: an array without elements -/
def emptyArray (f : FileArg K) : Option (Nat → K) := f.map fun _ _ => 0

/-- `loadQPvectorsFromFile`, src/QProblem.cpp:5954-6013, called with memory for every file named -/
def loadQPvectorsFromFile (n m : Nat) (g lb ub lbA ubA : FileArg K) : Res (Loaded K) := do
  let (r, g, lb, ub) ← QPB.loadQPvectorsFromFile n g lb ub
  if r ≠ SUCCESSFUL_RETURN then .ok ⟨r, g, lb, ub, none, none⟩
  else if m = 0 then .ok ⟨SUCCESSFUL_RETURN, g, lb, ub, emptyArray lbA, emptyArray ubA⟩
  else do
    let (r, lbA) ← loadVector m lbA
    if r ≠ SUCCESSFUL_RETURN then .ok ⟨r, g, lb, ub, lbA, none⟩ else do
    let (r, ubA) ← loadVector m ubA
    .ok ⟨r, g, lb, ub, lbA, ubA⟩

/-- `hotstart( const char* g_file, … )`, src/QProblem.cpp:646-710; `SQProblem::hotstart( const char* g_file, … )` just calls it,
src/SQProblem.cpp:308-317. -/
def hotstartFile (sq : K → K) (fuel : Nat) (s : QPC K) (g lb ub lbA ubA : FileArg K) (nWSR : Int) (cputime : Option K) (gB gC : QPB.Guess) :
    Res (OutC K) :=
  if s.nV = 0 then .ok ⟨RET_QPOBJECT_NOT_SETUP, nWSR, cputime, s⟩
  else if g.isNone then .ok ⟨RET_INVALID_ARGUMENTS, nWSR, cputime, s⟩
  else do
    let v ← loadQPvectorsFromFile s.nV s.nC g lb ub lbA ubA
    match v.rv, v.g with
    | SUCCESSFUL_RETURN, some g => hotstart sq fuel s g v.lb v.ub v.lbA v.ubA nWSR cputime gB gC
    | _, _ => .ok ⟨RET_UNABLE_TO_READ_FILE, nWSR, cputime, s⟩

/-- The object after `delete[] H_new`, `delete[] A_new`, src/SQProblem.cpp:283-284: `setupNewAuxiliaryQP` has made `H` (and `A`) refer to
these arrays without copying them (src/SQProblem.cpp:521-545; the matrices do not own them), so every later access to the Hessian is one to
freed memory.  The model has no Hessian then: `getH` is undefined behaviour.  (Simplification: the constraint matrix, which dangles as
well, stays readable; and tests whether `H` is null, as in src/SQProblem.cpp:415-419, would see a pointer that is not.) -/
def freeMatrices (s : QPC K) : QPC K := { s with H := none }

/-- `SQProblem::hotstart( const char* H_file, … )`, src/SQProblem.cpp:203-287.  `fopen` with a null pointer as file name is undefined
behaviour: it is called if `nC == 0` and no file is named for the constraint matrix.  The object refers to the new arrays unless
`hotstart` returns at once because the object has not been initialised (src/SQProblem.cpp:153-158). -/
def hotstartNewFile (sq : K → K) (fuel : Nat) (s : QPC K) (H g A lb ub lbA ubA : FileArg K) (nWSR : Int) (cputime : Option K)
    (gB gC : QPB.Guess) : Res (OutC K) :=
  match H, g with
  | some fH, some fg =>
    if s.nC > 0 ∧ A.isNone then .ok ⟨RET_INVALID_ARGUMENTS, nWSR, cputime, s⟩
    else do
      let (r, vH) ← readOver (Mem.alloc (s.nV * s.nV)) s.nV s.nV fH
      if r ≠ SUCCESSFUL_RETURN then .ok ⟨RET_UNABLE_TO_READ_FILE, nWSR, cputime, s⟩
      else match A with
      | none => .ub .nullDeref
      | some fA => do
        let (r, vA) ← readOver (Mem.alloc (s.nC * s.nV)) s.nC s.nV fA
        if r ≠ SUCCESSFUL_RETURN then .ok ⟨RET_UNABLE_TO_READ_FILE, nWSR, cputime, s⟩
        else do
          let v ← loadQPvectorsFromFile s.nV s.nC (some fg) lb ub lbA ubA
          match v.rv, v.g with
          | SUCCESSFUL_RETURN, some g => do
            let o ← hotstartNew sq fuel s (some vH) g (some vA) v.lb v.ub v.lbA v.ubA nWSR cputime gB gC
            .ok (if s.status = QPS_NOTINITIALISED ∨ s.status = QPS_PREPARINGAUXILIARYQP ∨ s.status = QPS_PERFORMINGHOMOTOPY then o
              else { o with s := o.s.freeMatrices })
          | _, _ => .ok ⟨RET_UNABLE_TO_READ_FILE, nWSR, cputime, s⟩
  | _, _ => .ok ⟨RET_INVALID_ARGUMENTS, nWSR, cputime, s⟩

end QPC
end
end QpOASES
