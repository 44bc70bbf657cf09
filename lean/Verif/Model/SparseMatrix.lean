import Verif.Model.DenseMatrix

/-!
`SparseMatrix` (compressed columns), `SparseMatrixRow` (compressed rows) and `SymSparseMat` of
src/Matrices.cpp.  Column/row pointers and indices are natural numbers: the constructors from dense arrays
produce only such values and the constructors from given arrays require them.
-/
namespace QpOASES
open ReturnValue

variable {K : Type} [Field K] [LinearOrder K] [IsStrictOrderedRing K]

/-- `for (i = lo; i < hi; i++)` -/
def loopFrom {σ : Type} (lo hi : Nat) (f : Nat → σ → σ) (s : σ) : σ := loop (fun t s => f (lo + t) s) (hi - lo) s

/-- Checked read of an array of `size` elements whose contents are `f`. -/
def rd {α : Type} (size : Nat) (f : Nat → α) (i : Nat) : Res α := if i < size then .ok (f i) else .ub .outOfBounds

/-- Checked write. -/
def wr {α : Type} (size : Nat) (f : Nat → α) (i : Nat) (v : α) : Res (Nat → α) :=
  if i < size then .ok (updA f i v) else .ub .outOfBounds

/-- The search loop `for (i = lo; i < hi && idx[i] < r; i++);` with `n = hi - lo` iterations left. -/
def scan (idx : Nat → Nat) (r : Nat) : (n i : Nat) → Nat
  | 0, i => i
  | n+1, i => if idx i < r then scan idx r n (i+1) else i

/-- The merge loop used by `getCol`/`getRow`/`times`/`transTimes`, e.g. src/Matrices.cpp:926-932:
`while (i < hi && j < len) if (idx[i] == num(j)) {onEq; i++, j++} else if (idx[i] > num(j)) {onGt; j++} else i++;`
Returns the final `j` and state; running out of fuel is the outcome `diverge`. -/
def mergeLoop {σ : Type} (idx : Nat → Nat) (hi : Nat) (num : Nat → Nat) (len : Nat)
    (onEq : Nat → Nat → σ → σ) (onGt : Nat → σ → σ) : (fuel i j : Nat) → σ → Res (Nat × σ)
  | 0, _, _, _ => .ub .diverge
  | fuel+1, i, j, s =>
    if i < hi ∧ j < len then
      if idx i = num j then mergeLoop idx hi num len onEq onGt fuel (i+1) (j+1) (onEq i j s)
      else if num j < idx i then mergeLoop idx hi num len onEq onGt fuel i (j+1) (onGt j s)
      else mergeLoop idx hi num len onEq onGt fuel (i+1) j s
    else .ok (j, s)

/-- Ascending loop over possibly undefined bodies: `for (l = 0; l < n; l++)`. -/
def loopR {σ : Type} (f : Nat → σ → Res σ) : Nat → σ → Res σ
  | 0, s => .ok s
  | n+1, s => do f n (← loopR f n s)

/-- Data members of `class SparseMatrix`, include/qpOASES/Matrices.hpp: column pointers `jc`, row indices
`ir`, diagonal pointers `jd` (null before `createDiagInfo`), values `val`.  `size` is the number of
allocated elements of `ir` and `val`. -/
structure SparseMatrix (K : Type) where
  nRows : Nat
  nCols : Nat
  ir : Nat → Nat
  jc : Nat → Nat
  jd : Option (Nat → Nat)
  val : Nat → K
  size : Nat

/-- Data members of `class SparseMatrixRow`: row pointers `jr`, column indices `ic`. -/
structure SparseMatrixRow (K : Type) where
  nRows : Nat
  nCols : Nat
  jr : Nat → Nat
  ic : Nat → Nat
  jd : Option (Nat → Nat)
  val : Nat → K
  size : Nat

/-- State of the constructors from dense arrays: pointers, indices, values, counter. -/
structure Build (K : Type) where
  ptr : Nat → Nat
  idx : Nat → Nat
  val : Nat → K
  nnz : Nat

/-- Body of the inner loops src/Matrices.cpp:689-694 and 1441-1446: entry `a` at minor index `i` of major
index `j` is stored if it is not exactly zero (`isZero(.,0.0)`) or lies on the diagonal. -/
def buildEntry (a : K) (i j : Nat) (b : Build K) : Build K :=
  if isZero a 0 = false ∨ i = j then
    { b with idx := updA b.idx b.nnz i, val := updA b.val b.nnz a, nnz := b.nnz + 1 }
  else b

/-- Both loops and the final pointer, src/Matrices.cpp:685-696 and 1437-1448. -/
def build (nMaj nMin : Nat) (a : Nat → Nat → K) : Build K :=
  let b := loop (fun j b =>
      loop (fun i b => buildEntry (a j i) i j b) nMin { b with ptr := updA b.ptr j b.nnz })
    nMaj { ptr := fun _ => 0, idx := fun _ => 0, val := fun _ => 0, nnz := 0 }
  { b with ptr := updA b.ptr nMaj b.nnz }

namespace SparseMatrix

/-- `SparseMatrix::SparseMatrix(nr,nc,ld,v)`, src/Matrices.cpp:676-699. -/
def ofDense (nr nc ld : Nat) (v : Nat → K) : SparseMatrix K :=
  let b := build nc nr (fun j i => v (i * ld + j))
  { nRows := nr, nCols := nc, ir := b.idx, jc := b.ptr, jd := none, val := b.val, size := nr * nc }

/-- `SparseMatrix::duplicate`, src/Matrices.cpp:728-754 and `SymSparseMat::duplicateSym`, 2118-2145.  The
new arrays have exactly `length`, `nCols+1`, `length`, `nCols` elements. -/
def duplicate (M : SparseMatrix K) : Res (SparseMatrix K) := do
  let length := M.jc M.nCols
  let ir ← loopR (fun i a => do wr length a i (← rd M.size M.ir i)) length (fun _ => 0)
  let jc ← loopR (fun i a => do wr (M.nCols + 1) a i (← rd (M.nCols + 1) M.jc i)) (M.nCols + 1) (fun _ => 0)
  let val ← loopR (fun i a => do wr length a i (← rd M.size M.val i)) length (fun _ => 0)
  match M.jd with
  | some jd => do
    let jd' ← loopR (fun i a => do wr M.nCols a i (← rd M.nCols jd i)) M.nCols (fun _ => 0)
    .ok { nRows := M.nRows, nCols := M.nCols, ir := ir, jc := jc, jd := some jd', val := val, size := length }
  | none => .ok { nRows := M.nRows, nCols := M.nCols, ir := ir, jc := jc, jd := none, val := val, size := length }

/-- `SparseMatrix::setVal`, src/Matrices.cpp:757-764. -/
def setVal (M : SparseMatrix K) (newVal : Nat → K) : SparseMatrix K :=
  { M with val := loop (fun i v => updA v i (newVal i)) (M.jc M.nCols) M.val }

/-- `SparseMatrix::diag`, src/Matrices.cpp:767-777; `&&` keeps `ir[entry]` from being read outside. -/
def diag (M : SparseMatrix K) (i : Nat) : K :=
  match M.jd with
  | none => INFTY
  | some jd =>
    let entry := jd i
    if entry < M.jc (i+1) ∧ M.ir entry = i then M.val entry else 0

/-- `SparseMatrix::isDiag`, src/Matrices.cpp:780-797. -/
def isDiag (M : SparseMatrix K) : Bool :=
  if M.nCols ≠ M.nRows then false
  else loop (fun j b =>
    if M.jc (j+1) > M.jc j + 1 then false
    else if M.jc (j+1) = M.jc j + 1 ∧ M.ir (M.jc j) ≠ j then false else b) M.nCols true

/-- `SparseMatrix::getNorm`, src/Matrices.cpp:801-806. -/
def getNorm (sq : K → K) (M : SparseMatrix K) (type : Int) : K := QpOASES.getNorm sq M.val (M.jc M.nCols) type

/-- The element found by the search loop: `(i < jc[j+1] && ir[i] == rNum) ? val[i] : 0`. -/
def find (M : SparseMatrix K) (j rNum : Nat) (f : K → K) : K :=
  let i := scan M.ir rNum (M.jc (j+1) - M.jc j) (M.jc j)
  if i < M.jc (j+1) ∧ M.ir i = rNum then f (M.val i) else 0

/-- `SparseMatrix::getRowNorm(rNum,type)`, src/Matrices.cpp:809-834. -/
def getRowNorm1 (sq : K → K) (M : SparseMatrix K) (rNum : Nat) (type : Int) : K :=
  if type = 2 then sq (sumTo (fun j => M.find j rNum (fun v => v * v)) M.nCols)
  else if type = 1 then sumTo (fun j => M.find j rNum (fun v => getAbs v)) M.nCols
  else -INFTY

/-- `SparseMatrix::getRowNorm(norm,type)`, src/Matrices.cpp:836-863.  In case 1 the inner `for` has an empty
body (line 855), so the statement in line 856 is executed once per column with `i = jc[j+1]`; the accesses
`ir[i]`, `val[i]` are checked against the allocated size.  (`norm` has `nRows` elements.) -/
def getRowNorm (sq : K → K) (M : SparseMatrix K) (norm : Nat → K) (type : Int) : Res (ReturnValue × (Nat → K)) :=
  let n0 := loop (fun j n => updA n j 0) M.nRows norm
  if type = 2 then
    let n1 := loop (fun j n => loopFrom (M.jc j) (M.jc (j+1)) (fun i n => updA n (M.ir i) (n (M.ir i) + M.val i * M.val i)) n)
      M.nCols n0
    .ok (SUCCESSFUL_RETURN, loop (fun j n => updA n j (sq (n j))) M.nRows n1)
  else if type = 1 then do
    let n1 ← loopR (fun j n => do
        let i := max (M.jc j) (M.jc (j+1))
        let r ← rd M.size M.ir i
        let v ← rd M.size M.val i
        .ok (updA n r (n r + getAbs v))) M.nCols n0
    .ok (SUCCESSFUL_RETURN, n1)
  else .ok (RET_INVALID_ARGUMENTS, n0)

/-- `SparseMatrix::getRow`, src/Matrices.cpp:866-916.  Without a list, the branches for `alpha != 1` read
`icols->length` through the null pointer (lines 903, 909). -/
def getRow (M : SparseMatrix K) (rNum : Nat) (icols : Option Ix) (α : K) (row : Nat → K) : Res (Nat → K) :=
  match icols with
  | some ic => .ok (loop (fun k r =>
      updA r (ic.iSort k) (M.find (ic.number (ic.iSort k)) rNum (scaleEntry α))) ic.len row)
  | none =>
    if isEqual α 1 then .ok (loop (fun j r => updA r j (M.find j rNum (fun v => v))) M.nCols row)
    else .ub .nullDeref

/-- `SparseMatrix::getCol`, src/Matrices.cpp:919-955. -/
def getCol (M : SparseMatrix K) (cNum : Nat) (irows : Ix) (α : K) (col : Nat → K) : Res (Nat → K) := do
  let lo := M.jc cNum
  let hi := M.jc (cNum + 1)
  let (j, c) ← mergeLoop M.ir hi (fun j => irows.number (irows.iSort j)) irows.len
    (fun i j c => updA c (irows.iSort j) (scaleEntry α (M.val i)))
    (fun j c => updA c (irows.iSort j) 0) ((hi - lo) + irows.len + 1) lo 0 col
  .ok (loopFrom j irows.len (fun j c => updA c (irows.iSort j) 0) c)

/-- `SparseMatrix::times` without lists, src/Matrices.cpp:1051-1086. -/
def timesFull (M : SparseMatrix K) (xN : Nat) (α : K) (x : Nat → K) (xLD : Nat) (β : K) (y : Nat → K) (yLD : Nat) :
    Nat → K :=
  loop2 xN M.nCols (fun k j y =>
      loopFrom (M.jc j) (M.jc (j+1)) (fun i y => accY α y (M.ir i + k * yLD) (M.val i) (x (j + k * xLD))) y)
    (scaleY β xN M.nRows (fun k j => j + k * yLD) (fun k j => j + k * yLD) y)

/-- `SparseMatrix::transTimes` without lists, src/Matrices.cpp:1089-1124. -/
def transTimesFull (M : SparseMatrix K) (xN : Nat) (α : K) (x : Nat → K) (xLD : Nat) (β : K) (y : Nat → K)
    (yLD : Nat) : Nat → K :=
  loop2 xN M.nCols (fun k j y =>
      loopFrom (M.jc j) (M.jc (j+1)) (fun i y => accY α y (j + k * yLD) (M.val i) (x (M.ir i + k * xLD))) y)
    (scaleY β xN M.nCols (fun k j => j + k * yLD) (fun k j => j + k * yLD) y)

/-- One column of the accumulation into `ytmp`, src/Matrices.cpp:1181-1188, 1197-1211 (and 1222-1225,
1234-1243): `col` indexes `x`, `j` is the column of the matrix.  The column is skipped if its entries of `x`
are zero up to the tolerance of `isZero`. -/
def addCol (M : SparseMatrix K) (xN : Nat) (x : Nat → K) (xLD : Nat) (col j : Nat) (ytmp : Nat → K) : Nat → K :=
  if xN = 1 then
    if isZero (x col) then ytmp
    else loopFrom (M.jc j) (M.jc (j+1)) (fun i t => updA t (M.ir i) (t (M.ir i) + M.val i * x col)) ytmp
  else
    let xmax := loop (fun k m => getMax m (getAbs (x (k * xLD + col)))) xN 0
    if isZero xmax then ytmp
    else loopFrom (M.jc j) (M.jc (j+1)) (fun i t =>
      loop (fun k t => updA t (k * M.nRows + M.ir i) (t (k * M.nRows + M.ir i) + M.val i * x (k * xLD + col))) xN t) ytmp

/-- The accumulation of `A·X` into the zero-initialised full-length copy `ytmp`, src/Matrices.cpp:1175-1247.
Without a column list and with `xN != 1` the temporary array is released inside the loop (line 1244), so a
second column is undefined behaviour. -/
def accumulate (M : SparseMatrix K) (icols : Option Ix) (xN : Nat) (x : Nat → K) (xLD : Nat) : Res (Nat → K) :=
  match icols with
  | some ic => .ok (loop (fun l t => M.addCol xN x xLD (ic.iSort l) (ic.number (ic.iSort l)) t) ic.len (fun _ => 0))
  | none =>
    if xN = 1 then .ok (loop (fun col t => M.addCol xN x xLD col col t) M.nCols (fun _ => 0))
    else if M.nCols ≤ 1 then .ok (loop (fun col t => M.addCol xN x xLD col col t) M.nCols (fun _ => 0))
    else .ub .doubleFree

/-- `SparseMatrix::times` with lists, src/Matrices.cpp:1127-1290. -/
def times (M : SparseMatrix K) (irows : Ix) (icols : Option Ix) (xN : Nat) (α : K) (x : Nat → K) (xLD : Nat)
    (β : K) (y : Nat → K) (yLD : Nat) (yCompr : Bool) : Res (Nat → K) :=
  if isEqual α 0 then
    .ok (if yCompr then scaleY β xN irows.len (fun k j => j + k * yLD) (fun k j => j + k * yLD) y
      else scaleY β xN irows.len (fun k j => irows.number j + k * yLD) (fun k j => irows.number j + k * yLD) y)
  else do
    let ytmp ← M.accumulate icols xN x xLD
    let a : Nat → Nat → K := fun k j => α * ytmp (irows.number j + k * M.nRows)
    .ok (if yCompr then
      if isZero β then loop2 xN irows.len (fun k j y => updA y (j + k * yLD) (a k j)) y
      else if isEqual β 1 then loop2 xN irows.len (fun k j y => updA y (j + k * yLD) (y (j + k * yLD) + a k j)) y
      else if isEqual β (-1) then loop2 xN irows.len (fun k j y => updA y (j + k * yLD) (a k j - y (j + k * yLD))) y
      else loop2 xN irows.len (fun k j y => updA y (j + k * yLD) (a k j + β * y (j + k * yLD))) y
    else
      if isZero β then loop2 xN irows.len (fun k j y => updA y (irows.number j + k * yLD) (a k j)) y
      else if isEqual β 1 then loop2 xN irows.len (fun k j y => updA y (irows.number j + k * yLD) (a k j + y (j + k * yLD))) y
      else if isEqual β (-1) then loop2 xN irows.len (fun k j y => updA y (irows.number j + k * yLD) (a k j - y (j + k * yLD))) y
      else loop2 xN irows.len (fun k j y => updA y (irows.number j + k * yLD) (a k j + β * y (j + k * yLD))) y)

/-- `SparseMatrix::transTimes` with lists, src/Matrices.cpp:1293-1338 (`y` advances by `yLD` per vector). -/
def transTimes (M : SparseMatrix K) (irows icols : Ix) (xN : Nat) (α : K) (x : Nat → K) (xLD : Nat)
    (β : K) (y : Nat → K) (yLD : Nat) : Nat → K :=
  let y1 := scaleY β xN icols.len (fun k j => j + k * yLD) (fun k j => j + k * yLD) y
  if isEqual α 0 then y1
  else loop (fun k y =>
    let xtmp : Nat → K := loop (fun i t => updA t (irows.number i) (x (k * xLD + i))) irows.len (fun _ => 0)
    loop (fun l y =>
      let col := icols.iSort l
      let j := icols.number col
      let yadd := loopFrom (M.jc j) (M.jc (j+1)) (fun i s => s + M.val i * xtmp (M.ir i)) 0
      updA y (col + k * yLD) (y (col + k * yLD) + α * yadd)) icols.len y) xN y1

/-- `SparseMatrix::createDiagInfo`, src/Matrices.cpp:1364-1379. -/
def createDiagInfo (M : SparseMatrix K) : SparseMatrix K :=
  match M.jd with
  | some _ => M
  | none => { M with jd := some (loop (fun j d =>
      updA d j (scan M.ir j (M.jc (j+1) - M.jc j) (M.jc j))) M.nCols (fun _ => 0)) }

/-- Loop of `addToDiag`, src/Matrices.cpp:1351-1357, with the reads and writes of `ir[jd[i]]`, `val[jd[i]]`
checked; `n` iterations starting at `i`. -/
def addDiagLoop (size : Nat) (idx jd : Nat → Nat) (α : K) : (n i : Nat) → (Nat → K) → Res (ReturnValue × (Nat → K))
  | 0, _, v => .ok (SUCCESSFUL_RETURN, v)
  | n+1, i, v => do
    let r ← rd size idx (jd i)
    if r = i then addDiagLoop size idx jd α n (i+1) (updA v (jd i) (v (jd i) + α))
    else .ok (RET_NO_DIAGONAL_AVAILABLE, v)

/-- `SparseMatrix::addToDiag`, src/Matrices.cpp:1342-1361. -/
def addToDiag (M : SparseMatrix K) (α : K) : Res (ReturnValue × SparseMatrix K) :=
  match M.jd with
  | none => .ok (RET_DIAGONAL_NOT_INITIALISED, M)
  | some jd =>
    if isZero α then .ok (SUCCESSFUL_RETURN, M)
    else do
      let (r, v) ← addDiagLoop M.size M.ir jd α (min M.nRows M.nCols) 0 M.val
      .ok (r, { M with val := v })

/-- `SparseMatrix::full`, src/Matrices.cpp:1383-1396. -/
def full (M : SparseMatrix K) : Nat → K :=
  loop (fun j v => loopFrom (M.jc j) (M.jc (j+1)) (fun i v => updA v (M.ir i * M.nCols + j) (M.val i)) v) M.nCols
    (loop (fun i v => updA v i 0) (M.nCols * M.nRows) (fun _ => 0))

/-- The triples produced by `SparseMatrix::getSparseSubmatrix`, src/Matrices.cpp:957-1049, as one list in order
of writing.  `rowNumberInv` has `-1` for rows that are not selected. -/
def getSparseSubmatrix (M : SparseMatrix K) (nr : Nat) (rows : Nat → Nat) (nc : Nat) (cols : Nat → Nat)
    (rowoffset coloffset : Int) (onlyLower : Bool) : List (Int × Int × K) :=
  let inv : Nat → Int := loop (fun (i : Nat) f => updA f (rows i) (i : Int)) nr (fun _ => (-1 : Int))
  loop (fun k out =>
    let j := cols k
    loopFrom (M.jc j) (M.jc (j+1)) (fun i out =>
      let l := inv (M.ir i)
      if (if onlyLower then l ≥ (k : Int) else l ≥ 0) then out ++ [(l + rowoffset, (k : Int) + coloffset, M.val i)]
      else out) out) nc []

/-- The count returned by the same routine when called with null arrays, src/Matrices.cpp:976-988, 1010-1022. -/
def countSparseSubmatrix (M : SparseMatrix K) (nr : Nat) (rows : Nat → Nat) (nc : Nat) (cols : Nat → Nat) (onlyLower : Bool) : Nat :=
  let inv : Nat → Int := loop (fun (i : Nat) f => updA f (rows i) (i : Int)) nr (fun _ => (-1 : Int))
  loop (fun k c =>
    let j := cols k
    loopFrom (M.jc j) (M.jc (j+1)) (fun i c =>
      let l := inv (M.ir i)
      if (if onlyLower then l ≥ (k : Int) else l ≥ 0) then c + 1 else c) c) nc 0

/-- `SymSparseMat::bilinear`, src/Matrices.cpp:2148-2194.  The merge loop has no action for `ir[idx] > row`. -/
def bilinear (M : SparseMatrix K) (icols : Ix) (xN : Nat) (x : Nat → K) (xLD : Nat) (y : Nat → K) (yLD : Nat) :
    Res (ReturnValue × (Nat → K)) :=
  match M.jd with
  | none => .ok (RET_DIAGONAL_NOT_INITIALISED, y)
  | some jd => do
    let y0 := loop (fun i y => updA y i 0) (xN * xN) y
    let num := fun k => icols.number (icols.iSort k)
    let y1 ← loopR (fun l y => do
      let col := num l
      let (_, y) ← mergeLoop M.ir (M.jc (col+1)) num icols.len (fun idx k y =>
          let row := num k
          if row = col then
            loop (fun i y => loopFrom i xN (fun j y =>
              updA y (i * yLD + j) (y (i * yLD + j) + M.val idx * x (i * xLD + col) * x (j * xLD + col))) y) xN y
          else
            loop (fun i y => loopFrom i xN (fun j y =>
              updA y (i * yLD + j) (y (i * yLD + j) + M.val idx *
                (x (i * xLD + col) * x (j * xLD + row) + x (i * xLD + row) * x (j * xLD + col)))) y) xN y)
        (fun _ y => y) ((M.jc (col+1) - jd col) + icols.len + 1) (jd col) 0 y
      .ok y) icols.len y0
    .ok (SUCCESSFUL_RETURN,
      loop (fun i y => loopFrom i xN (fun j y => updA y (j * yLD + i) (y (i * yLD + j))) y) xN y1)

end SparseMatrix

namespace SparseMatrixRow

/-- `SparseMatrixRow::SparseMatrixRow(nr,nc,ld,v)`, src/Matrices.cpp:1429-1451. -/
def ofDense (nr nc ld : Nat) (v : Nat → K) : SparseMatrixRow K :=
  let b := build nr nc (fun j i => v (j * ld + i))
  { nRows := nr, nCols := nc, jr := b.ptr, ic := b.idx, jd := none, val := b.val, size := nr * nc }

/-- `SparseMatrixRow::getSparseSubmatrix`, src/Matrices.cpp:1684-1693: an error message and nothing else. -/
def getSparseSubmatrix (_M : SparseMatrixRow K) : ReturnValue × Option (List (Int × Int × K)) := (RET_NOT_YET_IMPLEMENTED, none)

/-- `SparseMatrixRow::duplicate`, src/Matrices.cpp:1480-1506: the bounds of the loops over `jr` and `ic` are
exchanged (lines 1491, 1492), `jd` has `nRows` elements but `nCols` are copied. -/
def duplicate (M : SparseMatrixRow K) : Res (SparseMatrixRow K) := do
  let length := M.jr M.nRows
  let jr ← loopR (fun i a => do wr (M.nRows + 1) a i (← rd (M.nRows + 1) M.jr i)) length (fun _ => 0)
  let ic ← loopR (fun i a => do wr length a i (← rd M.size M.ic i)) (M.nCols + 1) (fun _ => 0)
  let val ← loopR (fun i a => do wr length a i (← rd M.size M.val i)) length (fun _ => 0)
  match M.jd with
  | some jd => do
    let jd' ← loopR (fun i a => do wr M.nRows a i (← rd M.nRows jd i)) M.nCols (fun _ => 0)
    .ok { nRows := M.nRows, nCols := M.nCols, jr := jr, ic := ic, jd := some jd', val := val, size := length }
  | none => .ok { nRows := M.nRows, nCols := M.nCols, jr := jr, ic := ic, jd := none, val := val, size := length }

/-- `SparseMatrixRow::diag`, src/Matrices.cpp:1510-1520. -/
def diag (M : SparseMatrixRow K) (i : Nat) : K :=
  match M.jd with
  | none => INFTY
  | some jd =>
    let entry := jd i
    if entry < M.jr (i+1) ∧ M.ic entry = i then M.val entry else 0

/-- `SparseMatrixRow::isDiag`, src/Matrices.cpp:1523-1540. -/
def isDiag (M : SparseMatrixRow K) : Bool :=
  if M.nCols ≠ M.nRows then false
  else loop (fun j b =>
    if M.jr (j+1) > M.jr j + 1 then false
    else if M.jr (j+1) = M.jr j + 1 ∧ M.ic (M.jr j) ≠ j then false else b) M.nRows true

/-- `SparseMatrixRow::getNorm`, src/Matrices.cpp:1544-1550. -/
def getNorm (sq : K → K) (M : SparseMatrixRow K) (type : Int) : K := QpOASES.getNorm sq M.val (M.jr M.nRows) type

/-- `SparseMatrixRow::getRowNorm(rNum,type)`, src/Matrices.cpp:1553-1557. -/
def getRowNorm1 (sq : K → K) (M : SparseMatrixRow K) (rNum : Nat) (type : Int) : K :=
  QpOASES.getNorm sq (fun i => M.val (M.jr rNum + i)) (M.jr (rNum+1) - M.jr rNum) type

/-- `SparseMatrixRow::getRowNorm(norm,type)`, src/Matrices.cpp:1560-1569. -/
def getRowNorm (sq : K → K) (M : SparseMatrixRow K) (norm : Nat → K) (type : Int) : ReturnValue × (Nat → K) :=
  (SUCCESSFUL_RETURN, loop (fun i n => updA n i (M.getRowNorm1 sq i type)) M.nRows norm)

/-- The element found by the search loop in row `j`. -/
def find (M : SparseMatrixRow K) (j cNum : Nat) (f : K → K) : K :=
  let i := scan M.ic cNum (M.jr (j+1) - M.jr j) (M.jr j)
  if i < M.jr (j+1) ∧ M.ic i = cNum then f (M.val i) else 0

/-- `SparseMatrixRow::getRow`, src/Matrices.cpp:1572-1626. -/
def getRow (M : SparseMatrixRow K) (rNum : Nat) (icols : Option Ix) (α : K) (row : Nat → K) : Res (Nat → K) :=
  let lo := M.jr rNum
  let hi := M.jr (rNum + 1)
  match icols with
  | some ic => do
    let (j, c) ← mergeLoop M.ic hi (fun j => ic.number (ic.iSort j)) ic.len
      (fun i j c => updA c (ic.iSort j) (scaleEntry α (M.val i)))
      (fun j c => updA c (ic.iSort j) 0) ((hi - lo) + ic.len + 1) lo 0 row
    .ok (loopFrom j ic.len (fun j c => updA c (ic.iSort j) 0) c)
  | none => .ok (loopFrom lo hi (fun j r => updA r (M.ic j) (scaleEntry α (M.val j)))
      (loop (fun i r => updA r i 0) M.nCols row))

/-- `SparseMatrixRow::getCol`, src/Matrices.cpp:1629-1682.  Without a list the loop runs over `nCols` rows
(line 1663; `jr` has `nRows+1` elements), and for `alpha != 1` the null pointer is dereferenced. -/
def getCol (M : SparseMatrixRow K) (cNum : Nat) (irows : Option Ix) (α : K) (col : Nat → K) : Res (Nat → K) :=
  match irows with
  | some ix => .ok (loop (fun k r =>
      updA r (ix.iSort k) (M.find (ix.number (ix.iSort k)) cNum (scaleEntry α))) ix.len col)
  | none =>
    if isEqual α 1 then loopR (fun j r => do
      let _ ← rd (M.nRows + 1) M.jr (j+1)
      .ok (updA r j (M.find j cNum (fun v => v)))) M.nCols col
    else .ub .nullDeref

/-- `SparseMatrixRow::times` without lists, src/Matrices.cpp:1695-1730. -/
def timesFull (M : SparseMatrixRow K) (xN : Nat) (α : K) (x : Nat → K) (xLD : Nat) (β : K) (y : Nat → K) (yLD : Nat) :
    Nat → K :=
  loop2 xN M.nRows (fun k j y =>
      loopFrom (M.jr j) (M.jr (j+1)) (fun i y => accY α y (j + k * yLD) (M.val i) (x (M.ic i + k * xLD))) y)
    (scaleY β xN M.nRows (fun k j => j + k * yLD) (fun k j => j + k * yLD) y)

/-- `SparseMatrixRow::transTimes` without lists, src/Matrices.cpp:1733-1768. -/
def transTimesFull (M : SparseMatrixRow K) (xN : Nat) (α : K) (x : Nat → K) (xLD : Nat) (β : K) (y : Nat → K)
    (yLD : Nat) : Nat → K :=
  loop2 xN M.nRows (fun k i y =>
      loopFrom (M.jr i) (M.jr (i+1)) (fun j y => accY α y (M.ic j + k * yLD) (M.val j) (x (i + k * xLD))) y)
    (scaleY β xN M.nCols (fun k j => j + k * yLD) (fun k j => j + k * yLD) y)

/-- `SparseMatrixRow::times` with lists, src/Matrices.cpp:1771-1964.  In the branch `yCompr == BT_FALSE`,
`icols != 0` the result is accumulated at the position in the list instead of the row number (line 1924). -/
def times (M : SparseMatrixRow K) (irows : Ix) (icols : Option Ix) (xN : Nat) (α : K) (x : Nat → K) (xLD : Nat)
    (β : K) (y : Nat → K) (yLD : Nat) (yCompr : Bool) : Res (Nat → K) :=
  let y1 := if yCompr then scaleY β xN irows.len (fun k j => j + k * yLD) (fun k j => j + k * yLD) y
    else scaleY β xN irows.len (fun k j => irows.number j + k * yLD) (fun k j => j + k * yLD) y
  match icols with
  | none => .ok (loop (fun l y =>
      let srt := irows.iSort l
      let row := irows.number srt
      let p := if yCompr then srt else row
      loopFrom (M.jr row) (M.jr (row+1)) (fun j y =>
        loop (fun k y => accY α y (k * yLD + p) (M.val j) (x (k * xLD + M.ic j))) xN y) y) irows.len y1)
  | some ic => loopR (fun l y => do
      let srt := irows.iSort l
      let row := irows.number srt
      let (_, y) ← mergeLoop M.ic (M.jr (row+1)) (fun i => ic.number (ic.iSort i)) ic.len
        (fun j i y => loop (fun k y => accY α y (k * yLD + srt) (M.val j) (x (k * xLD + ic.iSort i))) xN y)
        (fun _ y => y) ((M.jr (row+1) - M.jr row) + ic.len + 1) (M.jr row) 0 y
      .ok y) irows.len y1

/-- `SparseMatrixRow::transTimes` with lists, src/Matrices.cpp:1967-2038. -/
def transTimes (M : SparseMatrixRow K) (irows icols : Ix) (xN : Nat) (α : K) (x : Nat → K) (xLD : Nat)
    (β : K) (y : Nat → K) (yLD : Nat) : Res (Nat → K) :=
  loopR (fun l y => do
      let srt := irows.iSort l
      let row := irows.number srt
      let (_, y) ← mergeLoop M.ic (M.jr (row+1)) (fun i => icols.number (icols.iSort i)) icols.len
        (fun j i y => loop (fun k y => accY α y (k * yLD + icols.iSort i) (M.val j) (x (k * xLD + srt))) xN y)
        (fun _ y => y) ((M.jr (row+1) - M.jr row) + icols.len + 1) (M.jr row) 0 y
      .ok y) irows.len
    (scaleY β xN icols.len (fun k j => j + k * yLD) (fun k j => j + k * yLD) y)

/-- `SparseMatrixRow::createDiagInfo`, src/Matrices.cpp:2064-2079. -/
def createDiagInfo (M : SparseMatrixRow K) : SparseMatrixRow K :=
  match M.jd with
  | some _ => M
  | none => { M with jd := some (loop (fun i d =>
      updA d i (scan M.ic i (M.jr (i+1) - M.jr i) (M.jr i))) M.nRows (fun _ => 0)) }

/-- `SparseMatrixRow::addToDiag`, src/Matrices.cpp:2042-2061. -/
def addToDiag (M : SparseMatrixRow K) (α : K) : Res (ReturnValue × SparseMatrixRow K) :=
  match M.jd with
  | none => .ok (RET_DIAGONAL_NOT_INITIALISED, M)
  | some jd =>
    if isZero α then .ok (SUCCESSFUL_RETURN, M)
    else do
      let (r, v) ← SparseMatrix.addDiagLoop M.size M.ic jd α (min M.nRows M.nCols) 0 M.val
      .ok (r, { M with val := v })

/-- `SparseMatrixRow::full`, src/Matrices.cpp:2082-2095. -/
def full (M : SparseMatrixRow K) : Nat → K :=
  loop (fun i v => loopFrom (M.jr i) (M.jr (i+1)) (fun j v => updA v (M.ic j + i * M.nCols) (M.val j)) v) M.nRows
    (loop (fun i v => updA v i 0) (M.nCols * M.nRows) (fun _ => 0))

end SparseMatrixRow
end QpOASES
