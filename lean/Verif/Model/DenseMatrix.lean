import Verif.Model.Blas
import Verif.Model.Normalise

namespace QpOASES

/-- Data members of `class DenseMatrix`, include/qpOASES/Matrices.hpp (`nRows`, `nCols`, `leaDim`, `val`),
row-major storage.  `valSize` is the number of elements of the array behind `val`; `owned` is
`needToFreeMemory()`. -/
structure DenseMatrix (K : Type) where
  nRows : Nat
  nCols : Nat
  leaDim : Nat
  val : Nat → K
  valSize : Nat
  owned : Bool

namespace DenseMatrix
variable {K : Type} [Field K] [LinearOrder K] [IsStrictOrderedRing K]

/-- `DenseMatrix::DenseMatrix( int_t m, int_t n, int_t lD, real_t* v )`, Matrices.hpp: shallow. -/
def ofArray (m n lD : Nat) (v : Nat → K) (size : Nat) : DenseMatrix K :=
  { nRows := m, nCols := n, leaDim := lD, val := v, valSize := size, owned := false }

/-- `DenseMatrix::duplicate`, src/Matrices.cpp:114-131, and `SymDenseMat::duplicateSym`, 609-627:
a `memcpy` of `nRows*nCols` elements (undefined if the source is shorter) or a shallow copy; the leading
dimension of the result is `nCols` in both cases. -/
def duplicate (M : DenseMatrix K) : Res (DenseMatrix K) :=
  if M.owned then
    if M.nRows * M.nCols ≤ M.valSize then
      .ok { nRows := M.nRows, nCols := M.nCols, leaDim := M.nCols, val := M.val,
            valSize := M.nRows * M.nCols, owned := true }
    else .ub .outOfBounds
  else .ok { nRows := M.nRows, nCols := M.nCols, leaDim := M.nCols, val := M.val,
             valSize := M.valSize, owned := false }

/-- `DenseMatrix::diag`, src/Matrices.cpp:133-137. -/
def diag (M : DenseMatrix K) (i : Nat) : K := M.val (i * (M.leaDim + 1))

/-- `DenseMatrix::isDiag`, src/Matrices.cpp:139-152.  (Both early `return`s give `BT_FALSE`.) -/
def isDiag (M : DenseMatrix K) : Bool :=
  if M.nRows ≠ M.nCols then false
  else loop (fun i b => loop (fun j b =>
      if decide (getAbs (M.val (i * M.leaDim + j)) > EPS) || decide (getAbs (M.val (j * M.leaDim + i)) > EPS)
      then false else b) i b) M.nRows true

/-- `DenseMatrix::getNorm`, src/Matrices.cpp:155-159. -/
def getNorm (sq : K → K) (M : DenseMatrix K) (type : Int) : K :=
  QpOASES.getNorm sq M.val (M.nCols * M.nRows) type

/-- `DenseMatrix::getRowNorm(rNum,type)`, src/Matrices.cpp:162-165. -/
def getRowNorm1 (sq : K → K) (M : DenseMatrix K) (rNum : Nat) (type : Int) : K :=
  QpOASES.getNorm sq (fun j => M.val (rNum * M.leaDim + j)) M.nCols type

/-- `DenseMatrix::getRowNorm(norm,type)`, src/Matrices.cpp:167-175. -/
def getRowNorm (sq : K → K) (M : DenseMatrix K) (norm : Nat → K) (type : Int) : ReturnValue × (Nat → K) :=
  (.SUCCESSFUL_RETURN,
    loop (fun i n => updA n i (QpOASES.getNorm sq (fun j => M.val (i * M.leaDim + j)) M.nCols type)) M.nRows norm)

/-- `DenseMatrix::getRow`, src/Matrices.cpp:177-205. -/
def getRow (M : DenseMatrix K) (rNum : Nat) (icols : Option Ix) (α : K) (row : Nat → K) : Nat → K :=
  match icols with
  | some ic => loop (fun i r => updA r i (scaleEntry α (M.val (rNum * M.leaDim + ic.number i)))) ic.len row
  | none => loop (fun i r => updA r i (scaleEntry α (M.val (rNum * M.leaDim + i)))) M.nCols row

/-- `DenseMatrix::getCol`, src/Matrices.cpp:208-223. -/
def getCol (M : DenseMatrix K) (cNum : Nat) (irows : Ix) (α : K) (col : Nat → K) : Nat → K :=
  loop (fun i c => updA c i (scaleEntry α (M.val (irows.number i * M.leaDim + cNum)))) irows.len col

/-- `DenseMatrix::times` without index lists, src/Matrices.cpp:304-316.  `getMax(1,.)` on integers. -/
def timesFull (M : DenseMatrix K) (xN : Nat) (α : K) (x : Nat → K) (xLD : Nat) (β : K) (y : Nat → K)
    (yLD : Nat) : Nat → K :=
  gemm true M.nRows xN M.nCols α M.val (max 1 M.nCols) x (max 1 xLD) β y (max 1 yLD)

/-- `DenseMatrix::transTimes` without index lists, src/Matrices.cpp:318-330. -/
def transTimesFull (M : DenseMatrix K) (xN : Nat) (α : K) (x : Nat → K) (xLD : Nat) (β : K) (y : Nat → K)
    (yLD : Nat) : Nat → K :=
  gemm false M.nCols xN M.nRows α M.val (max 1 M.nCols) x (max 1 xLD) β y (max 1 yLD)

/-- `DenseMatrix::times` with index lists, src/Matrices.cpp:332-514. -/
def times (M : DenseMatrix K) (irows : Ix) (icols : Option Ix) (xN : Nat) (α : K) (x : Nat → K) (xLD : Nat)
    (β : K) (y : Nat → K) (yLD : Nat) (yCompr : Bool) : Nat → K :=
  if yCompr then
    let y1 := scaleY β xN irows.len (fun k j => j + k * yLD) (fun k j => j + k * yLD) y
    match icols with
    | none => loop3 xN irows.len M.nCols (fun k j i y =>
        let row := irows.iSort j
        accY α y (row + k * yLD) (M.val (irows.number row * M.leaDim + i)) (x (k * xLD + i))) y1
    | some ic => loop3 xN irows.len ic.len (fun k j i y =>
        let row := irows.iSort j
        let col := ic.iSort i
        accY α y (row + k * yLD) (M.val (irows.number row * M.leaDim + ic.number col)) (x (k * xLD + col))) y1
  else
    let y1 := scaleY β xN irows.len (fun k j => irows.number j + k * yLD) (fun k j => j + k * yLD) y
    match icols with
    | none => loop3 xN irows.len M.nCols (fun k j i y =>
        let row := irows.number (irows.iSort j)
        accY α y (row + k * yLD) (M.val (row * M.leaDim + i)) (x (k * xLD + i))) y1
    | some ic => loop3 xN irows.len ic.len (fun k j i y =>
        let row := irows.number (irows.iSort j)
        let col := ic.iSort i
        accY α y (row + k * yLD) (M.val (row * M.leaDim + ic.number col)) (x (k * xLD + col))) y1

/-- `DenseMatrix::transTimes` with index lists, src/Matrices.cpp:516-569. -/
def transTimes (M : DenseMatrix K) (irows icols : Ix) (xN : Nat) (α : K) (x : Nat → K) (xLD : Nat)
    (β : K) (y : Nat → K) (yLD : Nat) : Nat → K :=
  let y1 := scaleY β xN icols.len (fun k j => j + k * yLD) (fun k j => j + k * yLD) y
  loop3 xN irows.len icols.len (fun k j i y =>
    let row := irows.iSort j
    let col := icols.iSort i
    accY α y (col + k * yLD) (M.val (irows.number row * M.leaDim + icols.number col)) (x (row + k * xLD))) y1

/-- `DenseMatrix::addToDiag`, src/Matrices.cpp:572-579. -/
def addToDiag (M : DenseMatrix K) (α : K) : ReturnValue × DenseMatrix K :=
  (.SUCCESSFUL_RETURN, { M with
    val := loop (fun i v => updA v (i * (M.leaDim + 1)) (v (i * (M.leaDim + 1)) + α)) (min M.nRows M.nCols) M.val })

/-- `DenseMatrix::full`, src/Matrices.cpp:588-593: `memcpy` of `nRows*nCols` elements into a new array
(elements behind it are shown as 0 here). -/
def full (M : DenseMatrix K) : Res (Nat → K) :=
  if M.nRows * M.nCols ≤ M.valSize then .ok (fun i => if i < M.nRows * M.nCols then M.val i else 0)
  else .ub .outOfBounds

/-- `SymDenseMat::bilinear`, src/Matrices.cpp:630-667. -/
def bilinear (M : DenseMatrix K) (icols : Ix) (xN : Nat) (x : Nat → K) (xLD : Nat) (y : Nat → K) (yLD : Nat) :
    Nat → K :=
  let y0 := loop2 xN xN (fun ii jj y => updA y (ii * yLD + jj) 0) y
  let Ax0 : Nat → K := loop (fun i a => updA a i 0) (icols.len * xN) (fun _ => 0)
  let Ax := loop2 icols.len icols.len (fun j i a =>
      let h := M.val (icols.number j * M.leaDim + icols.number i)
      loop (fun k a => updA a (j + k * icols.len) (a (j + k * icols.len) + h * x (k * xLD + icols.number i))) xN a) Ax0
  loop3 icols.len xN xN (fun ii jj kk y =>
      let col := icols.number ii
      updA y (kk + jj * yLD) (y (kk + jj * yLD) + x (col + jj * xLD) * Ax (ii + kk * icols.len))) y0

end DenseMatrix

/-- The triples `(irn, jcn, avals)` produced by `DenseMatrix::getSparseSubmatrix`, src/Matrices.cpp:225-302.
The three output arrays and the counter `numNonzeros` are written in lockstep and are modelled as one list
(in order of writing).  `only_lower_triangular` uses the row numbers for both indices. -/
def DenseMatrix.getSparseSubmatrix {K : Type} [Field K] [LinearOrder K] [IsStrictOrderedRing K]
    (M : DenseMatrix K) (nr : Nat) (rows : Nat → Nat) (nc : Nat) (cols : Nat → Nat) (rowoffset coloffset : Int)
    (onlyLower : Bool) : List (Int × Int × K) :=
  if onlyLower = false then
    loop2 nr nc (fun j i out =>
      let v := M.val (rows j * M.leaDim + cols i)
      if isZero v = false then out ++ [((j : Int) + rowoffset, (i : Int) + coloffset, v)] else out) []
  else
    loop (fun j out => loop (fun i out =>
      let v := M.val (rows j * M.leaDim + rows i)
      if isZero v = false then out ++ [((j : Int) + rowoffset, (i : Int) + coloffset, v)] else out) (j + 1) out) nr []

/-- The count returned by the same routine when called with null arrays (first call of the usual two-call
protocol), src/Matrices.cpp:236-247 and 269-280. -/
def DenseMatrix.countSparseSubmatrix {K : Type} [Field K] [LinearOrder K] [IsStrictOrderedRing K]
    (M : DenseMatrix K) (nr : Nat) (rows : Nat → Nat) (nc : Nat) (cols : Nat → Nat) (onlyLower : Bool) : Nat :=
  if onlyLower = false then
    loop2 nr nc (fun j i c => if isZero (M.val (rows j * M.leaDim + cols i)) = false then c + 1 else c) 0
  else
    loop (fun j c => loop (fun i c =>
      if isZero (M.val (rows j * M.leaDim + rows i)) = false then c + 1 else c) (j + 1) c) nr 0

end QpOASES
