import Verif.Model.Constants

/-!
Text and binary file input/output of src/Utils.cpp.
-/
namespace QpOASES
open ReturnValue

/-- The unread part of a text file as `fscanf` sees it: `some v` is a token that parses as a number,
`none` a token that does not.  White space between tokens is skipped by the conversions and by the
trailing blank of the format strings. -/
abbrev TextFile (α : Type) := List (Option α)

/-- Result of `fscanf( file, "%lf ", &x )`: return value (`-1` is `EOF`), new value of `x`, rest of the
file.  C11 7.21.6.2: at end of file `EOF` is returned and `x` is not assigned; at a matching failure `0`
is returned, `x` is not assigned and the offending text is left unread. -/
def fscanf {α : Type} (x : Option α) : TextFile α → Int × Option α × TextFile α
  | [] => (-1, x, [])
  | none :: f => (0, x, none :: f)
  | some v :: f => (1, some v, f)

/-- State of the reading loop: destination array, the local variable `float_data` (`none` =
uninitialised), unread file. -/
structure ReadState (α : Type) where
  data : Mem α
  x : Option α
  file : TextFile α

/-- Loop of `readFromFile( real_t*, ... )`, src/Utils.cpp:292-309, with the two nested loops over
`i<nrow`, `j<ncol` written as one loop over `k = i*ncol + j`.  `todo` numbers are left to read, the next
one goes to `data[k]`. -/
def readLoop {α : Type} : (todo k : Nat) → ReadState α → Res (ReturnValue × Mem α)
  | 0, _, s => .ok (SUCCESSFUL_RETURN, s.data)
  | todo+1, k, s =>
    let (n, x, file) := fscanf s.x s.file
    if n = 0 then .ok (RET_UNABLE_TO_READ_FILE, s.data)
    else match x with
      | none => .ub .uninitialised
      | some v => do
        let d ← s.data.set k v
        readLoop todo (k+1) ⟨d, some v, file⟩

/-- `readFromFile( real_t* data, nrow, ncol, datafilename )`, src/Utils.cpp:273-321.  `file = none`: the
file cannot be opened.  Messages are not modelled here. -/
def readFromFile {α : Type} (data : Mem α) (nrow ncol : Nat) (file : Option (TextFile α)) :
    Res (ReturnValue × Mem α) :=
  match file with
  | none => .ok (RET_UNABLE_TO_OPEN_FILE, data)
  | some f => readLoop (nrow * ncol) 0 ⟨data, none, f⟩

/-- `readFromFile( real_t* data, n, datafilename )`, src/Utils.cpp:327-332 -/
def readVectorFromFile {α : Type} (data : Mem α) (n : Nat) (file : Option (TextFile α)) :
    Res (ReturnValue × Mem α) := readFromFile data n 1 file

/-- Loop of `readFromFile( int_t*, ... )`, src/Utils.cpp:357-370: `fscanf` assigns to `data[i]` directly. -/
def readIntLoop : (todo k : Nat) → Mem Int → TextFile Int → Res (ReturnValue × Mem Int)
  | 0, _, d, _ => .ok (SUCCESSFUL_RETURN, d)
  | todo+1, k, d, f =>
    match f with
    | [] => readIntLoop todo (k+1) d []
    | none :: _ => .ok (RET_UNABLE_TO_READ_FILE, d)
    | some v :: f => do
      let d ← d.set k v
      readIntLoop todo (k+1) d f

/-- `readFromFile( int_t* data, n, datafilename )`, src/Utils.cpp:339-382 -/
def readIntFromFile (data : Mem Int) (n : Nat) (file : Option (TextFile Int)) :
    Res (ReturnValue × Mem Int) :=
  match file with
  | none => .ok (RET_UNABLE_TO_OPEN_FILE, data)
  | some f => readIntLoop n 0 data f

/-- Data written by one row of `writeIntoFile( const real_t*, ... )`, src/Utils.cpp:422-425: the numbers
`data[i*ncol+j]` separated by blanks (white space is not represented, see `TextFile`).  Conversion to 17
significant digits is taken to be exact. -/
def writeRow {α : Type} (data : Mem α) (i ncol : Nat) : (j n : Nat) → Res (List (Option α))
  | _, 0 => .ok []
  | j, n+1 => do
    let v ← data.get ((i*ncol + j : Nat) : Int)
    let rest ← writeRow data i ncol (j+1) n
    pure (some v :: rest)

/-- Row loop of `writeIntoFile`, src/Utils.cpp:420-426 -/
def writeRows {α : Type} (data : Mem α) (ncol : Nat) : (i n : Nat) → Res (List (Option α))
  | _, 0 => .ok []
  | i, n+1 => do
    let r ← writeRow data i ncol 0 ncol
    let rest ← writeRows data ncol (i+1) n
    pure (r ++ rest)

/-- `writeIntoFile( const real_t* data, nrow, ncol, datafilename, append )`, src/Utils.cpp:388-438.
`old` is the previous content (`none`: the file cannot be opened for writing). -/
def writeIntoFile {α : Type} (data : Mem α) (nrow ncol : Nat) (old : Option (TextFile α)) (append : Bool) :
    Res (ReturnValue × Option (TextFile α)) :=
  match old with
  | none => .ok (RET_UNABLE_TO_OPEN_FILE, none)
  | some f => do
    let t ← writeRows data ncol 0 nrow
    pure (SUCCESSFUL_RETURN, some ((if append then f else []) ++ t))

/-! ### MAT files -/

/-- Items of a binary file: the fixed-size header (`MatMatrixHeader`, include/qpOASES/Types.hpp:329-335),
characters, doubles. -/
inductive MatItem (α : Type) where
  | header (numericFormat nRows nCols imaginaryPart nCharName : Int)
  | char (c : Char)
  | nul
  | real (v : α)
  deriving DecidableEq

/-- A binary output file: what has been written, and how many more items the device accepts. -/
structure MatFile (α : Type) where
  items : List (MatItem α)
  room : Nat

/-- `fwrite( items )`: writes as many items as there is room for and returns their number. -/
def MatFile.fwrite {α : Type} (f : MatFile α) (xs : List (MatItem α)) : Nat × MatFile α :=
  (min xs.length f.room, ⟨f.items ++ xs.take f.room, f.room - xs.length⟩)

/-- Inner loop of `writeIntoMatFile`, src/Utils.cpp:539-544: entries `jj, jj+1, ...` of column `ii`.
The Boolean is `false` after a failed write (the function then returns). -/
def matCol {α : Type} (data : Mem α) (nCols ii : Nat) : (jj n : Nat) → MatFile α → Res (Bool × MatFile α)
  | _, 0, f => .ok (true, f)
  | jj, n+1, f => do
    let v ← data.get ((jj*nCols + ii : Nat) : Int)
    let (k, f) := f.fwrite [.real v]
    if k < 1 then pure (false, f) else matCol data nCols ii (jj+1) n f

/-- Outer loop of `writeIntoMatFile`, src/Utils.cpp:538-544 -/
def matCols {α : Type} (data : Mem α) (nRows nCols : Nat) : (ii n : Nat) → MatFile α → Res (Bool × MatFile α)
  | _, 0, f => .ok (true, f)
  | ii, n+1, f => do
    let (b, f) ← matCol data nCols ii 0 nRows f
    if b then matCols data nRows nCols (ii+1) n f else pure (false, f)

/-- `writeIntoMatFile( FILE*, const real_t* data, nRows, nCols, name )`, src/Utils.cpp:507-553.
Null pointers are `none`. -/
def writeIntoMatFile {α : Type} (matFile : Option (MatFile α)) (data : Option (Mem α)) (nRows nCols : Int)
    (name : Option (List Char)) : Res (ReturnValue × Option (MatFile α)) :=
  match matFile, data, name with
  | some f, some d, some s =>
    if nRows < 0 ∨ nCols < 0 then .ok (RET_INVALID_ARGUMENTS, some f)
    else do
      let (k, f) := f.fwrite [.header 0 nRows nCols 0 (s.length + 1)]
      if k < 1 then pure (RET_UNABLE_TO_WRITE_FILE, some f) else
      let (k, f) := f.fwrite (s.map .char ++ [.nul])
      if k < 1 then pure (RET_UNABLE_TO_WRITE_FILE, some f) else
      let (b, f) ← matCols d nRows.toNat nCols.toNat 0 nCols.toNat f
      pure (if b then SUCCESSFUL_RETURN else RET_UNABLE_TO_WRITE_FILE, some f)
  | f, _, _ => .ok (RET_INVALID_ARGUMENTS, f)

/-- `writeIntoMatFile( FILE*, const int_t* data, ... )`, src/Utils.cpp:559-575, for nonnegative
dimensions: converts the array (`cast`) and calls the function above. -/
def writeIntIntoMatFile {α : Type} (cast : Int → α) (matFile : Option (MatFile α)) (data : Mem Int)
    (nRows nCols : Nat) (name : Option (List Char)) : Res (ReturnValue × Option (MatFile α)) := do
  let d ← forUp (fun i d => do
      let v ← data.get i
      d.set i (cast v)) 0 (nRows * nCols) (Mem.alloc (nRows * nCols))
  writeIntoMatFile matFile (some d) nRows nCols name

end QpOASES
