import Verif.Model.Basic
import Verif.Model.ReturnValue

namespace QpOASES

/-- Data members of `class Indexlist`, include/qpOASES/Indexlist.hpp:180-187.
The pointers `number`, `iSort` are null exactly if `physicallength = 0`; an array of size 0 has no
readable element, so null and size 0 need not be distinguished. -/
structure Indexlist where
  number : Mem Int
  iSort : Mem Int
  length : Nat
  physicallength : Nat

namespace Indexlist

/-- `Indexlist::init`, src/Indexlist.cpp:108-126.  -/
def init (s : Indexlist) (n : Int) : ReturnValue × Indexlist :=
  if n < 0 then (.RET_INVALID_ARGUMENTS, s)
  else (.SUCCESSFUL_RETURN,
    { number := Mem.alloc n.toNat, iSort := Mem.alloc n.toNat, length := 0, physicallength := n.toNat })

/-- `Indexlist::Indexlist( )`, src/Indexlist.cpp:46-56: null arrays, lengths 0. -/
def empty : Indexlist := { number := Mem.alloc 0, iSort := Mem.alloc 0, length := 0, physicallength := 0 }

/-- Bisection loop of `Indexlist::findInsert`, src/Indexlist.cpp:304-309.  `fuel` bounds the number of
iterations; exhausting it is the distinct outcome `diverge`. -/
def bisect (s : Indexlist) (i : Int) : (fuel : Nat) → (fst lst : Nat) → Res Nat
  | 0, _, _ => .ub .diverge
  | fuel+1, fst, lst =>
    if (fst : Int) < (lst : Int) - 1 then do
      let mid := (fst + lst) / 2
      let v ← s.number.get (← s.iSort.get mid)
      if i ≥ v then bisect s i fuel mid lst else bisect s i fuel fst mid
    else .ok fst

/-- `Indexlist::findInsert`, src/Indexlist.cpp:295-312. -/
def findInsert (s : Indexlist) (i : Int) : Res Int :=
  if s.length = 0 then .ok (-1)
  else do
    let v0 ← s.number.get (← s.iSort.get 0)
    if i < v0 then .ok (-1)
    else do
      let vl ← s.number.get (← s.iSort.get ((s.length : Int) - 1))
      if i ≥ vl then .ok ((s.length : Int) - 1)
      else do
        let r ← bisect s i (s.length + 1) 0 (s.length - 1)
        .ok (r : Int)

/-- `Indexlist::getIndex`, src/Indexlist.cpp:157-161. -/
def getIndex (s : Indexlist) (givennumber : Int) : Res Int := do
  let index ← s.findInsert givennumber
  let k ← s.iSort.get index
  let v ← s.number.get k
  if v = givennumber then s.iSort.get index else .ok (-1)

/-- `Indexlist::addNumber`, src/Indexlist.cpp:167-181. -/
def addNumber (s : Indexlist) (addnumber : Int) : Res (ReturnValue × Indexlist) :=
  if s.length ≥ s.physicallength then .ok (.RET_INDEXLIST_EXCEEDS_MAX_LENGTH, s)
  else do
    let num ← s.number.set s.length addnumber
    let s1 := { s with number := num }
    let j ← s1.findInsert addnumber
    -- for (i = length; i > j+1; i--) iSort[i] = iSort[i-1];
    let lo := (j + 2).toNat
    let srt ← forDown (fun i (a : Mem Int) => do a.set i (← a.get ((i : Int) - 1)))
                lo (s.length + 1 - lo) s1.iSort
    let srt ← srt.set (j + 1) s.length
    .ok (.SUCCESSFUL_RETURN, { s1 with iSort := srt, length := s.length + 1 })

/-- `Indexlist::removeNumber`, src/Indexlist.cpp:187-211. -/
def removeNumber (s : Indexlist) (removenumber : Int) : Res (ReturnValue × Indexlist) := do
  let idx ← s.findInsert removenumber
  let iSidx ← s.iSort.get idx
  let v ← s.number.get iSidx
  if v ≠ removenumber then .ok (.SUCCESSFUL_RETURN, s)
  else do
    -- for (i = 0; i < length; i++) if (iSort[i] > iSidx) iSort[i]--;
    let srt ← forUp (fun i (a : Mem Int) => do
        let x ← a.get i
        if x > iSidx then a.set i (x - 1) else .ok a) 0 s.length s.iSort
    -- for (i = idx+1; i < length; i++) iSort[i-1] = iSort[i];
    let srt ← forUp (fun i (a : Mem Int) => do a.set ((i : Int) - 1) (← a.get i))
        (idx + 1).toNat (s.length - (idx + 1).toNat) srt
    -- for( i=iSidx; i<length-1; ++i ) number[i] = number[i+1];
    let num ← forUp (fun i (a : Mem Int) => do a.set i (← a.get ((i : Int) + 1)))
        iSidx.toNat (s.length - 1 - iSidx.toNat) s.number
    let num ← num.set ((s.length : Int) - 1) (-1)
    .ok (.SUCCESSFUL_RETURN, { s with number := num, iSort := srt, length := s.length - 1 })

/-- `Indexlist::swapNumbers`, src/Indexlist.cpp:217-237. -/
def swapNumbers (s : Indexlist) (number1 number2 : Int) : Res (ReturnValue × Indexlist) := do
  let index1 ← s.findInsert number1
  let index2 ← s.findInsert number2
  let v1 ← s.number.get (← s.iSort.get index1)
  -- `||` does not evaluate its second operand if the first is true
  if v1 ≠ number1 then .ok (.RET_INDEXLIST_CORRUPTED, s)
  else do
    let v2 ← s.number.get (← s.iSort.get index2)
    if v2 ≠ number2 then .ok (.RET_INDEXLIST_CORRUPTED, s)
    else do
      let k1 ← s.iSort.get index1
      let k2 ← s.iSort.get index2
      let tmp ← s.number.get k1
      let num ← s.number.set k1 (← s.number.get k2)
      let num ← num.set k2 tmp
      let srt ← s.iSort.set index1 k2
      let srt ← srt.set index2 k1
      .ok (.SUCCESSFUL_RETURN, { s with number := num, iSort := srt })

/-- `Indexlist::getNumber`, include/qpOASES/Indexlist.ipp:47-54. -/
def getNumber (s : Indexlist) (physicalindex : Int) : Res Int :=
  if physicalindex < 0 ∨ physicalindex > s.length then .ok (- ReturnValue.RET_INDEXLIST_OUTOFBOUNDS.code)
  else s.number.get physicalindex

/-- `Indexlist::getLength`, include/qpOASES/Indexlist.ipp:60-63. -/
def getLength (s : Indexlist) : Nat := s.length

/-- `Indexlist::getLastNumber`, include/qpOASES/Indexlist.ipp:69-72. -/
def getLastNumber (s : Indexlist) : Res Int := s.number.get ((s.length : Int) - 1)

/-- `Indexlist::isMember`, include/qpOASES/Indexlist.ipp:78-84. -/
def isMember (s : Indexlist) (n : Int) : Res Bool := do
  let k ← s.getIndex n
  .ok (decide (k ≥ 0))

end Indexlist
end QpOASES

namespace QpOASES.Indexlist

/-- Mutating calls of the public interface of `Indexlist`. -/
inductive Op where
  | add (n : Int)
  | remove (n : Int)
  | swap (a b : Int)
  deriving DecidableEq, Repr

/-- One call. -/
def step (s : Indexlist) : Op → Res (ReturnValue × Indexlist)
  | .add n => s.addNumber n
  | .remove n => s.removeNumber n
  | .swap a b => s.swapNumbers a b

/-- A sequence of calls, collecting the return values. -/
def run (s : Indexlist) : List Op → Res (List ReturnValue × Indexlist)
  | [] => .ok ([], s)
  | op :: ops => do
    let (r, s') ← s.step op
    let (rs, s'') ← run s' ops
    .ok (r :: rs, s'')

end QpOASES.Indexlist
