import Verif.Model.Numeric

/-!
Working sets as the solvers use them.  `Bounds` objects are modelled in detail in `Verif.Model.SubjectTo`; for the
solvers the two index lists are plain sequences of indices.  The operations below are those of
`Spec.WorkingSet.step`, which `Bounds` implements for all proper calls (theorem C05).  That all calls of the solver
are proper is proved together with the solver's invariants.
-/
namespace QpOASES
open SubjectToStatus SubjectToType

structure WS where
  n : Nat
  type : Nat → SubjectToType
  status : Nat → SubjectToStatus
  noLower : Bool
  noUpper : Bool
  free : List Nat
  fixed : List Nat

namespace WS

/-- `bounds.init( nV )` -/
def init (n : Nat) : WS :=
  { n := n, type := fun _ => ST_UNKNOWN, status := fun _ => ST_UNDEFINED, noLower := true, noUpper := true,
    free := [], fixed := [] }

/-- `getNFR`, `getNFX`, include/qpOASES/Bounds.ipp -/
def nFR (w : WS) : Nat := w.free.length
def nFX (w : WS) : Nat := w.fixed.length
/-- `FR_idx[i]`, `FX_idx[i]` (`getNumberArray`) -/
def fr (w : WS) (i : Nat) : Nat := w.free.getD i 0
def fx (w : WS) (i : Nat) : Nat := w.fixed.getD i 0
/-- `getNFV`, `getNUV` (and `getNUC`), include/qpOASES/Bounds.ipp:55-76: numbers of implicitly fixed and of unbounded variables -/
def nFV (w : WS) : Nat := (List.range w.n).countP fun i => w.type i == ST_EQUALITY
def nUV (w : WS) : Nat := (List.range w.n).countP fun i => w.type i == ST_UNBOUNDED

/-- `getStatus` with its range check, include/qpOASES/SubjectTo.ipp:78-84 -/
def getStatus (w : WS) (i : Nat) : SubjectToStatus := if i < w.n then w.status i else ST_UNDEFINED

/-- `Bounds::setupBound`, src/Bounds.cpp:124-154 -/
def setupBound (w : WS) (i : Nat) (st : SubjectToStatus) : Bool × WS :=
  match st with
  | ST_INACTIVE => (true, { w with status := updA w.status i st, free := w.free ++ [i] })
  | ST_LOWER => (true, { w with status := updA w.status i st, fixed := w.fixed ++ [i] })
  | ST_UPPER => (true, { w with status := updA w.status i st, fixed := w.fixed ++ [i] })
  | _ => (false, w)

/-- Order in which `setupAllFree` lists the variables, src/Bounds.cpp:461-506 -/
def setupOrder (w : WS) : List Nat :=
  (List.range w.n).filter (fun i => w.type i == ST_UNBOUNDED) ++ (List.range w.n).filter (fun i => w.type i == ST_BOUNDED) ++
  (List.range w.n).filter (fun i => w.type i == ST_EQUALITY) ++
  (List.range w.n).filter (fun i => w.type i == ST_UNKNOWN || w.type i == ST_DISABLED)

/-- `Bounds::setupAllFree`, src/Bounds.cpp:160-163 -/
def setupAllFree (w : WS) : WS := { w with status := fun _ => ST_INACTIVE, free := w.free ++ w.setupOrder }

/-- `Bounds::moveFixedToFree`, src/Bounds.cpp:187-201 -/
def moveFixedToFree (w : WS) (i : Nat) : WS :=
  { w with status := updA w.status i ST_INACTIVE, free := w.free ++ [i], fixed := w.fixed.erase i }

/-- `Bounds::moveFreeToFixed`, src/Bounds.cpp:207-222 -/
def moveFreeToFixed (w : WS) (i : Nat) (st : SubjectToStatus) : WS :=
  { w with status := updA w.status i st, free := w.free.erase i, fixed := w.fixed ++ [i] }

/-- `Bounds::flipFixed`, src/Bounds.cpp:228-243 -/
def flipFixed (w : WS) (i : Nat) : WS :=
  match w.status i with
  | ST_LOWER => { w with status := updA w.status i ST_UPPER }
  | ST_UPPER => { w with status := updA w.status i ST_LOWER }
  | _ => w

end WS
end QpOASES
