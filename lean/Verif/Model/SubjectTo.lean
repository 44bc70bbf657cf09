import Verif.Model.Indexlist

namespace QpOASES

/-- `enum SubjectToType`, include/qpOASES/Types.hpp:261-268. -/
inductive SubjectToType where
  | ST_UNBOUNDED | ST_BOUNDED | ST_EQUALITY | ST_DISABLED | ST_UNKNOWN
  deriving DecidableEq, Repr

/-- `enum SubjectToStatus`, include/qpOASES/Types.hpp:272-280. -/
inductive SubjectToStatus where
  | ST_LOWER | ST_INACTIVE | ST_UPPER | ST_INFEASIBLE_LOWER | ST_INFEASIBLE_UPPER | ST_UNDEFINED
  deriving DecidableEq, Repr

/-- Which of the two subclasses of `SubjectTo`: `class Bounds` (src/Bounds.cpp) or `class Constraints`
(src/Constraints.cpp).  The two classes have the same code up to the names of the two index lists
(`freee`/`fixed` versus `inactive`/`active`) and the error codes below. -/
inductive Kind where
  | bounds | constraints
  deriving DecidableEq, Repr

namespace Kind
/-- Error code of `setupBound` (src/Bounds.cpp:136) and `setupConstraint` (src/Constraints.cpp:135). -/
def setupFailed : Kind → ReturnValue
  | bounds => .RET_SETUP_BOUND_FAILED
  | constraints => .RET_SETUP_CONSTRAINT_FAILED
/-- Error code of `flipFixed`: src/Bounds.cpp:239, src/Constraints.cpp:238. -/
def flipFailed : Kind → ReturnValue
  | bounds => .RET_MOVING_BOUND_FAILED
  | constraints => .RET_MOVING_CONSTRAINT_FAILED
end Kind

/-- A `Bounds` or `Constraints` object: data members of `SubjectTo`
(include/qpOASES/SubjectTo.hpp, `n`, `type`, `status`, `noLower`, `noUpper`) and the two index lists of
`Bounds` (`freee`, `fixed`) resp. `Constraints` (`inactive`, `active`).
The arrays `type` and `status` are initialised by `init` and all modelled accesses are guarded by
`0 ≤ i < n`, so they are modelled as functions of which only the values below `n` matter. -/
structure WSet where
  n : Nat
  type : Nat → SubjectToType
  status : Nat → SubjectToStatus
  noLower : Bool
  noUpper : Bool
  /-- `Bounds::freee` / `Constraints::inactive` -/
  inact : Indexlist
  /-- `Bounds::fixed` / `Constraints::active` -/
  act : Indexlist

namespace WSet
open SubjectToStatus SubjectToType ReturnValue

/-- pointwise update of an array of length `≥ i+1` -/
def upd {α : Type} (f : Nat → α) (i : Nat) (x : α) : Nat → α := fun k => if k = i then x else f k

/-- `Bounds::init` src/Bounds.cpp:102-117, `Constraints::init` src/Constraints.cpp:101-116 and
`SubjectTo::init` src/SubjectTo.cpp:107-134. -/
def init (w : WSet) (n : Int) : ReturnValue × WSet :=
  if n < 0 then (RET_INVALID_ARGUMENTS, w)
  else (SUCCESSFUL_RETURN,
    { n := n.toNat, type := fun _ => ST_UNKNOWN, status := fun _ => ST_UNDEFINED,
      noLower := true, noUpper := true, inact := (w.inact.init n).2, act := (w.act.init n).2 })

/-- Selects one of the two index lists (the `Indexlist*` argument of addIndex/removeIndex/swapIndex;
never null at the call sites). -/
inductive Which where | inact | act
  deriving DecidableEq

def list (w : WSet) : Which → Indexlist
  | .inact => w.inact
  | .act => w.act

def setList (w : WSet) (which : Which) (l : Indexlist) : WSet :=
  match which with
  | .inact => { w with inact := l }
  | .act => { w with act := l }

/-- `SubjectTo::addIndex`, src/SubjectTo.cpp:199-223.  `number` is in `[0,n)` at all call sites, so the
array `status` is allocated. -/
def addIndex (w : WSet) (which : Which) (number : Nat) (newstatus : SubjectToStatus) :
    Res (ReturnValue × WSet) :=
  if w.n = 0 then .ok (RET_ADDINDEX_FAILED, w)
  else if w.status number = newstatus then .ok (RET_INDEX_ALREADY_OF_DESIRED_STATUS, w)
  else do
    let w := { w with status := upd w.status number newstatus }
    let (r, l) ← (w.list which).addNumber number
    if r = RET_INDEXLIST_EXCEEDS_MAX_LENGTH then .ok (RET_ADDINDEX_FAILED, w)
    else .ok (SUCCESSFUL_RETURN, w.setList which l)

/-- `SubjectTo::removeIndex`, src/SubjectTo.cpp:229-247. -/
def removeIndex (w : WSet) (which : Which) (number : Nat) : Res (ReturnValue × WSet) :=
  if w.n = 0 then .ok (RET_REMOVEINDEX_FAILED, w)
  else do
    let w := { w with status := upd w.status number ST_UNDEFINED }
    let (r, l) ← (w.list which).removeNumber number
    if r ≠ SUCCESSFUL_RETURN then .ok (RET_REMOVEINDEX_FAILED, w)
    else .ok (SUCCESSFUL_RETURN, w.setList which l)

/-- `SubjectTo::swapIndex`, src/SubjectTo.cpp:253-281. -/
def swapIndex (w : WSet) (which : Which) (number1 number2 : Nat) : Res (ReturnValue × WSet) :=
  if w.n = 0 then .ok (RET_SWAPINDEX_FAILED, w)
  else if w.status number1 ≠ w.status number2 then .ok (RET_SWAPINDEX_FAILED, w)
  else if number1 = number2 then .ok (SUCCESSFUL_RETURN, w)
  else do
    let (r, l) ← (w.list which).swapNumbers number1 number2
    if r ≠ SUCCESSFUL_RETURN then .ok (RET_SWAPINDEX_FAILED, w)
    else .ok (SUCCESSFUL_RETURN, w.setList which l)

/-- `SubjectTo::getType`, include/qpOASES/SubjectTo.ipp:66-72. -/
def getType (w : WSet) (i : Int) : SubjectToType :=
  if 0 ≤ i ∧ i < w.n then w.type i.toNat else ST_UNKNOWN

/-- `SubjectTo::getStatus`, include/qpOASES/SubjectTo.ipp:78-84. -/
def getStatus (w : WSet) (i : Int) : SubjectToStatus :=
  if 0 ≤ i ∧ i < w.n then w.status i.toNat else ST_UNDEFINED

/-- `SubjectTo::setType`, include/qpOASES/SubjectTo.ipp:90-99. -/
def setType (w : WSet) (i : Int) (t : SubjectToType) : ReturnValue × WSet :=
  if 0 ≤ i ∧ i < w.n then (SUCCESSFUL_RETURN, { w with type := upd w.type i.toNat t })
  else (RET_INDEX_OUT_OF_BOUNDS, w)

/-- `SubjectTo::setStatus`, include/qpOASES/SubjectTo.ipp:105-114. -/
def setStatus (w : WSet) (i : Int) (st : SubjectToStatus) : ReturnValue × WSet :=
  if 0 ≤ i ∧ i < w.n then (SUCCESSFUL_RETURN, { w with status := upd w.status i.toNat st })
  else (RET_INDEX_OUT_OF_BOUNDS, w)

/-- `SubjectTo::getNumberOfType`, include/qpOASES/SubjectTo.ipp:47-60. -/
def getNumberOfType (w : WSet) (t : SubjectToType) : Nat :=
  (List.range w.n).countP (fun i => decide (w.type i = t))

/-- Range check used by all public operations (e.g. src/Bounds.cpp:128). -/
def inRange (w : WSet) (i : Int) : Prop := 0 ≤ i ∧ i < w.n

instance (w : WSet) (i : Int) : Decidable (w.inRange i) := by unfold inRange; infer_instance

/-- `Bounds::setupBound` src/Bounds.cpp:124-154, `Constraints::setupConstraint`
src/Constraints.cpp:123-153. -/
def setup (k : Kind) (w : WSet) (number : Int) (st : SubjectToStatus) : Res (ReturnValue × WSet) :=
  if ¬ w.inRange number then .ok (RET_INDEX_OUT_OF_BOUNDS, w)
  else match st with
    | ST_INACTIVE => do
        let (r, w) ← w.addIndex .inact number.toNat st
        .ok (if r ≠ SUCCESSFUL_RETURN then k.setupFailed else SUCCESSFUL_RETURN, w)
    | ST_LOWER => do
        let (r, w) ← w.addIndex .act number.toNat st
        .ok (if r ≠ SUCCESSFUL_RETURN then k.setupFailed else SUCCESSFUL_RETURN, w)
    | ST_UPPER => do
        let (r, w) ← w.addIndex .act number.toNat st
        .ok (if r ≠ SUCCESSFUL_RETURN then k.setupFailed else SUCCESSFUL_RETURN, w)
    | _ => .ok (RET_INVALID_ARGUMENTS, w)

/-- `Bounds::moveFixedToFree` src/Bounds.cpp:187-201, `Constraints::moveActiveToInactive`
src/Constraints.cpp:186-200. -/
def moveToInact (w : WSet) (number : Int) : Res (ReturnValue × WSet) :=
  if ¬ w.inRange number then .ok (RET_INDEX_OUT_OF_BOUNDS, w)
  else do
    let (r, w) ← w.removeIndex .act number.toNat
    if r ≠ SUCCESSFUL_RETURN then .ok (RET_MOVING_BOUND_FAILED, w)
    else do
      let (r, w) ← w.addIndex .inact number.toNat ST_INACTIVE
      if r ≠ SUCCESSFUL_RETURN then .ok (RET_MOVING_BOUND_FAILED, w)
      else .ok (SUCCESSFUL_RETURN, w)

/-- `Bounds::moveFreeToFixed` src/Bounds.cpp:207-222, `Constraints::moveInactiveToActive`
src/Constraints.cpp:206-221. -/
def moveToAct (w : WSet) (number : Int) (st : SubjectToStatus) : Res (ReturnValue × WSet) :=
  if ¬ w.inRange number then .ok (RET_INDEX_OUT_OF_BOUNDS, w)
  else do
    let (r, w) ← w.removeIndex .inact number.toNat
    if r ≠ SUCCESSFUL_RETURN then .ok (RET_MOVING_BOUND_FAILED, w)
    else do
      let (r, w) ← w.addIndex .act number.toNat st
      if r ≠ SUCCESSFUL_RETURN then .ok (RET_MOVING_BOUND_FAILED, w)
      else .ok (SUCCESSFUL_RETURN, w)

/-- `Bounds::flipFixed` src/Bounds.cpp:228-243, `Constraints::flipFixed` src/Constraints.cpp:227-242. -/
def flipFixed (k : Kind) (w : WSet) (number : Int) : ReturnValue × WSet :=
  if ¬ w.inRange number then (RET_INDEX_OUT_OF_BOUNDS, w)
  else match w.status number.toNat with
    | ST_LOWER => (SUCCESSFUL_RETURN, { w with status := upd w.status number.toNat ST_UPPER })
    | ST_UPPER => (SUCCESSFUL_RETURN, { w with status := upd w.status number.toNat ST_LOWER })
    | _ => (k.flipFailed, w)

/-- `Bounds::swapFree`, src/Bounds.cpp:249-258 (no counterpart in `Constraints`). -/
def swapFree (w : WSet) (number1 number2 : Int) : Res (ReturnValue × WSet) :=
  if ¬ w.inRange number1 ∨ ¬ w.inRange number2 then .ok (RET_INDEX_OUT_OF_BOUNDS, w)
  else w.swapIndex .inact number1.toNat number2.toNat

/-- One of the four loops of `setupAll` (src/Bounds.cpp:466-473, 476-483, 486-493, 496-503): set up the
indices `lo, …, lo+cnt-1` whose type satisfies `sel`, stop at the first failure. -/
def setupPass (k : Kind) (st : SubjectToStatus) (sel : SubjectToType → Bool) :
    (lo cnt : Nat) → WSet → Res (Bool × WSet)
  | _, 0, w => .ok (true, w)
  | lo, cnt+1, w =>
    if sel (w.getType lo) then do
      let (r, w) ← w.setup k lo st
      if r ≠ SUCCESSFUL_RETURN then .ok (false, w)
      else setupPass k st sel (lo+1) cnt w
    else setupPass k st sel (lo+1) cnt w

/-- `Bounds::setupAll` src/Bounds.cpp:461-506, `Constraints::setupAll` src/Constraints.cpp:445-491. -/
def setupAll (k : Kind) (w : WSet) (st : SubjectToStatus) : Res (ReturnValue × WSet) := do
  let (b, w) ← setupPass k st (fun t => t == ST_UNBOUNDED) 0 w.n w
  if !b then .ok (k.setupFailed, w) else do
  let (b, w) ← setupPass k st (fun t => t == ST_BOUNDED) 0 w.n w
  if !b then .ok (k.setupFailed, w) else do
  let (b, w) ← setupPass k st (fun t => t == ST_EQUALITY) 0 w.n w
  if !b then .ok (k.setupFailed, w) else do
  let (b, w) ← setupPass k st (fun t => t == ST_UNKNOWN || t == ST_DISABLED) 0 w.n w
  if !b then .ok (k.setupFailed, w) else
  .ok (SUCCESSFUL_RETURN, w)

/-- The loop rebuilding both index lists from the statuses in `shift` and `rotate`
(src/Bounds.cpp:290-312 and 365-387, src/Constraints.cpp:274-296 and 349-371); `none` means that the
function returned with an error inside the loop. -/
def rebuild (status : Nat → SubjectToStatus) :
    (lo cnt : Nat) → Indexlist → Indexlist → Res (Option (Indexlist × Indexlist))
  | _, 0, fr, fx => .ok (some (fr, fx))
  | lo, cnt+1, fr, fx =>
    match status lo with
    | ST_INACTIVE => do
        let (r, fr) ← fr.addNumber lo
        if r ≠ SUCCESSFUL_RETURN then .ok none else rebuild status (lo+1) cnt fr fx
    | ST_LOWER => do
        let (r, fx) ← fx.addNumber lo
        if r ≠ SUCCESSFUL_RETURN then .ok none else rebuild status (lo+1) cnt fr fx
    | ST_UPPER => do
        let (r, fx) ← fx.addNumber lo
        if r ≠ SUCCESSFUL_RETURN then .ok none else rebuild status (lo+1) cnt fr fx
    | _ => .ok none

/-- `type[i] = type[i+offset]; status[i] = status[i+offset]` for `i = lo, …, lo+cnt-1`
(src/Bounds.cpp:280-284 and 347-351). -/
def shiftDown (offset : Nat) : (lo cnt : Nat) → WSet → WSet
  | _, 0, w => w
  | lo, cnt+1, w =>
    let w1 := (w.setType lo (w.getType (lo + offset))).2
    let w2 := (w1.setStatus lo (w1.getStatus (lo + offset))).2
    shiftDown offset (lo+1) cnt w2

/-- `type[i] = typeTmp[i-n+offset]; status[i] = statusTmp[i-n+offset]` for `i = lo, …, lo+cnt-1`
(src/Bounds.cpp:353-357). -/
def restoreTmp (offset : Nat) (typeTmp : Nat → SubjectToType) (statusTmp : Nat → SubjectToStatus) :
    (lo cnt : Nat) → WSet → WSet
  | _, 0, w => w
  | lo, cnt+1, w =>
    let w1 := (w.setType lo (typeTmp ((lo : Int) - w.n + offset).toNat)).2
    let w2 := (w1.setStatus lo (statusTmp ((lo : Int) - w.n + offset).toNat)).2
    restoreTmp offset typeTmp statusTmp (lo+1) cnt w2

/-- `Bounds::shift` src/Bounds.cpp:264-319, `Constraints::shift` src/Constraints.cpp:248-303. -/
def shift (w : WSet) (offset : Int) : Res (ReturnValue × WSet) :=
  if offset = 0 ∨ w.n ≤ 1 then .ok (SUCCESSFUL_RETURN, w)
  else if offset < 0 ∨ offset > (w.n / 2 : Nat) then .ok (RET_INDEX_OUT_OF_BOUNDS, w)
  else if (w.n : Int) % offset ≠ 0 then .ok (RET_INVALID_ARGUMENTS, w)
  else do
    let w := shiftDown offset.toNat 0 (w.n - offset.toNat) w
    let fresh := (Indexlist.empty.init w.n).2
    let o ← rebuild (fun i => w.getStatus i) 0 w.n fresh fresh
    match o with
    | none => .ok (RET_SHIFTING_FAILED, w)
    | some (fr, fx) => .ok (SUCCESSFUL_RETURN, { w with inact := fr, act := fx })

/-- `Bounds::rotate` src/Bounds.cpp:325-394, `Constraints::rotate` src/Constraints.cpp:309-378. -/
def rotate (w : WSet) (offset : Int) : Res (ReturnValue × WSet) :=
  if offset = 0 ∨ offset = w.n ∨ w.n ≤ 1 then .ok (SUCCESSFUL_RETURN, w)
  else if offset < 0 ∨ offset > w.n then .ok (RET_INDEX_OUT_OF_BOUNDS, w)
  else do
    let typeTmp := fun i : Nat => w.getType i
    let statusTmp := fun i : Nat => w.getStatus i
    let w := shiftDown offset.toNat 0 (w.n - offset.toNat) w
    let w := restoreTmp offset.toNat typeTmp statusTmp (w.n - offset.toNat) offset.toNat w
    let fresh := (Indexlist.empty.init w.n).2
    let o ← rebuild (fun i => w.getStatus i) 0 w.n fresh fresh
    match o with
    | none => .ok (RET_ROTATING_FAILED, w)
    | some (fr, fx) => .ok (SUCCESSFUL_RETURN, { w with inact := fr, act := fx })

/-- `Bounds::getNFR` / `Constraints::getNIAC`: include/qpOASES/Bounds.ipp:82-85,
include/qpOASES/Constraints.ipp:92-95. -/
def getNInact (w : WSet) : Nat := w.inact.getLength

/-- `Bounds::getNFX` / `Constraints::getNAC`: include/qpOASES/Bounds.ipp:91-94,
include/qpOASES/Constraints.ipp:83-86. -/
def getNAct (w : WSet) : Nat := w.act.getLength

/-- Mutating calls on a `Bounds`/`Constraints` object. -/
inductive Op where
  | setType (i : Int) (t : SubjectToType)
  | setup (i : Int) (st : SubjectToStatus)
  | setupAll (st : SubjectToStatus)
  | moveToInact (i : Int)
  | moveToAct (i : Int) (st : SubjectToStatus)
  | flip (i : Int)
  | swap (i j : Int)
  | shift (k : Int)
  | rotate (k : Int)
  deriving DecidableEq, Repr

def step (k : Kind) (w : WSet) : Op → Res (ReturnValue × WSet)
  | .setType i t => .ok (w.setType i t)
  | .setup i st => w.setup k i st
  | .setupAll st => w.setupAll k st
  | .moveToInact i => w.moveToInact i
  | .moveToAct i st => w.moveToAct i st
  | .flip i => .ok (w.flipFixed k i)
  | .swap i j => w.swapFree i j
  | .shift o => w.shift o
  | .rotate o => w.rotate o

def run (k : Kind) (w : WSet) : List Op → Res (List ReturnValue × WSet)
  | [] => .ok ([], w)
  | op :: ops => do
    let (r, w') ← w.step k op
    let (rs, w'') ← run k w' ops
    .ok (r :: rs, w'')

end WSet
end QpOASES
