import Verif.Model.SubjectTo

/-!
Specification of working sets: types, statuses and two plain sequences of indices.
`free` are the inactive indices (free variables, inactive constraints), `fixed` the active ones.
-/
namespace QpOASES.Spec

open SubjectToStatus SubjectToType ReturnValue
open QpOASES.WSet (Op)

structure WorkingSet where
  n : Nat
  type : Nat → SubjectToType
  status : Nat → SubjectToStatus
  free : List Int
  fixed : List Int

namespace WorkingSet

def isActive (s : SubjectToStatus) : Bool := s == ST_LOWER || s == ST_UPPER
def isInactive (s : SubjectToStatus) : Bool := s == ST_INACTIVE

/-- Indices below `n` satisfying `p`, increasing. -/
def select (n : Nat) (p : Nat → Bool) : List Int := ((List.range n).filter p).map (fun i : Nat => (i : Int))

/-- Every index is listed exactly once in the list its status demands: `free` lists exactly the inactive
indices, `fixed` exactly those at a lower or upper limit, without repetition. -/
structure Consistent (w : WorkingSet) : Prop where
  free_iff : ∀ x : Int, x ∈ w.free ↔ ∃ i : Nat, i < w.n ∧ x = i ∧ isInactive (w.status i) = true
  fixed_iff : ∀ x : Int, x ∈ w.fixed ↔ ∃ i : Nat, i < w.n ∧ x = i ∧ isActive (w.status i) = true
  free_nodup : w.free.Nodup
  fixed_nodup : w.fixed.Nodup

/-- Every index has been set up. -/
def Complete (w : WorkingSet) : Prop :=
  ∀ i, i < w.n → isInactive (w.status i) = true ∨ isActive (w.status i) = true

/-- No index has been set up yet. -/
def Blank (w : WorkingSet) : Prop := ∀ i, i < w.n → w.status i = ST_UNDEFINED

def inRange (w : WorkingSet) (i : Int) : Bool := decide (0 ≤ i) && decide (i < w.n)

def setAt {α : Type} (f : Nat → α) (i : Int) (x : α) : Nat → α := fun k => if (k : Int) = i then x else f k

/-- The order in which `setupAll` lists the indices: unbounded, bounded, equalities, others. -/
def setupOrder (w : WorkingSet) : List Int :=
  select w.n (fun i => w.type i == ST_UNBOUNDED) ++ select w.n (fun i => w.type i == ST_BOUNDED) ++
  select w.n (fun i => w.type i == ST_EQUALITY) ++
  select w.n (fun i => w.type i == ST_UNKNOWN || w.type i == ST_DISABLED)

/-- Lists in increasing order according to given statuses. -/
def relist (w : WorkingSet) : WorkingSet :=
  { w with free := select w.n (fun i => isInactive (w.status i)),
           fixed := select w.n (fun i => isActive (w.status i)) }

/-- Types and statuses move down by `o`; the last `o` entries are unchanged. -/
def shifted (w : WorkingSet) (o : Nat) : WorkingSet :=
  relist { w with type := fun i => if i + o < w.n then w.type (i + o) else w.type i,
                  status := fun i => if i + o < w.n then w.status (i + o) else w.status i }

/-- Types and statuses move down cyclically by `o`. -/
def rotated (w : WorkingSet) (o : Nat) : WorkingSet :=
  relist { w with type := fun i => w.type ((i + o) % w.n),
                  status := fun i => w.status ((i + o) % w.n) }

/-- What a call should return and do. -/
def step (k : Kind) (w : WorkingSet) : Op → ReturnValue × WorkingSet
  | .setType i t =>
      if w.inRange i then (SUCCESSFUL_RETURN, { w with type := setAt w.type i t })
      else (RET_INDEX_OUT_OF_BOUNDS, w)
  | .setup i st =>
      if w.inRange i then
        if isInactive st then
          (SUCCESSFUL_RETURN, { w with status := setAt w.status i st, free := w.free ++ [i] })
        else if isActive st then
          (SUCCESSFUL_RETURN, { w with status := setAt w.status i st, fixed := w.fixed ++ [i] })
        else (RET_INVALID_ARGUMENTS, w)
      else (RET_INDEX_OUT_OF_BOUNDS, w)
  | .setupAll st =>
      if isInactive st then
        (SUCCESSFUL_RETURN, { w with status := fun _ => st, free := setupOrder w })
      else
        (SUCCESSFUL_RETURN, { w with status := fun _ => st, fixed := setupOrder w })
  | .moveToInact i =>
      if w.inRange i then
        (SUCCESSFUL_RETURN, { w with status := setAt w.status i ST_INACTIVE, free := w.free ++ [i],
                                     fixed := w.fixed.erase i })
      else (RET_INDEX_OUT_OF_BOUNDS, w)
  | .moveToAct i st =>
      if w.inRange i then
        (SUCCESSFUL_RETURN, { w with status := setAt w.status i st, free := w.free.erase i,
                                     fixed := w.fixed ++ [i] })
      else (RET_INDEX_OUT_OF_BOUNDS, w)
  | .flip i =>
      if w.inRange i then
        if w.status i.toNat = ST_LOWER then (SUCCESSFUL_RETURN, { w with status := setAt w.status i ST_UPPER })
        else if w.status i.toNat = ST_UPPER then
          (SUCCESSFUL_RETURN, { w with status := setAt w.status i ST_LOWER })
        else (k.flipFailed, w)
      else (RET_INDEX_OUT_OF_BOUNDS, w)
  | .swap i j =>
      if w.inRange i && w.inRange j then
        if w.status i.toNat ≠ w.status j.toNat then (RET_SWAPINDEX_FAILED, w)
        else (SUCCESSFUL_RETURN,
          { w with free := w.free.map (fun x => if x = i then j else if x = j then i else x) })
      else (RET_INDEX_OUT_OF_BOUNDS, w)
  | .shift o =>
      if o = 0 ∨ w.n ≤ 1 then (SUCCESSFUL_RETURN, w)
      else if o < 0 ∨ 2 * o > w.n then (RET_INDEX_OUT_OF_BOUNDS, w)
      else if ¬ o ∣ w.n then (RET_INVALID_ARGUMENTS, w)
      else (SUCCESSFUL_RETURN, shifted w o.toNat)
  | .rotate o =>
      if o = 0 ∨ o = w.n ∨ w.n ≤ 1 then (SUCCESSFUL_RETURN, w)
      else if o < 0 ∨ o > w.n then (RET_INDEX_OUT_OF_BOUNDS, w)
      else (SUCCESSFUL_RETURN, rotated w o.toNat)

def run (k : Kind) (w : WorkingSet) : List Op → List ReturnValue × WorkingSet
  | [] => ([], w)
  | op :: ops =>
    let (r, w') := step k w op
    let (rs, w'') := run k w' ops
    (r :: rs, w'')

/-- Correct use of the operations: only indices not yet set up are set up, only active indices are
made inactive and vice versa, only free variables are swapped, and working sets are rotated or shifted
only when they have been set up completely.  Out-of-range indices are allowed everywhere. -/
def Proper (w : WorkingSet) : Op → Prop
  | .setType _ _ => True
  | .setup i st => w.inRange i = true → (isInactive st = true ∨ isActive st = true) → w.status i.toNat = ST_UNDEFINED
  | .setupAll st => w.Blank ∧ (isInactive st = true ∨ isActive st = true)
  | .moveToInact i => w.inRange i = true → isActive (w.status i.toNat) = true
  | .moveToAct i st => w.inRange i = true → isInactive (w.status i.toNat) = true ∧ isActive st = true
  | .flip _ => True
  | .swap i j => w.inRange i = true → w.inRange j = true → w.status i.toNat = w.status j.toNat →
      isInactive (w.status i.toNat) = true
  | .shift _ => w.Complete
  | .rotate _ => w.Complete

def ProperHistory (k : Kind) (w : WorkingSet) : List Op → Prop
  | [] => True
  | op :: ops => Proper w op ∧ ProperHistory k (step k w op).2 ops

/-- The freshly initialised working set. -/
def blank (n : Nat) : WorkingSet :=
  { n := n, type := fun _ => ST_UNKNOWN, status := fun _ => ST_UNDEFINED, free := [], fixed := [] }

end WorkingSet
end QpOASES.Spec
