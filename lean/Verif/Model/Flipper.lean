import Verif.Model.SubjectTo

/-!
`class Flipper`: src/Flipper.cpp, include/qpOASES/Flipper.hpp.
-/
namespace QpOASES
open ReturnValue

variable {α : Type}

/-- `memcpy( dst, src, n*sizeof(..) )`; both arrays must have at least `n` elements. -/
def Mem.memcpy (dst src : Mem α) (n : Nat) : Res (Mem α) :=
  if n ≤ dst.size ∧ n ≤ src.size then
    .ok ⟨dst.size, fun i => if i < n then src.cell i else dst.cell i⟩
  else .ub .outOfBounds

/-- A `Flipper` object (include/qpOASES/Flipper.hpp:135-143).  The dimensions are `none` while they have
not been initialised; the three arrays are `none` while they are null. -/
structure Flipper (α : Type) where
  nV : Option Nat
  nC : Option Nat
  bounds : WSet
  constraints : WSet
  R : Option (Mem α)
  Q : Option (Mem α)
  T : Option (Mem α)

namespace Flipper

/-- Use of an uninitialised dimension is undefined. -/
def dim : Option Nat → Res Nat
  | some n => .ok n
  | none => .ub .uninitialised

/-- `getDimT`, src/Flipper.cpp:245-251 -/
def getDimT (f : Flipper α) : Res Nat := do
  let nV ← dim f.nV
  let nC ← dim f.nC
  pure (if nV > nC then nC*nC else nV*nV)

/-- `clear`, src/Flipper.cpp:211-232 -/
def clear (f : Flipper α) : Flipper α := { f with R := none, Q := none, T := none }

/-- `init`, src/Flipper.cpp:116-126 -/
def init (f : Flipper α) (nV nC : Nat) : Flipper α := { f.clear with nV := some nV, nC := some nC }

/-- Default constructors of the members (`Bounds()`, `Constraints()`: n = 0, empty lists),
src/Bounds.cpp:49-51, src/Constraints.cpp:49-51, src/SubjectTo.cpp:48-58. -/
def emptySet : WSet :=
  ⟨0, fun _ => .ST_UNKNOWN, fun _ => .ST_UNDEFINED, true, true, .empty, .empty⟩

/-- A flipper whose dimensions have not been set: the state in which the copy constructor
(src/Flipper.cpp:78-85) starts. -/
def raw : Flipper α := ⟨none, none, emptySet, emptySet, none, none, none⟩

/-- Default constructor, src/Flipper.cpp:50-57 (`init( )` has default arguments 0, 0). -/
def new : Flipper α := raw.init 0 0

/-- One array of `set`, src/Flipper.cpp:175-181, 183-189, 191-197 -/
def setArray (own : Option (Mem α)) (src : Option (Mem α)) (n : Res Nat) : Res (Option (Mem α)) :=
  match src with
  | none => .ok own
  | some s => do
    let n ← n
    let d := own.getD (Mem.alloc n)
    let d ← d.memcpy s n
    pure (some d)

/-- `nV*nV` -/
def sqV (f : Flipper α) : Res Nat := do
  let nV ← dim f.nV
  pure (nV * nV)

/-- `set`, src/Flipper.cpp:162-200 -/
def set (f : Flipper α) (b : Option WSet) (R : Option (Mem α)) (c : Option WSet) (Q T : Option (Mem α)) :
    Res (Flipper α) := do
  let f := { f with bounds := b.getD f.bounds, constraints := c.getD f.constraints }
  let R' ← setArray f.R R f.sqV
  let Q' ← setArray f.Q Q f.sqV
  let T' ← setArray f.T T f.getDimT
  pure { f with R := R', Q := Q', T := T' }

/-- One array of `get`, src/Flipper.cpp:146-153 -/
def getArray (dst : Option (Mem α)) (own : Option (Mem α)) (n : Res Nat) : Res (Option (Mem α)) :=
  match dst, own with
  | some d, some s => do
    let n ← n
    let d ← d.memcpy s n
    pure (some d)
  | d, _ => .ok d

/-- Caller's objects filled by `get`: `none` is a null pointer. -/
structure Target (α : Type) where
  bounds : Option WSet
  R : Option (Mem α)
  constraints : Option WSet
  Q : Option (Mem α)
  T : Option (Mem α)

/-- `get`, src/Flipper.cpp:133-156 -/
def get (f : Flipper α) (t : Target α) : Res (Target α) := do
  let R ← getArray t.R f.R f.sqV
  let Q ← getArray t.Q f.Q f.sqV
  let T ← getArray t.T f.T f.getDimT
  pure ⟨t.bounds.map fun _ => f.bounds, R, t.constraints.map fun _ => f.constraints, Q, T⟩

/-- `copy`, src/Flipper.cpp:238-242 -/
def copy (f rhs : Flipper α) : Res (Flipper α) :=
  f.set (some rhs.bounds) rhs.R (some rhs.constraints) rhs.Q rhs.T

/-- `operator=` (different objects), src/Flipper.cpp:100-109 -/
def assign (f rhs : Flipper α) : Res (Flipper α) := f.clear.copy rhs

/-- copy constructor, src/Flipper.cpp:78-85 -/
def copyConstruct (rhs : Flipper α) : Res (Flipper α) := raw.copy rhs

end Flipper
end QpOASES
