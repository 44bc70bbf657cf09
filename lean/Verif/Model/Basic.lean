/-
  Execution outcomes, checked memory, loops.  These are the conventions shared by all model files;
  see DESIGN.md section 2.
-/
namespace QpOASES

/-- Reasons for which an execution has no defined C++ behaviour. -/
inductive UB where
  /-- access outside an allocated array -/
  | outOfBounds
  /-- use of an array element that has never been written -/
  | uninitialised
  /-- dereferencing a null pointer -/
  | nullDeref
  /-- division by zero (for `real_t`: the result would be Inf or NaN) -/
  | divByZero
  /-- memory released twice -/
  | doubleFree
  /-- the fuel given to a loop did not suffice (the loop would not terminate) -/
  | diverge
  deriving DecidableEq, Repr

/-- Outcome of an execution. -/
inductive Res (α : Type) where
  | ok (a : α)
  | ub (e : UB)
  deriving DecidableEq, Repr

namespace Res

/-- Sequencing: undefined behaviour ends the execution. -/
@[inline] def bind {α β : Type} (r : Res α) (f : α → Res β) : Res β :=
  match r with
  | ok a => f a
  | ub e => ub e

instance : Monad Res where
  pure := Res.ok
  bind := Res.bind

@[simp] theorem bind_ok {α β : Type} (a : α) (f : α → Res β) : (Res.ok a >>= f) = f a := rfl
@[simp] theorem bind_ub {α β : Type} (e : UB) (f : α → Res β) :
    ((Res.ub e : Res α) >>= f) = Res.ub e := rfl
@[simp] theorem pure_eq {α : Type} (a : α) : (pure a : Res α) = Res.ok a := rfl

theorem bind_eq_ok {α β : Type} {r : Res α} {f : α → Res β} {b : β} :
    (r >>= f) = .ok b ↔ ∃ a, r = .ok a ∧ f a = .ok b := by
  cases r <;> simp

end Res

/-- A C array: `size` allocated elements; `cell i = none` means that element `i` has not been written
since allocation.  Only `cell i` with `i < size` is meaningful. -/
structure Mem (α : Type) where
  size : Nat
  cell : Nat → Option α

namespace Mem
variable {α : Type}

/-- `new T[n]` -/
def alloc (n : Nat) : Mem α := ⟨n, fun _ => none⟩

/-- Array with given contents. -/
def ofList (l : List α) : Mem α := ⟨l.length, fun i => l[i]?⟩

/-- Checked read `a[i]`. -/
def get (a : Mem α) (i : Int) : Res α :=
  if 0 ≤ i ∧ i < a.size then
    match a.cell i.toNat with
    | some v => .ok v
    | none => .ub .uninitialised
  else .ub .outOfBounds

/-- Checked write `a[i] = v`. -/
def set (a : Mem α) (i : Int) (v : α) : Res (Mem α) :=
  if 0 ≤ i ∧ i < a.size then
    .ok ⟨a.size, fun k => if k = i.toNat then some v else a.cell k⟩
  else .ub .outOfBounds

end Mem

/-- `for (i = lo; i < lo+n; i++) body` -/
def forUp {σ : Type} (f : Nat → σ → Res σ) : (lo n : Nat) → σ → Res σ
  | _, 0, s => .ok s
  | lo, n+1, s => f lo s >>= fun s' => forUp f (lo+1) n s'

/-- `for (i = lo+n-1; i >= lo; i--) body` -/
def forDown {σ : Type} (f : Nat → σ → Res σ) : (lo n : Nat) → σ → Res σ
  | _, 0, s => .ok s
  | lo, n+1, s => f (lo+n) s >>= fun s' => forDown f lo n s'

end QpOASES
