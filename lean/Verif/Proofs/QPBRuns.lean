import Verif.Model.QProblemB
import Mathlib.Algebra.Order.Ring.Rat
import Mathlib.Algebra.Field.Rat

/-!
Runs of the model over the rational numbers, evaluated by the kernel.
-/
namespace QpOASES.Runs
open ReturnValue HessianType

/-- Square roots of the numbers that occur in the runs. -/
def root (r : ℚ) : ℚ := if r = 1 then 1 else if r = 4 then 2 else if r = 9 then 3 else 0

/-- A vector given by its elements. -/
def vec (l : List ℚ) : Nat → ℚ := fun i => l.getD i 0

/-- Default options without far bounds and ramping. -/
def plain : Options ℚ := { (Options.setToDefault : Options ℚ) with enableFarBounds := false, enableRamping := false }

/-- A new object. -/
def start (n : Int) (t : HessianType) (o : Options ℚ) : QPB ℚ := (QPB.new n t fun _ => 0).setOptions o

/-- The run has an outcome with a given property. -/
def holds {α : Type} (r : Res α) (p : α → Bool) : Bool :=
  match r with
  | .ok o => p o
  | _ => false

theorem of_holds {α : Type} {r : Res α} {p : α → Bool} (h : holds r p = true) : ∃ o, r = .ok o ∧ p o = true := by
  cases r with
  | ok o => exact ⟨o, rfl, h⟩
  | ub e => cases h

/-- The run divides by zero. -/
def dividesByZero {α : Type} (r : Res α) : Bool :=
  match r with
  | .ub .divByZero => true
  | _ => false

theorem of_dividesByZero {α : Type} {r : Res α} (h : dividesByZero r = true) : r = .ub .divByZero := by
  cases r with
  | ok o => cases h
  | ub e => cases e <;> first | rfl | cases h

/-- The run dereferences a null pointer. -/
def nullDeref {α : Type} (r : Res α) : Bool :=
  match r with
  | .ub .nullDeref => true
  | _ => false

theorem of_nullDeref {α : Type} {r : Res α} (h : nullDeref r = true) : r = .ub .nullDeref := by
  cases r with
  | ok o => cases h
  | ub e => cases e <;> first | rfl | cases h

/-- Cold start with gradient `g` and limits `l`, `u`. -/
def cold (s : QPB ℚ) (H : Option (List ℚ)) (g l u : List ℚ) : Res (Out ℚ) :=
  QPB.init root 5 s (H.map vec) (some (vec g)) (some (vec l)) (some (vec u)) 10 none none none none none

/-- Hotstart with gradient `g` and limits `l`, `u`. -/
def hot (r : Res (Out ℚ)) (g : List ℚ) (l u : Option (List ℚ)) (guess : QPB.Guess) : Res (Out ℚ) := do
  let o ← r
  QPB.hotstart root 5 o.s (vec g) (l.map vec) (u.map vec) 10 none guess

end QpOASES.Runs
