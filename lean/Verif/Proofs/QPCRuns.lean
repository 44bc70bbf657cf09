import Verif.Model.QProblem
import Verif.Proofs.QPBRuns

/-!
Runs of the model of the solver for general constraints over the rational numbers, evaluated by the kernel.
-/
namespace QpOASES.Runs
open ReturnValue HessianType

/-- A new object. -/
def startC (n m : Int) (t : HessianType) (o : Options ℚ) : QPC ℚ :=
  let s := QPC.new n m t fun _ => 0
  { s with toQPB := s.toQPB.setOptions o }

/-- Newton's iteration for the integer square root. -/
def newton (n : Nat) : (fuel x : Nat) → Nat
  | 0, x => x
  | fuel+1, x => if (x + n / x) / 2 < x then newton n fuel ((x + n / x) / 2) else x

/-- Square root of the square of a rational number. -/
def rootC (r : ℚ) : ℚ := if r ≤ 0 then 0 else newton r.num.toNat 60 (r.num.toNat + 1) / newton r.den 60 (r.den + 1)

/-- Cold start with gradient `g`, constraint matrix `A` (row by row) and limits. -/
def coldC (s : QPC ℚ) (H : Option (List ℚ)) (g A l u lA uA : List ℚ) (nWSR : Int := 10) : Res (OutC ℚ) :=
  QPC.init rootC 5 s (H.map vec) (some (vec g)) (some (vec A)) (some (vec l)) (some (vec u)) (some (vec lA)) (some (vec uA)) nWSR none
    none none none none none

/-- Hotstart with gradient `g` and limits. -/
def hotC (r : Res (OutC ℚ)) (g : List ℚ) (l u lA uA : Option (List ℚ)) (gB gC : QPB.Guess) (nWSR : Int := 10) : Res (OutC ℚ) := do
  let o ← r
  QPC.hotstart rootC 5 o.s (vec g) (l.map vec) (u.map vec) (lA.map vec) (uA.map vec) nWSR none gB gC

end QpOASES.Runs
