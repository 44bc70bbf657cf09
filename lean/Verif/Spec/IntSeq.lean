import Verif.Model.Indexlist

/-!
Specification of index lists: plain sequences of integers.
-/
namespace QpOASES.Spec.IntSeq

open QpOASES.Indexlist (Op)

/-- What a call should return and do to the sequence `l` of capacity `cap`. -/
def step (cap : Nat) (l : List Int) : Op → ReturnValue × List Int
  | .add n => if l.length < cap then (.SUCCESSFUL_RETURN, l ++ [n])
              else (.RET_INDEXLIST_EXCEEDS_MAX_LENGTH, l)
  | .remove n => (.SUCCESSFUL_RETURN, l.erase n)
  | .swap a b =>
      if a ∈ l ∧ b ∈ l then
        (.SUCCESSFUL_RETURN, l.map (fun x => if x = a then b else if x = b then a else x))
      else (.RET_INDEXLIST_CORRUPTED, l)

def run (cap : Nat) (l : List Int) : List Op → List ReturnValue × List Int
  | [] => ([], l)
  | op :: ops =>
    let (r, l') := step cap l op
    let (rs, l'') := run cap l' ops
    (r :: rs, l'')

/-- Correct use: numbers are added only if they are not contained; a number that is removed or
swapped is not smaller than all contained numbers (in particular, contained numbers are fine). -/
def Proper (l : List Int) : Op → Prop
  | .add n => n ∉ l
  | .remove n => ∃ m ∈ l, m ≤ n
  | .swap a b => (∃ m ∈ l, m ≤ a) ∧ (∃ m ∈ l, m ≤ b)

/-- Every call of the history is a correct use in the state it is made in. -/
def ProperHistory (cap : Nat) (l : List Int) : List Op → Prop
  | [] => True
  | op :: ops => Proper l op ∧ ProperHistory cap (step cap l op).2 ops

end QpOASES.Spec.IntSeq
