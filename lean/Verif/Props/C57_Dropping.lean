import Verif.Proofs.QPCFrame
import Verif.Proofs.QPCFactor
import Verif.Proofs.QPCRuns

/-!
C57: what is dropped when a new member of the working set is linearly dependent and no member can be exchanged for it.
-/
namespace QpOASES.Props
open Spec QpOASES.QPC QpOASES.Runs ReturnValue SubjectToStatus SubjectToType HessianType QProblemStatus

variable {K : Type} [Field K] [LinearOrder K] [IsStrictOrderedRing K]

/-- A member of the problem: a variable with its bounds, or a constraint. -/
inductive Member where
  | bound (k : Nat)
  | con (k : Nat)
deriving DecidableEq

/-- The configured priority of a member; equality constraints have their own. -/
def priority (s : QPC K) : Member → Int
  | .bound _ => s.options.dropBoundPriority
  | .con k => if s.cons.type k = ST_EQUALITY then s.options.dropEqConPriority else s.options.dropIneqConPriority

/-- The status of a member. -/
def statusOf (s : QPC K) : Member → SubjectToStatus
  | .bound k => s.bounds.getStatus k
  | .con k => s.cons.getStatus k

/-- The active members the new one depends on: their coefficient in the linear combination does not vanish. -/
inductive Involved (s : QPC K) (xiB xiC : Nat → K) : Member → Prop where
  | bound (i : Nat) (hi : i < s.bounds.fixed.length) (h : s.options.epsDen < |xiB i|) : Involved s xiB xiC (.bound (s.bounds.fixed.getD i 0))
  | con (i : Nat) (hi : i < s.cons.fixed.length) (h : s.options.epsDen < |xiC i|) : Involved s xiB xiC (.con (s.cons.fixed.getD i 0))

/-- The priority of the member that is to become active.  A constraint counts as an inequality. -/
def blockingPriority (s : QPC K) (isBound : Bool) : Int := if isBound then s.options.dropBoundPriority else s.options.dropIneqConPriority

def asMember (isBound : Bool) (k : Nat) : Member := if isBound then .bound k else .con k

/-- Every active constraint has the type of the constraint whose number is its position in the list of active ones, and this type is
equality or inequality. -/
def TypesMatch (s : QPC K) : Prop :=
  ∀ i < s.cons.fixed.length, s.cons.type i = s.cons.type (s.cons.fixed.getD i 0) ∧ (s.cons.type i = ST_EQUALITY ∨ s.cons.type i = ST_BOUNDED)

/-- `dropChoice` for given results of the three searches. -/
def pick (s : QPC K) (block : Int) (E I B : Option Nat) : Option (Bool × Nat) :=
  let p : Option (Bool × Nat) × Int := (none, block)
  let p := if s.options.dropEqConPriority ≤ p.2 then
      match E with | some i => (some (false, s.ac i), s.options.dropEqConPriority) | none => p
    else p
  let p := if s.options.dropIneqConPriority ≤ p.2 then
      match I with | some i => (some (false, s.ac i), s.options.dropIneqConPriority) | none => p
    else p
  if s.options.dropBoundPriority ≤ p.2 then
    match B with | some i => some (true, s.fx i) | none => p.1
  else p.1

theorem dropChoice_spec {s : QPC K} {isBound : Bool} {xiB xiC : Nat → K} (hT : TypesMatch s) :
    match s.dropChoice isBound xiB xiC with
    | some (b, k) => Involved s xiB xiC (asMember b k) ∧ priority s (asMember b k) ≤ blockingPriority s isBound ∧
        ∀ m, Involved s xiB xiC m → priority s (asMember b k) ≤ priority s m
    | none => ∀ m, Involved s xiB xiC m → blockingPriority s isBound < priority s m := by
  have some_ : ∀ t i, ((List.range s.nAC).find? fun i => s.cons.type i == t && decide (getAbs (xiC i) > s.options.epsDen)) = some i →
      i < s.cons.fixed.length ∧ s.cons.type (s.cons.fixed.getD i 0) = t ∧ s.options.epsDen < |xiC i| := by
    intro t i h
    have h1 := List.find?_some h
    have h2 := List.mem_range.1 (List.mem_of_find?_eq_some h)
    simp only [Bool.and_eq_true, beq_iff_eq, decide_eq_true_eq, getAbs] at h1
    exact ⟨h2, by rw [← (hT i h2).1]; exact h1.1, of_decide_eq_true h1.2⟩
  have none_ : ∀ t, ((List.range s.nAC).find? fun i => s.cons.type i == t && decide (getAbs (xiC i) > s.options.epsDen)) = none →
      ∀ i < s.cons.fixed.length, s.options.epsDen < |xiC i| → s.cons.type (s.cons.fixed.getD i 0) ≠ t := by
    intro t h i hi hx e
    have := List.find?_eq_none.1 h i (List.mem_range.2 hi)
    simp only [Bool.and_eq_true, beq_iff_eq, decide_eq_true_eq, getAbs] at this
    exact this ⟨by rw [(hT i hi).1]; exact e, decide_eq_true hx⟩
  have pc : ∀ i < s.cons.fixed.length, (s.cons.type (s.cons.fixed.getD i 0) = ST_EQUALITY ∧ priority s (.con (s.cons.fixed.getD i 0)) = s.options.dropEqConPriority) ∨
      (s.cons.type (s.cons.fixed.getD i 0) = ST_BOUNDED ∧ priority s (.con (s.cons.fixed.getD i 0)) = s.options.dropIneqConPriority) := by
    intro i hi
    have := (hT i hi).2
    rw [(hT i hi).1] at this
    unfold priority
    rcases this with e | e
    · exact Or.inl ⟨e, if_pos e⟩
    · exact Or.inr ⟨e, if_neg (by rw [e]; decide)⟩
  have bs : ∀ i, ((List.range s.nFX).find? fun i => decide (getAbs (xiB i) > s.options.epsDen)) = some i →
      i < s.bounds.fixed.length ∧ s.options.epsDen < |xiB i| := fun i h =>
    ⟨List.mem_range.1 (List.mem_of_find?_eq_some h), by have := List.find?_some h; exact of_decide_eq_true this⟩
  have bn : ((List.range s.nFX).find? fun i => decide (getAbs (xiB i) > s.options.epsDen)) = none →
      ∀ i < s.bounds.fixed.length, ¬ s.options.epsDen < |xiB i| := fun h i hi hx =>
    List.find?_eq_none.1 h i (List.mem_range.2 hi) (decide_eq_true hx)
  have es := some_ ST_EQUALITY
  have en := none_ ST_EQUALITY
  have is := some_ ST_BOUNDED
  have in_ := none_ ST_BOUNDED
  have e0 : s.dropChoice isBound xiB xiC = pick s (blockingPriority s isBound)
      ((List.range s.nAC).find? fun i => s.cons.type i == ST_EQUALITY && decide (getAbs (xiC i) > s.options.epsDen))
      ((List.range s.nAC).find? fun i => s.cons.type i == ST_BOUNDED && decide (getAbs (xiC i) > s.options.epsDen))
      ((List.range s.nFX).find? fun i => decide (getAbs (xiB i) > s.options.epsDen)) := rfl
  rw [e0]
  generalize ((List.range s.nAC).find? fun i => s.cons.type i == ST_EQUALITY && decide (getAbs (xiC i) > s.options.epsDen)) = E at *
  generalize ((List.range s.nAC).find? fun i => s.cons.type i == ST_BOUNDED && decide (getAbs (xiC i) > s.options.epsDen)) = I at *
  generalize ((List.range s.nFX).find? fun i => decide (getAbs (xiB i) > s.options.epsDen)) = B at *
  have all : ∀ (q : Int), (∀ i, i < s.bounds.fixed.length → s.options.epsDen < |xiB i| → q ≤ s.options.dropBoundPriority) →
      (∀ i, i < s.cons.fixed.length → s.options.epsDen < |xiC i| → s.cons.type (s.cons.fixed.getD i 0) = ST_EQUALITY → q ≤ s.options.dropEqConPriority) →
      (∀ i, i < s.cons.fixed.length → s.options.epsDen < |xiC i| → s.cons.type (s.cons.fixed.getD i 0) = ST_BOUNDED → q ≤ s.options.dropIneqConPriority) →
      ∀ m, Involved s xiB xiC m → q ≤ priority s m := by
    intro q h1 h2 h3 m hm
    cases hm with
    | bound i hi h => exact h1 i hi h
    | con i hi h =>
      rcases pc i hi with ⟨t, e⟩ | ⟨t, e⟩
      · rw [e]; exact h2 i hi h t
      · rw [e]; exact h3 i hi h t
  generalize blockingPriority s isBound = p
  have cB : ∀ i, i < s.bounds.fixed.length → s.options.epsDen < |xiB i| → Involved s xiB xiC (asMember true (s.fx i)) ∧
      priority s (asMember true (s.fx i)) = s.options.dropBoundPriority := fun i hi h => ⟨Involved.bound i hi h, rfl⟩
  have cE : ∀ i, i < s.cons.fixed.length → s.options.epsDen < |xiC i| → s.cons.type (s.cons.fixed.getD i 0) = ST_EQUALITY →
      Involved s xiB xiC (asMember false (s.ac i)) ∧ priority s (asMember false (s.ac i)) = s.options.dropEqConPriority :=
    fun i hi h t => ⟨Involved.con i hi h, if_pos t⟩
  have cI : ∀ i, i < s.cons.fixed.length → s.options.epsDen < |xiC i| → s.cons.type (s.cons.fixed.getD i 0) = ST_BOUNDED →
      Involved s xiB xiC (asMember false (s.ac i)) ∧ priority s (asMember false (s.ac i)) = s.options.dropIneqConPriority :=
    fun i hi h t => ⟨Involved.con i hi h, if_neg (by show s.cons.type (s.cons.fixed.getD i 0) ≠ _; rw [t]; decide)⟩
  have none2 : (∀ m, Involved s xiB xiC m → p + 1 ≤ priority s m) → ∀ m, Involved s xiB xiC m → p < priority s m := fun h => h
  clear some_ none_ pc hT
  rcases E with _ | i <;> rcases I with _ | j <;> rcases B with _ | l <;> unfold pick <;> dsimp only <;> split_ifs <;> dsimp only <;>
    first
    | (obtain ⟨a, b⟩ := bs _ rfl
       obtain ⟨c, d⟩ := cB _ a b
       refine ⟨c, by omega, ?_⟩
       rw [d]
       refine all _ ?_ ?_ ?_ <;> intro i hi h <;>
        first | omega | exact absurd h (bn rfl i hi) | exact fun t => absurd t (en rfl i hi h) | exact fun t => absurd t (in_ rfl i hi h))
    | (obtain ⟨a, t, b⟩ := is _ rfl
       obtain ⟨c, d⟩ := cI _ a b t
       refine ⟨c, by omega, ?_⟩
       rw [d]
       refine all _ ?_ ?_ ?_ <;> intro i hi h <;>
        first | omega | exact absurd h (bn rfl i hi) | exact fun t => absurd t (en rfl i hi h) | exact fun t => absurd t (in_ rfl i hi h))
    | (obtain ⟨a, t, b⟩ := es _ rfl
       obtain ⟨c, d⟩ := cE _ a b t
       refine ⟨c, by omega, ?_⟩
       rw [d]
       refine all _ ?_ ?_ ?_ <;> intro i hi h <;>
        first | omega | exact absurd h (bn rfl i hi) | exact fun t => absurd t (en rfl i hi h) | exact fun t => absurd t (in_ rfl i hi h))
    | (refine none2 (all _ ?_ ?_ ?_) <;> intro i hi h <;>
        first | omega | exact absurd h (bn rfl i hi) | exact fun t => absurd t (en rfl i hi h) | exact fun t => absurd t (in_ rfl i hi h))

theorem newDiag_sets {sq : K → K} {s s' : QPC K} {n : Nat} {v : K} {a b : Bool} {r : ReturnValue}
    (h : newDiag sq s n v a b = some (r, s')) : s'.bounds = s.bounds ∧ s'.cons = s.cons := by
  unfold newDiag at h
  dsimp only at h
  split at h
  · split at h <;> cases h
    exact ⟨rfl, rfl⟩
  · split at h
    · split at h
      · cases h; exact ⟨rfl, rfl⟩
      · split at h <;> cases h <;> exact ⟨rfl, rfl⟩
    · cases h; exact ⟨rfl, rfl⟩

theorem newDiag_unflipped (sq : K → K) (s : QPC K) (n : Nat) (v : K) (b : Bool) : newDiag sq s n v false b ≠ none := by
  unfold newDiag
  dsimp only
  rw [if_neg (by simp)]
  split
  · split
    · simp
    · rw [if_pos rfl]; simp
  · simp

theorem move_frame (w : WS) (k : Nat) : (w.moveFixedToFree k).n = w.n ∧ ∀ j, j ≠ k → (w.moveFixedToFree k).status j = w.status j :=
  ⟨rfl, fun _ hj => updA_ne _ _ hj⟩

theorem removeConstraint_frame {sq : K → K} {s s' : QPC K} {k : Nat} {u : Bool} {r : ReturnValue}
    (h : removeConstraint sq s k u false false = .ok (r, s')) :
    s'.bounds = s.bounds ∧ s'.cons.n = s.cons.n ∧ ∀ j, j ≠ k → s'.cons.status j = s.cons.status j := by
  unfold removeConstraint at h
  split at h
  · cases h; exact ⟨rfl, rfl, fun _ _ => rfl⟩
  split at h
  · cases h; exact ⟨rfl, rfl, fun _ _ => rfl⟩
  split at h
  · cases h; exact ⟨rfl, rfl, fun _ _ => rfl⟩
  rw [if_neg (by decide)] at h
  unfold removeConstraintUpdate at h
  dsimp only at h
  generalize hs0 : (if (none : Option Change).isNone = true ∧ s.options.enableFlippingBounds = true ∧ false = true then s.saveFlip else s) = s0 at h
  rw [if_neg (by simp)] at hs0
  subst hs0
  split at h
  · obtain ⟨p, _, h⟩ := Res.bind_eq_ok.1 h
    cases p with
    | none => cases h; exact ⟨rfl, rfl, fun _ _ => rfl⟩
    | some p =>
      dsimp only at h
      split at h
      · rename_i hd
        exact absurd hd (newDiag_unflipped _ _ _ _ _)
      · rename_i r1 s1 hd
        obtain ⟨a, b⟩ := newDiag_sets hd
        have a : s1.bounds = s.bounds := a
        have b : s1.cons = s.cons := b
        split at h
        · cases h; exact ⟨a, by rw [b], fun _ _ => by rw [b]⟩
        · cases h
          refine ⟨a, ?_, ?_⟩ <;> dsimp only <;> rw [b]
          · exact (move_frame s.cons k).1
          · exact (move_frame s.cons k).2
  · cases h
    exact ⟨rfl, move_frame s.cons k⟩

theorem removeBound_frame {sq : K → K} {s s' : QPC K} {k : Nat} {u : Bool} {r : ReturnValue}
    (h : removeBound sq s k u false false = .ok (r, s')) :
    s'.cons = s.cons ∧ s'.bounds.n = s.bounds.n ∧ ∀ j, j ≠ k → s'.bounds.status j = s.bounds.status j := by
  unfold removeBound at h
  split at h
  · cases h; exact ⟨rfl, rfl, fun _ _ => rfl⟩
  split at h
  · cases h; exact ⟨rfl, rfl, fun _ _ => rfl⟩
  rw [if_neg (by decide)] at h
  unfold removeBoundUpdate at h
  dsimp only at h
  generalize hs0 : (if s.options.enableFlippingBounds = true ∧ false = true ∧ (none : Option Change).isNone = true then s.saveFlip else s) = s0 at h
  rw [if_neg (by simp)] at hs0
  subst hs0
  split at h
  · obtain ⟨p, _, h⟩ := Res.bind_eq_ok.1 h
    cases p with
    | none => cases h; exact ⟨rfl, move_frame s.bounds k⟩
    | some p =>
      dsimp only at h
      split at h
      · rename_i hd
        exact absurd hd (newDiag_unflipped _ _ _ _ _)
      · rename_i r1 s1 hd
        obtain ⟨a, b⟩ := newDiag_sets hd
        have a : s1.bounds = s.bounds.moveFixedToFree k := a
        have b : s1.cons = s.cons := b
        split at h
        · cases h; rw [a]; exact ⟨b, move_frame s.bounds k⟩
        · cases h; rw [a]; exact ⟨b, move_frame s.bounds k⟩
  · cases h
    exact ⟨rfl, move_frame s.bounds k⟩

theorem setStatus_at {w : WS} {k : Nat} (hk : k < w.n) (st : SubjectToStatus) : (w.setStatus k st).getStatus k = st := by
  unfold WS.setStatus
  rw [if_pos hk]
  unfold WS.getStatus
  rw [if_pos (show k < w.n from hk)]
  exact updA_same _ _ _

theorem setStatus_other {w w' : WS} {k j : Nat} (hn : w'.n = w.n) (h : ∀ j, j ≠ k → w'.status j = w.status j) (hj : j ≠ k) (st : SubjectToStatus) :
    (w'.setStatus k st).getStatus j = w.getStatus j := by
  unfold WS.setStatus
  split
  · unfold WS.getStatus
    dsimp only
    rw [updA_ne _ _ hj, hn, h j hj]
  · unfold WS.getStatus
    rw [hn, h j hj]

/-- Marked as dropped at its former side. -/
def Dropped (st st' : SubjectToStatus) : Prop := st' = if st = ST_LOWER then ST_INFEASIBLE_LOWER else ST_INFEASIBLE_UPPER

theorem Involved.lt {s : QPC K} (hs : s.Shape) {xiB xiC : Nat → K} {m : Member} (h : Involved s xiB xiC m) :
    match m with | .bound k => k < s.bounds.n | .con k => k < s.cons.n := by
  have key : ∀ {w : WS}, w.OK → ∀ i, i < w.fixed.length → w.fixed.getD i 0 < w.n := by
    intro w hw i hi
    have : w.fixed.getD i 0 ∈ w.free ++ w.fixed := by
      rw [List.getD_eq_getElem _ _ hi]
      exact List.mem_append_right _ (List.getElem_mem hi)
    exact List.mem_range.1 (hw.perm.mem_iff.1 this)
  cases h with
  | bound i hi h => exact key hs.okB i hi
  | con i hi h => exact key hs.okC i hi

theorem dropInfeasibles_effect {sq : K → K} {s s' : QPC K} {number : Nat} {st : SubjectToStatus} {isBound : Bool} {xiB xiC : Nat → K} {r : ReturnValue}
    (hs : s.Shape) (hk : if isBound then number < s.nV else number < s.nC)
    (h : dropInfeasibles sq s number st isBound xiB xiC = .ok (r, s')) :
    ∃ m, (∀ m', m' ≠ m → statusOf s' m' = statusOf s m') ∧
      ((r = SUCCESSFUL_RETURN ∧ (∃ b k, m = asMember b k ∧ s.dropChoice isBound xiB xiC = some (b, k)) ∧
          (Involved s xiB xiC m → Dropped (statusOf s m) (statusOf s' m))) ∨
       (r = RET_ENSURELI_DROPPED ∧ m = asMember isBound number ∧ s.dropChoice isBound xiB xiC = none ∧ Dropped st (statusOf s' m))) := by
  unfold dropInfeasibles at h
  split at h
  · rename_i k e
    obtain ⟨⟨r1, s1⟩, e1, h⟩ := Res.bind_eq_ok.1 h
    obtain ⟨a, b, c⟩ := removeBound_frame e1
    cases h
    refine ⟨.bound k, ?_, Or.inl ⟨rfl, ⟨true, k, rfl, e⟩, fun hi => ?_⟩⟩
    · intro m' hm
      cases m' with
      | bound j => exact setStatus_other b c (fun e => hm (by rw [e])) _
      | con j => exact congrArg (fun w => WS.getStatus w j) a
    · have hlt := hi.lt hs
      exact setStatus_at (by rw [b]; exact hlt) _
  · rename_i k e
    obtain ⟨⟨r1, s1⟩, e1, h⟩ := Res.bind_eq_ok.1 h
    obtain ⟨a, b, c⟩ := removeConstraint_frame e1
    cases h
    refine ⟨.con k, ?_, Or.inl ⟨rfl, ⟨false, k, rfl, e⟩, fun hi => ?_⟩⟩
    · intro m' hm
      cases m' with
      | bound j => exact congrArg (fun w => WS.getStatus w j) a
      | con j => exact setStatus_other b c (fun e => hm (by rw [e])) _
    · have hlt := hi.lt hs
      exact setStatus_at (by rw [b]; exact hlt) _
  · rename_i e
    cases isBound with
    | true =>
      rw [if_pos rfl] at h hk
      cases h
      refine ⟨.bound number, ?_, Or.inr ⟨rfl, rfl, e, setStatus_at (by rw [hs.nB]; exact hk) _⟩⟩
      intro m' hm
      cases m' with
      | bound j => exact setStatus_other rfl (fun _ _ => rfl) (fun e => hm (by rw [e])) _
      | con j => rfl
    | false =>
      rw [if_neg (by decide)] at h hk
      cases h
      refine ⟨.con number, ?_, Or.inr ⟨rfl, rfl, e, setStatus_at (by rw [hs.nC]; exact hk) _⟩⟩
      intro m' hm
      cases m' with
      | bound j => rfl
      | con j => exact setStatus_other rfl (fun _ _ => rfl) (fun e => hm (by rw [e])) _

theorem dropChoice_involved {s : QPC K} {isBound : Bool} {xiB xiC : Nat → K} {b : Bool} {k : Nat} (h : s.dropChoice isBound xiB xiC = some (b, k)) :
    Involved s xiB xiC (asMember b k) ∧ (b = true → s.options.dropBoundPriority ≤ blockingPriority s isBound) ∧
      (b = false → s.options.dropEqConPriority ≤ blockingPriority s isBound ∨ s.options.dropIneqConPriority ≤ blockingPriority s isBound) := by
  have cs : ∀ t i, ((List.range s.nAC).find? fun i => s.cons.type i == t && decide (getAbs (xiC i) > s.options.epsDen)) = some i →
      Involved s xiB xiC (.con (s.ac i)) := by
    intro t i h
    have h1 := List.find?_some h
    have h2 := List.mem_range.1 (List.mem_of_find?_eq_some h)
    rw [Bool.and_eq_true] at h1
    exact Involved.con i h2 (of_decide_eq_true h1.2)
  have bs : ∀ i, ((List.range s.nFX).find? fun i => decide (getAbs (xiB i) > s.options.epsDen)) = some i → Involved s xiB xiC (.bound (s.fx i)) := by
    intro i h
    have h1 := List.find?_some h
    exact Involved.bound i (List.mem_range.1 (List.mem_of_find?_eq_some h)) (of_decide_eq_true h1)
  have e0 : s.dropChoice isBound xiB xiC = pick s (blockingPriority s isBound)
      ((List.range s.nAC).find? fun i => s.cons.type i == ST_EQUALITY && decide (getAbs (xiC i) > s.options.epsDen))
      ((List.range s.nAC).find? fun i => s.cons.type i == ST_BOUNDED && decide (getAbs (xiC i) > s.options.epsDen))
      ((List.range s.nFX).find? fun i => decide (getAbs (xiB i) > s.options.epsDen)) := rfl
  rw [e0] at h
  have es := cs ST_EQUALITY
  have is := cs ST_BOUNDED
  generalize ((List.range s.nAC).find? fun i => s.cons.type i == ST_EQUALITY && decide (getAbs (xiC i) > s.options.epsDen)) = E at *
  generalize ((List.range s.nAC).find? fun i => s.cons.type i == ST_BOUNDED && decide (getAbs (xiC i) > s.options.epsDen)) = I at *
  generalize ((List.range s.nFX).find? fun i => decide (getAbs (xiB i) > s.options.epsDen)) = B at *
  generalize blockingPriority s isBound = p at *
  clear cs e0
  rcases E with _ | i <;> rcases I with _ | j <;> rcases B with _ | l <;> unfold pick at h <;> dsimp only at h <;> split_ifs at h <;>
    (try dsimp only at h) <;> cases h <;> refine ⟨by first | exact bs _ rfl | exact es _ rfl | exact is _ rfl, ?_, ?_⟩ <;> intro e <;>
    first | omega | cases e

/-- Effect of dropping, whatever the types and priorities are: exactly one member is marked as infeasible, namely an active one the new
member depends on (`SUCCESSFUL_RETURN`) or the new member itself (`RET_ENSURELI_DROPPED`); no other status changes.  A bound is dropped
only on behalf of its priority, a constraint on behalf of the priority of equalities or of inequalities. -/
theorem C57_single_partial {sq : K → K} {s s' : QPC K} {number : Nat} {st : SubjectToStatus} {isBound : Bool} {xiB xiC : Nat → K} {r : ReturnValue}
    (hs : s.Shape) (hk : if isBound then number < s.nV else number < s.nC)
    (h : dropInfeasibles sq s number st isBound xiB xiC = .ok (r, s')) :
    ∃ m, (∀ m', m' ≠ m → statusOf s' m' = statusOf s m') ∧
      ((r = SUCCESSFUL_RETURN ∧ Involved s xiB xiC m ∧ Dropped (statusOf s m) (statusOf s' m) ∧
          match m with
          | .bound _ => s.options.dropBoundPriority ≤ blockingPriority s isBound
          | .con _ => s.options.dropEqConPriority ≤ blockingPriority s isBound ∨ s.options.dropIneqConPriority ≤ blockingPriority s isBound) ∨
       (r = RET_ENSURELI_DROPPED ∧ m = asMember isBound number ∧ Dropped st (statusOf s' m))) := by
  obtain ⟨m, h1, h2⟩ := dropInfeasibles_effect hs hk h
  refine ⟨m, h1, ?_⟩
  rcases h2 with ⟨a, ⟨b, k, rfl, e⟩, d⟩ | ⟨a, b, _, d⟩
  · obtain ⟨i, p, q⟩ := dropChoice_involved e
    refine Or.inl ⟨a, i, d i, ?_⟩
    cases b with
    | true => exact p rfl
    | false => exact q rfl
  · exact Or.inr ⟨a, b, d⟩

/-- C57 when the types looked up by position are the right ones, for example if all constraints are inequalities or all are equalities:
the dropped member has the lowest priority of all the active ones the new member depends on, and not a higher one than the new member;
the new member itself is dropped only if all these have a higher priority. -/
theorem C57_partial {sq : K → K} {s s' : QPC K} {number : Nat} {st : SubjectToStatus} {isBound : Bool} {xiB xiC : Nat → K} {r : ReturnValue}
    (hs : s.Shape) (hk : if isBound then number < s.nV else number < s.nC) (hT : TypesMatch s)
    (h : dropInfeasibles sq s number st isBound xiB xiC = .ok (r, s')) :
    ∃ m, (∀ m', m' ≠ m → statusOf s' m' = statusOf s m') ∧
      ((r = SUCCESSFUL_RETURN ∧ Involved s xiB xiC m ∧ Dropped (statusOf s m) (statusOf s' m) ∧ priority s m ≤ blockingPriority s isBound ∧
          ∀ m', Involved s xiB xiC m' → priority s m ≤ priority s m') ∨
       (r = RET_ENSURELI_DROPPED ∧ m = asMember isBound number ∧ Dropped st (statusOf s' m) ∧
          ∀ m', Involved s xiB xiC m' → blockingPriority s isBound < priority s m')) := by
  obtain ⟨m, h1, h2⟩ := dropInfeasibles_effect hs hk h
  refine ⟨m, h1, ?_⟩
  have S := dropChoice_spec (isBound := isBound) (xiB := xiB) (xiC := xiC) hT
  rcases h2 with ⟨a, ⟨b, k, rfl, e⟩, d⟩ | ⟨a, b, e, d⟩ <;> rw [e] at S
  · obtain ⟨i, p, q⟩ := S
    exact Or.inl ⟨a, i, d i, p, q⟩
  · exact Or.inr ⟨a, b, d, S⟩

/-- Two variables, the constraints x₁ ≥ 1 (active) and x₁ ≤ 0 (to become active), inequalities, and x₂ fixed at its lower bound. -/
def dropState : QPC ℚ :=
  { startC 2 2 HST_IDENTITY { plain with enableDropInfeasibles := true, dropIneqConPriority := 1, dropBoundPriority := 2, dropEqConPriority := 3 } with
    status := QPS_PREPARINGAUXILIARYQP
    bounds := { WS.init 2 with type := fun _ => ST_BOUNDED, status := fun i => if i = 1 then ST_LOWER else ST_INACTIVE, free := [0], fixed := [1] }
    cons := { WS.init 2 with type := fun _ => ST_BOUNDED, status := fun i => if i = 0 then ST_LOWER else ST_INACTIVE, free := [1], fixed := [0] }
    A := fun _ j => if j = 0 then 1 else 0 }

/-- The hypotheses of C57_partial are met, and constraint 0 is dropped. -/
example : dropState.Shape ∧ TypesMatch dropState ∧ ∃ s', dropInfeasibles id dropState 1 ST_UPPER false (fun _ => 0) (fun _ => 1) = .ok (SUCCESSFUL_RETURN, s') ∧
    statusOf s' (.con 0) = ST_INFEASIBLE_LOWER ∧ statusOf s' (.bound 1) = ST_LOWER := by
  refine ⟨⟨⟨by decide, by decide, by decide⟩, ⟨by decide, by decide, by decide⟩, rfl, rfl, rfl⟩, fun i _ => ⟨rfl, Or.inr rfl⟩, ?_⟩
  obtain ⟨⟨r, s'⟩, e, h⟩ := of_holds (r := dropInfeasibles id dropState 1 ST_UPPER false (fun _ => 0) (fun _ => 1))
    (p := fun o => decide (o.1 = SUCCESSFUL_RETURN ∧ statusOf o.2 (.con 0) = ST_INFEASIBLE_LOWER ∧ statusOf o.2 (.bound 1) = ST_LOWER)) (by decide +kernel)
  obtain ⟨rfl, h⟩ := of_decide_eq_true h
  exact ⟨s', e, h⟩

/-- The new constraint is dropped itself if the active one is an equality. -/
example : TypesMatch { dropState with cons := { dropState.cons with type := fun _ => ST_EQUALITY } } ∧
    holds (dropInfeasibles id { dropState with cons := { dropState.cons with type := fun _ => ST_EQUALITY } } 1 ST_UPPER false (fun _ => 0) (fun _ => 1))
      (fun o => decide (o.1 = RET_ENSURELI_DROPPED ∧ statusOf o.2 (.con 1) = ST_INFEASIBLE_UPPER ∧ statusOf o.2 (.con 0) = ST_LOWER)) = true := by
  refine ⟨fun i _ => ⟨rfl, Or.inl rfl⟩, by decide +kernel⟩

end QpOASES.Props
