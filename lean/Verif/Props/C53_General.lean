import Verif.Proofs.QPCAdopt
import Verif.Props.C28_TQ
import Verif.Props.C38_C44_General
import Verif.Props.C53_Guess

/-!
C53 for the solver for general constraints: guessed working sets are adopted, except for members left out because they are linearly
dependent and for equalities, which are forced to be active.
-/
namespace QpOASES.Props.General
open Spec ReturnValue SubjectToStatus SubjectToType HessianType QProblemStatus
open QpOASES.QPC

set_option linter.unusedSectionVars false

variable {K : Type} [Field K] [LinearOrder K] [IsStrictOrderedRing K]

/-- **C53** (part): if the solver sets up the working set afresh, it adopts the guess, provided that no member without limits is guessed to
be active.  If no error is reported, the data are those of a problem for which the current iterates are stationary and complementary. -/
theorem C53_afresh_partial {sq : K → K} {s s1 : QPC K} (hs : s.Shape) {wB wC : WS} (hB : CompleteGuess s.nV wB) (hC : CompleteGuess s.nC wC)
    (hr : s.shallRefactorise wB wC = true)
    (uB : ∀ i < s.nV, kindOf s.options (s.lb i) (s.ub i) = ST_UNBOUNDED → wB.getStatus i = ST_INACTIVE)
    (uC : ∀ i < s.nC, kindOf s.options (s.lbA i) (s.ubA i) = ST_UNBOUNDED → wC.getStatus i = ST_INACTIVE)
    {r : ReturnValue} (e : setupAuxiliaryQP sq s (some wB) (some wC) = .ok (r, s1)) :
    Adopted sq false s.emptied s1 wB wC (fun i => kindOf s.options (s.lb i) (s.ub i)) (fun i => kindOf s.options (s.lbA i) (s.ubA i)) ∧
      (r = SUCCESSFUL_RETURN → Consistent s1) := by
  obtain ⟨a, _, b⟩ := setupAuxiliaryQP_afresh hs hB hC hr uB uC e
  exact ⟨a, b⟩

/-- The object when the changes of its previous working set begin. -/
def preparing (s : QPC K) : QPC K := plainLI { s with status := QPS_PREPARINGAUXILIARYQP }

/-- **C53** (part): if the solver changes the previous working set, it adopts the guess, provided that these changes succeed, no
member that leaves can be exchanged (because the curvature tests are disabled or nothing leaves), dropping is not enabled and the short cut
for trivial working sets is not taken. -/
theorem C53_update_partial {sq : K → K} {s s1 : QPC K} (hs : s.Shape) {wB wC : WS} (hB : CompleteGuess s.nV wB) (hC : CompleteGuess s.nC wC)
    (hr : s.shallRefactorise wB wC = false) (hz : s.options.enableNZCTests = false ∨ s.Extended wB wC) (hd : s.options.enableDropInfeasibles = false)
    (ht : s.isTrivial (some wB) (some wC) = false)
    (hok : ∃ t, setupAuxiliaryWorkingSet sq { s with status := QPS_PREPARINGAUXILIARYQP } (some wB) (some wC) false = .ok (SUCCESSFUL_RETURN, t))
    {r : ReturnValue} (e : setupAuxiliaryQP sq s (some wB) (some wC) = .ok (r, s1)) :
    Adopted sq true (preparing s) s1 wB wC s.bounds.type s.cons.type ∧ r = SUCCESSFUL_RETURN ∧ Consistent s1 := by
  obtain ⟨a, _, b⟩ := setupAuxiliaryQP_update hs hB hC hr hz hd ht hok e
  exact ⟨a, b⟩

/-- What has been left out afresh is dependent on members that are active: the vectors used in the test are an orthonormal basis of the null
space of the constraints active at that time. -/
theorem C53_left_out_afresh {sq : K → K} {s t : QPC K} (hs : s.Shape) (hsym : s.SymH) {l : List (QPC K × Move)}
    (h : Reached sq false s.emptied l t) (he : ∀ c ∈ l, ExactMove sq false c.1 c.2) : NullBasis t :=
  Reached.nullBasis (emptied_base hs hsym) (fun h => by cases h) rfl h he

/-- The same if the previous factors are changed. -/
theorem C53_left_out_update {sq : K → K} {s t : QPC K} (h0 : s.Facs) {l : List (QPC K × Move)}
    (h : Reached sq true (preparing s) l t) (he : ∀ c ∈ l, ExactMove sq true c.1 c.2) : NullBasis t :=
  Reached.nullBasis (s0 := preparing s) ⟨⟨h0.shape.okB, h0.shape.okC, h0.shape.nB, h0.shape.nC, h0.shape.size⟩, ⟨h0.tq.le, h0.tq.tq⟩, h0.sym⟩
    (fun _ => h0.chol) rfl h he

/-- **C53** (part), as seen from outside: a hotstart with guesses starts its homotopy from the state `s1` in which the guess has been
installed; whatever differs at the end is due to at most `nWSR` recalculations and to the adaptation to the new limits. -/
theorem C53_outside_partial {sq : K → K} {fuel : Nat} {s : QPC K} {wB wC : WS} {gNew : Nat → K} {lbNew ubNew lbANew ubANew : Option (Nat → K)}
    {nWSR : Int} {c : Option K} {o : OutC K} (hn : s.nV ≠ 0) (hb : 0 ≤ nWSR)
    (h : QPC.hotstart sq fuel s gNew lbNew ubNew lbANew ubANew nWSR c (.other wB) (.other wC) = .ok o) :
    ∃ now r s1, setupAuxiliaryQP sq { s with now := now } (some wB) (some wC) = .ok (r, s1) ∧
      ∃ k : Nat, Recalcs sq k s1 o.s ∧ (k : Int) ≤ nWSR := by
  obtain ⟨_, s1, ⟨r, e⟩, k, a, b, _⟩ := C38_hotstart hn hb h
  obtain ⟨now, ek⟩ := startClock_fields s c
  rw [ek] at e
  exact ⟨now, r, s1, e, k, a, b⟩

/-! ### the hypotheses are met -/
section
open QpOASES.Runs

/-- Three variables, the first one at its lower limit; two constraints, on the second and on the third variable, both inactive. -/
def box53 : Res (OutC ℚ) := coldC (startC 3 2 HST_IDENTITY plain) none [1,-1,-1] [0,1,0, 0,0,1] [0,-10,-10] [10,10,10] [-5,-5] [5,5]

def guess53 (l : List SubjectToStatus) : WS :=
  { guessOf l with free := (List.range l.length).filter fun i => l.getD i ST_UNDEFINED == ST_INACTIVE }

/-- A guess from which the working set is set up afresh: the first constraint and the upper limit of the second variable exclude each other. -/
def afreshB : WS := guess53 [ST_INACTIVE, ST_UPPER, ST_INACTIVE]
def afreshC : WS := guess53 [ST_LOWER, ST_UPPER]
/-- A guess that needs few changes. -/
def updateB : WS := guess53 [ST_LOWER, ST_INACTIVE, ST_INACTIVE]
def updateC : WS := guess53 [ST_UPPER, ST_INACTIVE]

def wsOK (w : WS) : Bool := decide ((w.free ++ w.fixed).Perm (List.range w.n)) && (decide (∀ i ∈ w.free, w.status i = ST_INACTIVE) &&
  decide (∀ i ∈ w.fixed, w.status i = ST_LOWER ∨ w.status i = ST_UPPER))

theorem wsOK_spec {w : WS} (h : wsOK w = true) : w.OK := by
  unfold wsOK at h
  simp only [Bool.and_eq_true, decide_eq_true_eq] at h
  exact ⟨h.1, h.2.1, h.2.2⟩

theorem box53_shape : ∃ o, box53 = .ok o ∧ o.s.Shape ∧ o.s.nV = 3 ∧ o.s.nC = 2 ∧ o.s.bounds.fixed = [0] ∧ o.s.cons.fixed = [] := by
  obtain ⟨o, e, h⟩ := of_holds (r := box53) (p := fun o => wsOK o.s.bounds && (wsOK o.s.cons && decide (o.s.bounds.n = o.s.nV ∧ o.s.cons.n = o.s.nC ∧
    o.s.sizeT = min o.s.nV o.s.nC ∧ o.s.nV = 3 ∧ o.s.nC = 2 ∧ o.s.bounds.fixed = [0] ∧ o.s.cons.fixed = []))) (by decide +kernel)
  simp only [Bool.and_eq_true, decide_eq_true_eq] at h
  obtain ⟨a, b, c1, c2, c3, c4⟩ := h
  exact ⟨o, e, ⟨wsOK_spec a, wsOK_spec b, c1, c2, c3⟩, c4⟩

/-- Both guesses are complete; -/
example : CompleteGuess 3 afreshB ∧ CompleteGuess 2 afreshC ∧ CompleteGuess 3 updateB ∧ CompleteGuess 2 updateC := by
  unfold CompleteGuess
  decide

/-- the first one satisfies the conditions of `C53_afresh_partial`, and of its members the first constraint is left out; -/
example : holds (do
    let o ← box53
    let p ← setupAuxiliaryQP rootC o.s (some afreshB) (some afreshC)
    .ok (o, p)) (fun (o, p) => o.s.shallRefactorise afreshB afreshC &&
      decide ((∀ i : Nat, i < 3 → kindOf o.s.options (o.s.lb i) (o.s.ub i) = ST_BOUNDED) ∧
        (∀ i : Nat, i < 2 → kindOf o.s.options (o.s.lbA i) (o.s.ubA i) = ST_BOUNDED) ∧
        p.1 = SUCCESSFUL_RETURN ∧ p.2.bounds.fixed = [1] ∧ p.2.bounds.status 1 = ST_UPPER ∧ p.2.cons.fixed = [1] ∧ p.2.cons.status 1 = ST_UPPER)) = true := by
  decide +kernel

/-- the second one those of `C53_update_partial`. -/
example : holds (do
    let o ← box53
    let t ← setupAuxiliaryWorkingSet rootC { o.s with status := QPS_PREPARINGAUXILIARYQP } (some updateB) (some updateC) false
    let p ← setupAuxiliaryQP rootC o.s (some updateB) (some updateC)
    .ok (o, t, p)) (fun (o, t, p) => !o.s.shallRefactorise updateB updateC && (!o.s.isTrivial (some updateB) (some updateC) &&
      decide (((∀ i : Nat, i < 3 → o.s.bounds.status i ≠ ST_INACTIVE → o.s.bounds.status i = updateB.getStatus i) ∧
          ∀ i : Nat, i < 2 → o.s.cons.status i ≠ ST_INACTIVE → o.s.cons.status i = updateC.getStatus i) ∧
        o.s.options.enableDropInfeasibles = false ∧ t.1 = SUCCESSFUL_RETURN ∧
        p.1 = SUCCESSFUL_RETURN ∧ p.2.bounds.fixed = [0] ∧ p.2.cons.fixed = [0] ∧ p.2.cons.status 0 = ST_UPPER))) = true := by
  decide +kernel

/-- An exact way from the empty working set: the second variable is fixed, after which the first constraint is dependent. -/
example : ∃ o t, box53 = .ok o ∧ (∃ l, Reached rootC false o.s.emptied l t ∧ l ≠ [] ∧ ∀ c ∈ l, ExactMove rootC false c.1 c.2) ∧
    t.bounds.fixed = [1] ∧ t.nZ = 2 ∧ DependentC t 0 := by
  obtain ⟨⟨o, r, t⟩, e, h⟩ := of_holds (r := do
      let o ← box53
      let p ← addBoundAs rootC o.s.emptied 1 ST_UPPER false
      Res.ok (o, p)) (p := fun q => decide (q.2.1 = SUCCESSFUL_RETURN ∧ 1 < q.1.s.emptied.nV ∧ q.1.s.emptied.CleanAddB rootC 1 false ∧ q.2.2.bounds.fixed = [1] ∧
        q.2.2.nZ = 2) && (holds (q.1.s.emptied.checkLIBound 1) id && (holds (q.2.2.checkLIConstraint 0) (!·) && !q.2.2.options.enableFullLITests)))
    (by decide +kernel)
  obtain ⟨o', e1, e⟩ := Res.bind_eq_ok.1 e
  obtain ⟨p', e2, e⟩ := Res.bind_eq_ok.1 e
  cases e
  rw [Bool.and_eq_true, Bool.and_eq_true, Bool.and_eq_true] at h
  obtain ⟨h, h5, h6, h7⟩ := h
  obtain ⟨rfl, h1, h2, h3, h4⟩ := of_decide_eq_true h
  obtain ⟨b, h5, hb⟩ := of_holds h5
  obtain ⟨b', h6, hb'⟩ := of_holds h6
  refine ⟨o, t, e1, ⟨[(o.s.emptied, .fix 1 ST_UPPER)], Reached.step .start ⟨h1, Or.inr rfl⟩ e2, by simp, ?_⟩, h3, h4, ?_⟩
  · intro c hc
    rw [List.mem_singleton] at hc
    subst hc
    refine ⟨?_, h2⟩
    rw [h5]
    exact congrArg Res.ok hb
  · refine dependentC_of_check (by simpa using h7) ?_
    rw [h6]
    exact congrArg Res.ok (by simpa using hb')

/-- **C53 violated**: a null pointer for the guessed bounds is documented to keep the previous working set of bounds.  If the guessed
constraints make the solver set up its factors afresh, the previous working set of bounds is lost: the first variable, which was fixed at its
lower limit, is free. -/
theorem C53_null_guess_violated : ∃ o o', box53 = .ok o ∧ o.rv = SUCCESSFUL_RETURN ∧ o.s.bounds.status 0 = ST_LOWER ∧
    hotC box53 [1,-1,-1] (some [0,-10,-10]) (some [10,10,10]) (some [-5,-5]) (some [5,5]) .null (.other (guess53 [ST_LOWER, ST_LOWER])) 0 = .ok o' ∧
    o'.nWSR = 0 ∧ o'.s.cons.fixed = [0, 1] ∧ o'.s.bounds.status 0 = ST_INACTIVE := by
  obtain ⟨o, e, h⟩ := of_holds (r := box53) (p := fun o => decide (o.rv = SUCCESSFUL_RETURN ∧ o.s.bounds.status 0 = ST_LOWER)) (by decide +kernel)
  obtain ⟨o', e', h'⟩ := of_holds (r := hotC box53 [1,-1,-1] (some [0,-10,-10]) (some [10,10,10]) (some [-5,-5]) (some [5,5]) .null
    (.other (guess53 [ST_LOWER, ST_LOWER])) 0) (p := fun o => decide (o.nWSR = 0 ∧ o.s.cons.fixed = [0, 1] ∧ o.s.bounds.status 0 = ST_INACTIVE))
    (by decide +kernel)
  obtain ⟨h1, h2⟩ := of_decide_eq_true h
  exact ⟨o, o', e, h1, h2, e', of_decide_eq_true h'⟩

end

end QpOASES.Props.General
