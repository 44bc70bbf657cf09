import Verif.Proofs.QPCGuessFar
import Verif.Proofs.QPCOutcome

/-!
Hotstarts with a guess for the bounds only or for the constraints only: they do what hotstarts with both guesses do.
-/
namespace QpOASES
namespace QPC
open Finset Props Spec ReturnValue SubjectToStatus SubjectToType HessianType QProblemStatus
open QPB (lowerOf upperOf Proper)

set_option linter.unusedSectionVars false

variable {K : Type} [Field K] [LinearOrder K] [IsStrictOrderedRing K]

theorem seqLoop_skip {f : Nat → QPC K → Res (ReturnValue × QPC K)} {s : QPC K} : ∀ (m i : Nat),
    (∀ j, i ≤ j → j < i + m → f j s = .ok (SUCCESSFUL_RETURN, s)) → seqLoop f m i s = .ok (SUCCESSFUL_RETURN, s) := by
  intro m
  induction m with
  | zero => intro i _; rfl
  | succ m ih =>
    intro i h
    rw [seqLoop, h i le_rfl (by omega), Res.bind_ok]
    dsimp only
    rw [if_neg (by decide)]
    exact ih (i+1) fun j h1 h2 => h j (by omega) (by omega)

theorem auxAddC_own {sq : K → K} {upd : Bool} (i : Nat) (s : QPC K) : auxAddC sq none upd i s = .ok (SUCCESSFUL_RETURN, s) := by
  unfold auxAddC
  rw [if_neg (show ¬ (_ ∧ s.wantC none i ≠ ST_INACTIVE ∧ s.cons.getStatus i = ST_INACTIVE) from fun h => h.2.1 h.2.2)]

theorem auxAddB_own {sq : K → K} {upd : Bool} (i : Nat) (s : QPC K) : auxAddB sq none upd i s = .ok (SUCCESSFUL_RETURN, s) := by
  unfold auxAddB
  rw [if_neg (show ¬ (_ ∧ s.bounds.getStatus i = ST_INACTIVE ∧ s.wantB none i ≠ ST_INACTIVE) from fun h => h.2.2 h.2.1)]

theorem auxAddC_inactive {sq : K → K} {upd : Bool} {w : WS} {i : Nat} (h : w.getStatus i = ST_INACTIVE) (s : QPC K) :
    auxAddC sq (some w) upd i s = .ok (SUCCESSFUL_RETURN, s) := by
  unfold auxAddC
  rw [if_neg (show ¬ (_ ∧ s.wantC (some w) i ≠ ST_INACTIVE ∧ _) from fun hh => hh.2.1 h)]

theorem auxAddB_inactive {sq : K → K} {upd : Bool} {w : WS} {i : Nat} (h : w.getStatus i = ST_INACTIVE) (s : QPC K) :
    auxAddB sq (some w) upd i s = .ok (SUCCESSFUL_RETURN, s) := by
  unfold auxAddB
  rw [if_neg (show ¬ (_ ∧ _ ∧ s.wantB (some w) i ≠ ST_INACTIVE) from fun hh => hh.2.2 h)]

theorem dims_nV {s s' : QPC K} (h : s'.dims = s.dims) : s'.nV = s.nV := congrArg (·.1) h
theorem dims_nC {s s' : QPC K} (h : s'.dims = s.dims) : s'.nC = s.nC := congrArg (·.2.1) h

theorem bind_congr {α β : Type} {a : Res α} {f g : α → Res β} (h : ∀ x, a = .ok x → f x = g x) : a.bind f = a.bind g := by
  cases a with
  | ok x => exact h x rfl
  | ub e => rfl

/-! ### installed from scratch -/

/-- A working set with nothing active -/
def noneActive (n : Nat) : WS := (WS.init n).setupAllFree

theorem noneActive_status {n i : Nat} (h : i < n) : (noneActive n).getStatus i = ST_INACTIVE := by
  unfold WS.getStatus noneActive
  rw [if_pos (show i < ((WS.init n).setupAllFree).n from h)]
  simp [WS.setupAllFree, WS.init, h]

/-- The loops from scratch: a missing guess for the constraints means that none is guessed active. -/
theorem auxLoops_ownC (sq : K → K) (s : QPC K) (auxB : Option WS) {w : WS} (hw : ∀ i < s.nC, w.getStatus i = ST_INACTIVE) :
    auxLoops sq s auxB none true = auxLoops sq s auxB (some w) true := by
  unfold auxLoops
  dsimp only [Bool.not_true]
  rw [if_pos rfl, if_pos rfl, Res.bind_ok, Res.bind_ok]
  dsimp only
  rw [if_neg (by decide), if_neg (by decide)]
  refine bind_congr fun ⟨r3, s3⟩ e3 => ?_
  dsimp only
  split
  · rfl
  refine bind_congr fun ⟨r4, s4⟩ e4 => ?_
  dsimp only
  split
  · rfl
  refine bind_congr fun ⟨r5, s5⟩ e5 => ?_
  dsimp only
  split
  · rfl
  have a3 := base_dims (seqLoop_adapted (fun _ _ _ _ => auxEqB_adapted) _ _ _ _ _ e3).base
  have a4 := base_dims (seqLoop_adapted (fun _ _ _ _ => auxEqC_adapted) _ _ _ _ _ e4).base
  have a5 := base_dims (seqLoop_adapted (fun _ _ _ _ => auxAddB_adapted) _ _ _ _ _ e5).base
  have hn : s5.nC = s.nC := dims_nC (a5.trans (a4.trans a3))
  rw [seqLoop_skip _ _ fun j _ _ => auxAddC_own j s5, seqLoop_skip _ _ fun j _ h => auxAddC_inactive (hw j (by omega)) s5]

/-- The same for the bounds -/
theorem auxLoops_ownB (sq : K → K) (s : QPC K) (auxC : Option WS) {w : WS} (hw : ∀ i < s.nV, w.getStatus i = ST_INACTIVE) :
    auxLoops sq s none auxC true = auxLoops sq s (some w) auxC true := by
  unfold auxLoops
  dsimp only [Bool.not_true]
  rw [if_pos rfl, if_pos rfl, Res.bind_ok, Res.bind_ok]
  dsimp only
  rw [if_neg (by decide), if_neg (by decide)]
  refine bind_congr fun ⟨r3, s3⟩ e3 => ?_
  dsimp only
  split
  · rfl
  refine bind_congr fun ⟨r4, s4⟩ e4 => ?_
  dsimp only
  split
  · rfl
  have a3 := base_dims (seqLoop_adapted (fun _ _ _ _ => auxEqB_adapted) _ _ _ _ _ e3).base
  have a4 := base_dims (seqLoop_adapted (fun _ _ _ _ => auxEqC_adapted) _ _ _ _ _ e4).base
  have hn : s4.nV = s.nV := dims_nV (a4.trans a3)
  rw [seqLoop_skip _ _ fun j _ _ => auxAddB_own j s4, seqLoop_skip _ _ fun j _ h => auxAddB_inactive (hw j (by omega)) s4]

theorem setupAuxiliaryWorkingSet_ownC (sq : K → K) (s : QPC K) (auxB : Option WS) (hs : ∀ i < s.nC, s.cons.getStatus i = ST_INACTIVE)
    {w : WS} (hw : ∀ i < s.nC, w.getStatus i = ST_INACTIVE) :
    setupAuxiliaryWorkingSet sq s auxB none true = setupAuxiliaryWorkingSet sq s auxB (some w) true := by
  unfold setupAuxiliaryWorkingSet
  have h1 : ((List.range s.nC).any fun i => s.cons.getStatus i == ST_UNDEFINED || s.wantC none i == ST_UNDEFINED) =
      ((List.range s.nC).any fun i => s.cons.getStatus i == ST_UNDEFINED || s.wantC (some w) i == ST_UNDEFINED) := by
    refine Bool.eq_iff_iff.2 ?_
    simp only [List.any_eq_true, List.mem_range]
    refine exists_congr fun i => and_congr_right fun hi => ?_
    rw [show s.wantC none i = ST_INACTIVE from hs i hi, show s.wantC (some w) i = ST_INACTIVE from hw i hi]
  have h2 : s.isTrivial auxB none = s.isTrivial auxB (some w) := by
    unfold isTrivial
    congr 1
    refine Bool.eq_iff_iff.2 ?_
    simp only [List.all_eq_true, List.mem_range]
    refine forall_congr' fun i => forall_congr' fun hi => ?_
    rw [show s.wantC none i = ST_INACTIVE from hs i hi, show s.wantC (some w) i = ST_INACTIVE from hw i hi]
  rw [h1, h2]
  split
  · rfl
  split
  · rfl
  split
  · rfl
  · show (auxLoops sq s.plainLI auxB none true).bind _ = (auxLoops sq s.plainLI auxB (some w) true).bind _
    rw [auxLoops_ownC sq s.plainLI auxB (w := w) hw]

theorem setupAuxiliaryWorkingSet_ownB (sq : K → K) (s : QPC K) (auxC : Option WS) (hs : ∀ i < s.nV, s.bounds.getStatus i = ST_INACTIVE)
    {w : WS} (hw : ∀ i < s.nV, w.getStatus i = ST_INACTIVE) :
    setupAuxiliaryWorkingSet sq s none auxC true = setupAuxiliaryWorkingSet sq s (some w) auxC true := by
  unfold setupAuxiliaryWorkingSet
  have h1 : ((List.range s.nV).any fun i => s.bounds.getStatus i == ST_UNDEFINED || s.wantB none i == ST_UNDEFINED) =
      ((List.range s.nV).any fun i => s.bounds.getStatus i == ST_UNDEFINED || s.wantB (some w) i == ST_UNDEFINED) := by
    refine Bool.eq_iff_iff.2 ?_
    simp only [List.any_eq_true, List.mem_range]
    refine exists_congr fun i => and_congr_right fun hi => ?_
    rw [show s.wantB none i = ST_INACTIVE from hs i hi, show s.wantB (some w) i = ST_INACTIVE from hw i hi]
  have h2 : s.isTrivial none auxC = s.isTrivial (some w) auxC := by
    unfold isTrivial
    congr 1
    refine Bool.eq_iff_iff.2 ?_
    simp only [List.all_eq_true, List.mem_range]
    refine forall_congr' fun i => forall_congr' fun hi => ?_
    rw [show s.wantB none i = ST_INACTIVE from hs i hi, show s.wantB (some w) i = ST_INACTIVE from hw i hi]
  rw [h1, h2]
  split
  · rfl
  split
  · rfl
  split
  · next ht =>
    have h0 : s.nV = 0 := by
      by_contra hne
      unfold isTrivial at ht
      rw [Bool.and_eq_true, List.all_eq_true] at ht
      have := ht.1 0 (List.mem_range.2 (Nat.pos_of_ne_zero hne))
      rw [show s.wantB (some w) 0 = ST_INACTIVE from hw 0 (Nat.pos_of_ne_zero hne)] at this
      simp at this
    have : s.fixAll (some w) = s := by
      have hl : loop (fun i b => if b.getStatus i = ST_INACTIVE then b.moveFreeToFixed i (w.getStatus i) else b) s.nV s.bounds = s.bounds := by rw [h0]; rfl
      unfold fixAll
      dsimp only
      rw [hl]
    rw [this]; rfl
  · show (auxLoops sq s.plainLI none auxC true).bind _ = (auxLoops sq s.plainLI (some w) auxC true).bind _
    rw [auxLoops_ownB sq s.plainLI auxC (w := w) hw]

/-- A guess for one side that makes a refactorisation worthwhile does so all the more if the other side is emptied. -/
theorem refactorise_ownC {s : QPC K} {wB : WS} (h : s.shallRefactorise wB s.cons = true) : s.shallRefactorise wB (noneActive s.nC) = true := by
  unfold shallRefactorise at h ⊢
  split
  · rfl
  next hh =>
  rw [if_neg hh] at h
  rw [decide_eq_true_eq] at h ⊢
  have h1 : (List.range s.nC).countP (fun i => s.cons.getStatus i ≠ s.cons.getStatus i) = 0 := by simp
  have h2 : (noneActive s.nC).nFX = 0 := rfl
  rw [h1] at h
  rw [h2]
  omega

theorem refactorise_ownB {s : QPC K} {wC : WS} (h : s.shallRefactorise s.bounds wC = true) : s.shallRefactorise (noneActive s.nV) wC = true := by
  unfold shallRefactorise at h ⊢
  split
  · rfl
  next hh =>
  rw [if_neg hh] at h
  rw [decide_eq_true_eq] at h ⊢
  have h1 : (List.range s.nV).countP (fun i => s.bounds.getStatus i ≠ s.bounds.getStatus i) = 0 := by simp
  have h2 : (noneActive s.nV).nFX = 0 := rfl
  rw [h1] at h
  rw [h2]
  omega

theorem cleared_inactiveB {s : QPC K} : ∀ i < s.nV, s.cleared.bounds.getStatus i = ST_INACTIVE := fun i hi => by
  rw [WS.getStatus_of_lt (show i < s.cleared.bounds.n from hi)]; rfl
theorem cleared_inactiveC {s : QPC K} : ∀ i < s.nC, s.cleared.cons.getStatus i = ST_INACTIVE := fun i hi => by
  rw [WS.getStatus_of_lt (show i < s.cleared.cons.n from hi)]; rfl

/-- The auxiliary QP for a guess for the bounds only that is installed from scratch: as if no constraint were guessed active -/
theorem setupAuxiliaryQP_scratchB {sq : K → K} {s : QPC K} {wB : WS} (h : s.shallRefactorise wB s.cons = true) :
    setupAuxiliaryQP sq s (some wB) none = setupAuxiliaryQP sq s (some wB) (some (noneActive s.nC)) := by
  unfold setupAuxiliaryQP
  simp only [Option.isNone_some, Option.isNone_none, Bool.false_and, Bool.and_false, Bool.false_eq_true, if_false, Option.getD_some, Option.getD_none]
  have h1 : ({ s with status := QPS_PREPARINGAUXILIARYQP } : QPC K).shallRefactorise wB s.cons = true := h
  have h2 : ({ s with status := QPS_PREPARINGAUXILIARYQP } : QPC K).shallRefactorise wB (noneActive s.nC) = true := refactorise_ownC h
  rw [if_pos h1, if_pos h2]
  show (setupAuxiliaryWorkingSet sq s.cleared (some wB) none true).bind _ = (setupAuxiliaryWorkingSet sq s.cleared (some wB) (some (noneActive s.nC)) true).bind _
  rw [setupAuxiliaryWorkingSet_ownC sq s.cleared (some wB) cleared_inactiveC (w := noneActive s.nC) fun i hi => noneActive_status hi]

theorem setupAuxiliaryQP_scratchC {sq : K → K} {s : QPC K} {wC : WS} (h : s.shallRefactorise s.bounds wC = true) :
    setupAuxiliaryQP sq s none (some wC) = setupAuxiliaryQP sq s (some (noneActive s.nV)) (some wC) := by
  unfold setupAuxiliaryQP
  simp only [Option.isNone_some, Option.isNone_none, Bool.false_and, Bool.and_false, Bool.false_eq_true, if_false, Option.getD_some, Option.getD_none]
  have h1 : ({ s with status := QPS_PREPARINGAUXILIARYQP } : QPC K).shallRefactorise s.bounds wC = true := h
  have h2 : ({ s with status := QPS_PREPARINGAUXILIARYQP } : QPC K).shallRefactorise (noneActive s.nV) wC = true := refactorise_ownB h
  rw [if_pos h1, if_pos h2]
  show (setupAuxiliaryWorkingSet sq s.cleared none (some wC) true).bind _ = (setupAuxiliaryWorkingSet sq s.cleared (some (noneActive s.nV)) (some wC) true).bind _
  rw [setupAuxiliaryWorkingSet_ownB sq s.cleared (some wC) cleared_inactiveB (w := noneActive s.nV) fun i hi => noneActive_status hi]

/-! ### installed by updates -/

theorem eqB_stays {sq : K → K} {s s' : QPC K} (h : s.Facs) (hf : s.options.enableFullLITests = false)
    (hc : SeqClean (EqBUpd sq) (auxEqB sq true) s.nV 0 s)
    (e : seqLoop (auxEqB sq true) s.nV 0 s = .ok (SUCCESSFUL_RETURN, s')) : Upd s' s ∧ Stays s'.bounds.status s.bounds.status := by
  refine seqLoop_index (n := s.nV) (c := EqBUpd sq) (f := auxEqB sq true)
    (fun i t => Upd t s ∧ Stays t.bounds.status s.bounds.status)
    (fun i t t' hi ⟨a1, a2⟩ hcl et => ?_) s.nV 0 s s' (by omega) ⟨Upd.refl h, fun j _ => rfl⟩ hc e
  unfold auxEqB at et
  have hit : i < t.nV := by rw [a1.nV]; exact hi
  rw [WS.getStatus_of_lt (by rw [a1.facs.shape.nB]; exact hit)] at et
  split at et
  · next hh =>
    obtain ⟨l1, l2⟩ := hcl hh.1 hh.2
    obtain ⟨b1, b2, b3⟩ := fix_upd a1.facs (by rw [a1.options]; exact hf) hit (Or.inl rfl) l1 l2 et
    exact ⟨b1.trans a1, by rw [b2]; exact a2.upd hh.2⟩
  · cases et
    exact ⟨a1, a2⟩

theorem eqC_stays {sq : K → K} {s s' : QPC K} (h : s.Facs) (hf : s.options.enableFullLITests = false)
    (hc : SeqClean (EqCUpd sq) (auxEqC sq true) s.nC 0 s)
    (e : seqLoop (auxEqC sq true) s.nC 0 s = .ok (SUCCESSFUL_RETURN, s')) : Upd s' s ∧ Stays s'.cons.status s.cons.status := by
  refine seqLoop_index (n := s.nC) (c := EqCUpd sq) (f := auxEqC sq true)
    (fun i t => Upd t s ∧ Stays t.cons.status s.cons.status)
    (fun i t t' hi ⟨a1, a2⟩ hcl et => ?_) s.nC 0 s s' (by omega) ⟨Upd.refl h, fun j _ => rfl⟩ hc e
  unfold auxEqC at et
  have hit : i < t.nC := by rw [a1.nC]; exact hi
  rw [WS.getStatus_of_lt (by rw [a1.facs.shape.nC]; exact hit)] at et
  split at et
  · next hh =>
    rw [Res.bind_eq_ok] at et
    obtain ⟨b, eb, et⟩ := et
    cases b with
    | true =>
      rw [if_pos rfl] at et
      obtain ⟨b1, b2, b3, _⟩ := activate_upd a1.facs (by rw [a1.options]; exact hf) hit (Or.inl rfl) eb (hcl hh.1 hh.2 eb) et
      exact ⟨b1.trans a1, by rw [b2]; exact a2.upd hh.2⟩
    | false =>
      rw [if_neg (by decide)] at et
      simp only [Res.ok.injEq, Prod.mk.injEq, true_and] at et
      subst et
      have hF := a1.facs
      refine ⟨Upd.trans ⟨⟨⟨hF.shape.okB, ⟨hF.shape.okC.perm, hF.shape.okC.free, hF.shape.okC.fixed⟩, hF.shape.nB, hF.shape.nC, hF.shape.size⟩,
        ⟨hF.tq.le, hF.tq.tq⟩, hF.chol, hF.sym⟩, ⟨t.T, t.Q, t.R, t.flipC, t.bounds, _, rfl⟩, rfl, fun j => ?_, rfl, rfl⟩ a1, a2⟩
      show updA t.cons.type i ST_BOUNDED j = _ ∨ _ ∧ updA t.cons.type i ST_BOUNDED j = _
      by_cases hji : j = i
      · subst hji
        rw [updA_same]; exact Or.inr ⟨hh.1, rfl⟩
      · rw [updA_ne _ _ hji]; exact Or.inl rfl
  · cases et
    exact ⟨a1, a2⟩

theorem auxRemoveC_own {sq : K → K} (i : Nat) (s : QPC K) : auxRemoveC sq none i s = .ok (SUCCESSFUL_RETURN, s) := by
  unfold auxRemoveC
  rw [if_neg (show ¬ (s.cons.getStatus i = ST_LOWER ∧ s.wantC none i ≠ ST_LOWER) from fun h => h.2 h.1), Res.bind_ok]
  dsimp only
  rw [if_neg (by decide), if_neg (show ¬ (s.cons.getStatus i = ST_UPPER ∧ s.wantC none i ≠ ST_UPPER) from fun h => h.2 h.1)]

theorem auxRemoveC_same {sq : K → K} {w : WS} {i : Nat} {s : QPC K} (h : w = s.cons) : auxRemoveC sq (some w) i s = .ok (SUCCESSFUL_RETURN, s) := by
  subst h
  unfold auxRemoveC
  rw [if_neg (show ¬ (s.cons.getStatus i = ST_LOWER ∧ s.wantC (some s.cons) i ≠ ST_LOWER) from fun h => h.2 h.1), Res.bind_ok]
  dsimp only
  rw [if_neg (by decide), if_neg (show ¬ (s.cons.getStatus i = ST_UPPER ∧ s.wantC (some s.cons) i ≠ ST_UPPER) from fun h => h.2 h.1)]

theorem auxRemoveB_own {sq : K → K} (i : Nat) (s : QPC K) : auxRemoveB sq none i s = .ok (SUCCESSFUL_RETURN, s) := by
  unfold auxRemoveB
  rw [if_neg (show ¬ (s.bounds.getStatus i = ST_LOWER ∧ s.wantB none i ≠ ST_LOWER) from fun h => h.2 h.1), Res.bind_ok]
  dsimp only
  rw [if_neg (by decide), if_neg (show ¬ (s.bounds.getStatus i = ST_UPPER ∧ s.wantB none i ≠ ST_UPPER) from fun h => h.2 h.1)]

theorem auxRemoveB_same {sq : K → K} {w : WS} {i : Nat} {s : QPC K} (h : w = s.bounds) : auxRemoveB sq (some w) i s = .ok (SUCCESSFUL_RETURN, s) := by
  subst h
  unfold auxRemoveB
  rw [if_neg (show ¬ (s.bounds.getStatus i = ST_LOWER ∧ s.wantB (some s.bounds) i ≠ ST_LOWER) from fun h => h.2 h.1), Res.bind_ok]
  dsimp only
  rw [if_neg (by decide), if_neg (show ¬ (s.bounds.getStatus i = ST_UPPER ∧ s.wantB (some s.bounds) i ≠ ST_UPPER) from fun h => h.2 h.1)]

theorem auxAddC_stays {sq : K → K} {upd : Bool} {w : WS} {i : Nat} {s : QPC K} (h : w.getStatus i ≠ ST_INACTIVE → s.cons.getStatus i ≠ ST_INACTIVE) :
    auxAddC sq (some w) upd i s = .ok (SUCCESSFUL_RETURN, s) := by
  unfold auxAddC
  rw [if_neg (show ¬ (_ ∧ s.wantC (some w) i ≠ ST_INACTIVE ∧ _) from fun hh => h hh.2.1 hh.2.2)]

theorem auxAddB_stays {sq : K → K} {upd : Bool} {w : WS} {i : Nat} {s : QPC K} (h : w.getStatus i ≠ ST_INACTIVE → s.bounds.getStatus i ≠ ST_INACTIVE) :
    auxAddB sq (some w) upd i s = .ok (SUCCESSFUL_RETURN, s) := by
  unfold auxAddB
  rw [if_neg (show ¬ (_ ∧ _ ∧ s.wantB (some w) i ≠ ST_INACTIVE) from fun hh => h hh.2.2 hh.2.1)]

/-- The loops by updates: a missing guess for the constraints means that they keep their statuses. -/
theorem auxLoops_keepC {sq : K → K} {s : QPC K} (h : s.Facs) (hf : s.options.enableFullLITests = false) {wB : WS}
    (hB : ∀ i < s.nV, Proper (wB.getStatus i)) (hc : UpdClean sq s wB s.cons) :
    auxLoops sq s (some wB) none false = auxLoops sq s (some wB) (some s.cons) false := by
  have k1 : seqLoop (auxRemoveC sq (some s.cons)) s.nC 0 s = .ok (SUCCESSFUL_RETURN, s) := seqLoop_skip _ _ fun j _ _ => auxRemoveC_same rfl
  obtain ⟨c1, hc⟩ := hc
  obtain ⟨c2, hc⟩ := hc s k1
  unfold auxLoops
  dsimp only [Bool.not_false]
  rw [if_neg (by decide), if_neg (by decide), seqLoop_skip _ _ fun j _ _ => auxRemoveC_own j s, k1, Res.bind_ok]
  dsimp only
  rw [if_neg (by decide)]
  refine bind_congr fun ⟨r2, s2⟩ e2 => ?_
  dsimp only
  split
  · rfl
  next hr =>
  rw [not_not] at hr; subst hr
  obtain ⟨c3, hc⟩ := hc s2 e2
  refine bind_congr fun ⟨r3, s3⟩ e3 => ?_
  dsimp only
  split
  · rfl
  next hr =>
  rw [not_not] at hr; subst hr
  obtain ⟨c4, hc⟩ := hc s3 e3
  refine bind_congr fun ⟨r4, s4⟩ e4 => ?_
  dsimp only
  split
  · rfl
  next hr =>
  rw [not_not] at hr; subst hr
  obtain ⟨c5, hc⟩ := hc s4 e4
  refine bind_congr fun ⟨r5, s5⟩ e5 => ?_
  dsimp only
  split
  · rfl
  next hr =>
  rw [not_not] at hr; subst hr
  obtain ⟨u2, b2, o2⟩ := remB_loop h c2 e2
  have o2' : OnlyB s2 wB := fun j hj ha => Or.inl (o2 j (by rw [← u2.nV]; exact hj) ha)
  obtain ⟨u3, b3, o3, _⟩ := eqB_upd u2.facs (by rw [u2.options]; exact hf) o2' c3 e3
  have v3 := u3.trans u2
  obtain ⟨u4, k4⟩ := eqC_stays u3.facs (by rw [v3.options]; exact hf) c4 e4
  obtain ⟨_, b4, _⟩ := eqC_upd (w := s.cons) (ty := fun _ => ST_EQUALITY) u3.facs (by rw [v3.options]; exact hf) (fun _ _ => rfl) (fun _ _ _ => Or.inr rfl) c4 e4
  have v4 := u4.trans v3
  obtain ⟨u5, b5, _, _⟩ := addB_upd u4.facs (by rw [v4.options]; exact hf) (by rw [v4.nV]; exact hB)
    (fun j hj ha => by rw [b4] at ha ⊢; exact o3 j (by rw [← u4.nV]; exact hj) ha) c5 e5
  have v5 := u5.trans v4
  have ec : s3.cons = s.cons := b3.trans b2
  rw [seqLoop_skip _ _ fun j _ _ => auxAddC_own j s5, seqLoop_skip _ _ fun j _ hj => auxAddC_stays (w := s.cons) fun ha => ?_]
  have hj' : j < s5.nC := by omega
  rw [WS.getStatus_of_lt (by rw [v5.facs.shape.nC]; exact hj')]
  rw [WS.getStatus_of_lt (by rw [h.shape.nC, ← v5.nC]; exact hj')] at ha
  rw [b5, k4 j (by rw [ec]; exact ha), ec]
  exact ha

/-- The same for the bounds -/
theorem auxLoops_keepB {sq : K → K} {s : QPC K} (h : s.Facs) (hf : s.options.enableFullLITests = false) {wC : WS}
    (hc : UpdClean sq s s.bounds wC) :
    auxLoops sq s none (some wC) false = auxLoops sq s (some s.bounds) (some wC) false := by
  obtain ⟨c1, hc⟩ := hc
  unfold auxLoops
  dsimp only [Bool.not_false]
  rw [if_neg (by decide), if_neg (by decide)]
  refine bind_congr fun ⟨r1, s1⟩ e1 => ?_
  dsimp only
  split
  · next hr =>
    rw [Res.bind_ok, Res.bind_ok]
    dsimp only
    rw [if_pos hr, if_pos hr]
  next hr =>
  rw [not_not] at hr; subst hr
  obtain ⟨u1, b1, _⟩ := remC_loop h c1 e1
  obtain ⟨c2, hc⟩ := hc s1 e1
  obtain ⟨c3, hc⟩ := hc s1 (seqLoop_skip _ _ fun j _ _ => auxRemoveB_same b1.symm)
  rw [seqLoop_skip _ _ fun j _ _ => auxRemoveB_own j s1, seqLoop_skip _ _ fun j _ _ => auxRemoveB_same b1.symm, Res.bind_ok, Res.bind_ok]
  dsimp only
  rw [if_neg (by decide), if_neg (by decide)]
  refine bind_congr fun ⟨r3, s3⟩ e3 => ?_
  dsimp only
  split
  · rfl
  next hr =>
  rw [not_not] at hr; subst hr
  obtain ⟨c4, hc⟩ := hc s3 e3
  refine bind_congr fun ⟨r4, s4⟩ e4 => ?_
  dsimp only
  split
  · rfl
  next hr =>
  rw [not_not] at hr; subst hr
  obtain ⟨u3, k3⟩ := eqB_stays u1.facs (by rw [u1.options]; exact hf) c3 e3
  have v3 := u3.trans u1
  obtain ⟨u4, b4, _⟩ := eqC_upd (w := s.cons) (ty := fun _ => ST_EQUALITY) u3.facs (by rw [v3.options]; exact hf) (fun _ _ => rfl) (fun _ _ _ => Or.inr rfl) c4 e4
  have v4 := u4.trans v3
  rw [seqLoop_skip _ _ fun j _ _ => auxAddB_own j s4, seqLoop_skip _ _ fun j _ hj => auxAddB_stays (w := s.bounds) fun ha => ?_]
  have hj' : j < s4.nV := by omega
  rw [WS.getStatus_of_lt (by rw [v4.facs.shape.nB]; exact hj')]
  rw [WS.getStatus_of_lt (by rw [h.shape.nB, ← v4.nV]; exact hj')] at ha
  rw [b4, k3 j (by rw [b1]; exact ha), b1]
  exact ha

theorem setupAuxiliaryWorkingSet_keepC {sq : K → K} {s : QPC K} (h : s.Facs) {wB : WS} (hB : ∀ i < s.nV, Proper (wB.getStatus i))
    (hc : s.isTrivial (some wB) (some s.cons) = false → UpdClean sq s.plainLI wB s.cons) :
    setupAuxiliaryWorkingSet sq s (some wB) none false = setupAuxiliaryWorkingSet sq s (some wB) (some s.cons) false := by
  unfold setupAuxiliaryWorkingSet
  rw [show s.isTrivial (some wB) none = s.isTrivial (some wB) (some s.cons) from rfl]
  show (if _ then _ else if ((List.range s.nC).any fun i => s.cons.getStatus i == ST_UNDEFINED || s.wantC none i == ST_UNDEFINED) then _ else _) =
    if _ then _ else if ((List.range s.nC).any fun i => s.cons.getStatus i == ST_UNDEFINED || s.wantC none i == ST_UNDEFINED) then _ else _
  split
  · rfl
  split
  · rfl
  split
  · rfl
  next ht =>
  rw [Bool.not_eq_true] at ht
  show (auxLoops sq s.plainLI (some wB) none false).bind _ = (auxLoops sq s.plainLI (some wB) (some s.plainLI.cons) false).bind _
  rw [auxLoops_keepC (s := s.plainLI) ⟨⟨h.shape.okB, h.shape.okC, h.shape.nB, h.shape.nC, h.shape.size⟩, ⟨h.tq.le, h.tq.tq⟩, h.chol, h.sym⟩ rfl hB (hc ht)]

theorem auxLoops_keptC {sq : K → K} {s s' : QPC K} (h : s.Facs) (hf : s.options.enableFullLITests = false) {wB : WS}
    (hB : ∀ i < s.nV, Proper (wB.getStatus i)) (hc : UpdClean sq s wB s.cons)
    (e : auxLoops sq s (some wB) none false = .ok (SUCCESSFUL_RETURN, s')) : Stays s'.cons.status s.cons.status := by
  have k1 : seqLoop (auxRemoveC sq (some s.cons)) s.nC 0 s = .ok (SUCCESSFUL_RETURN, s) := seqLoop_skip _ _ fun j _ _ => auxRemoveC_same rfl
  obtain ⟨c1, hc⟩ := hc
  obtain ⟨c2, hc⟩ := hc s k1
  unfold auxLoops at e
  dsimp only [Bool.not_false] at e
  rw [if_neg (by decide), seqLoop_skip _ _ fun j _ _ => auxRemoveC_own j s, Res.bind_ok] at e
  dsimp only at e
  rw [if_neg (by decide)] at e
  obtain ⟨⟨r2, s2⟩, e2, e⟩ := Res.bind_eq_ok.1 e
  dsimp only at e
  split at e
  · cases e; exact absurd rfl ‹_›
  next hr =>
  rw [not_not] at hr; subst hr
  obtain ⟨c3, hc⟩ := hc s2 e2
  obtain ⟨⟨r3, s3⟩, e3, e⟩ := Res.bind_eq_ok.1 e
  dsimp only at e
  split at e
  · cases e; exact absurd rfl ‹_›
  next hr =>
  rw [not_not] at hr; subst hr
  obtain ⟨c4, hc⟩ := hc s3 e3
  obtain ⟨⟨r4, s4⟩, e4, e⟩ := Res.bind_eq_ok.1 e
  dsimp only at e
  split at e
  · cases e; exact absurd rfl ‹_›
  next hr =>
  rw [not_not] at hr; subst hr
  obtain ⟨c5, hc⟩ := hc s4 e4
  obtain ⟨⟨r5, s5⟩, e5, e⟩ := Res.bind_eq_ok.1 e
  dsimp only at e
  split at e
  · cases e; exact absurd rfl ‹_›
  next hr =>
  rw [not_not] at hr; subst hr
  rw [seqLoop_skip _ _ fun j _ _ => auxAddC_own j s5] at e
  cases e
  obtain ⟨u2, b2, o2⟩ := remB_loop h c2 e2
  have o2' : OnlyB s2 wB := fun j hj ha => Or.inl (o2 j (by rw [← u2.nV]; exact hj) ha)
  obtain ⟨u3, b3, o3, _⟩ := eqB_upd u2.facs (by rw [u2.options]; exact hf) o2' c3 e3
  have v3 := u3.trans u2
  obtain ⟨u4, k4⟩ := eqC_stays u3.facs (by rw [v3.options]; exact hf) c4 e4
  obtain ⟨_, b4, _⟩ := eqC_upd (w := s.cons) (ty := fun _ => ST_EQUALITY) u3.facs (by rw [v3.options]; exact hf) (fun _ _ => rfl) (fun _ _ _ => Or.inr rfl) c4 e4
  have v4 := u4.trans v3
  obtain ⟨u5, b5, _, _⟩ := addB_upd u4.facs (by rw [v4.options]; exact hf) (by rw [v4.nV]; exact hB)
    (fun j hj ha => by rw [b4] at ha ⊢; exact o3 j (by rw [← u4.nV]; exact hj) ha) c5 e5
  have ec : s3.cons = s.cons := b3.trans b2
  intro j ha
  rw [b5, k4 j (by rw [ec]; exact ha), ec]

theorem auxLoops_keptB {sq : K → K} {s s' : QPC K} (h : s.Facs) (hf : s.options.enableFullLITests = false) {wC : WS}
    (hC : ∀ i < s.nC, Proper (wC.getStatus i)) (hc : UpdClean sq s s.bounds wC)
    (e : auxLoops sq s none (some wC) false = .ok (SUCCESSFUL_RETURN, s')) : Stays s'.bounds.status s.bounds.status := by
  obtain ⟨c1, hc⟩ := hc
  unfold auxLoops at e
  dsimp only [Bool.not_false] at e
  rw [if_neg (by decide)] at e
  obtain ⟨⟨r1, s1⟩, e1, e⟩ := Res.bind_eq_ok.1 e
  dsimp only at e
  split at e
  · next hr =>
    rw [Res.bind_ok] at e
    dsimp only at e
    rw [if_pos hr] at e
    cases e
    exact absurd rfl hr
  next hr =>
  rw [not_not] at hr; subst hr
  obtain ⟨u1, b1, o1⟩ := remC_loop h c1 e1
  obtain ⟨c2, hc⟩ := hc s1 e1
  obtain ⟨c3, hc⟩ := hc s1 (seqLoop_skip _ _ fun j _ _ => auxRemoveB_same b1.symm)
  rw [seqLoop_skip _ _ fun j _ _ => auxRemoveB_own j s1, Res.bind_ok] at e
  dsimp only at e
  rw [if_neg (by decide)] at e
  obtain ⟨⟨r3, s3⟩, e3, e⟩ := Res.bind_eq_ok.1 e
  dsimp only at e
  split at e
  · cases e; exact absurd rfl ‹_›
  next hr =>
  rw [not_not] at hr; subst hr
  obtain ⟨c4, hc⟩ := hc s3 e3
  obtain ⟨⟨r4, s4⟩, e4, e⟩ := Res.bind_eq_ok.1 e
  dsimp only at e
  split at e
  · cases e; exact absurd rfl ‹_›
  next hr =>
  rw [not_not] at hr; subst hr
  rw [seqLoop_skip _ _ fun j _ _ => auxAddB_own j s4, Res.bind_ok] at e
  dsimp only at e
  rw [if_neg (by decide)] at e
  obtain ⟨u3, k3⟩ := eqB_stays u1.facs (by rw [u1.options]; exact hf) c3 e3
  have v3 := u3.trans u1
  obtain ⟨_, b3, _⟩ := eqB_upd (w := s.bounds) u1.facs (by rw [u1.options]; exact hf) (fun j hj ha => Or.inl (by
    rw [b1]; exact (WS.getStatus_of_lt (by rw [h.shape.nB, ← u1.nV]; exact hj)).symm)) c3 e3
  obtain ⟨u4, b4, o4, _⟩ := eqC_upd (w := wC) (ty := fun _ => ST_EQUALITY) u3.facs (by rw [v3.options]; exact hf) (fun _ _ => rfl) (fun _ _ _ => Or.inr rfl) c4 e4
  have v4 := u4.trans v3
  obtain ⟨c5, hc⟩ := hc s4 e4
  have e5 : seqLoop (auxAddB sq (some s.bounds) true) s4.nV 0 s4 = .ok (SUCCESSFUL_RETURN, s4) := seqLoop_skip _ _ fun j _ hj => auxAddB_stays (w := s.bounds) fun ha => by
    have hj' : j < s4.nV := by omega
    rw [WS.getStatus_of_lt (by rw [v4.facs.shape.nB]; exact hj')]
    rw [WS.getStatus_of_lt (by rw [h.shape.nB, ← v4.nV]; exact hj')] at ha
    rw [b4, k3 j (by rw [b1]; exact ha), b1]
    exact ha
  obtain ⟨u6, b6, _⟩ := addC_upd (ty := fun _ => ST_EQUALITY) u4.facs (by rw [v4.options]; exact hf) (by rw [v4.nC]; exact hC) (fun _ _ _ => Or.inr rfl) (hc s4 e5) e
  intro j ha
  rw [b6, b4, k3 j (by rw [b1]; exact ha), b1]

/-- What was active on the other side is still active after a guess for one side has been installed by updates. -/
theorem setupAuxiliaryWorkingSet_keptC {sq : K → K} {s s' : QPC K} (h : s.Facs) {wB : WS} (hB : ∀ i < s.nV, Proper (wB.getStatus i))
    (hc : s.isTrivial (some wB) (some s.cons) = false → UpdClean sq s.plainLI wB s.cons)
    (e : setupAuxiliaryWorkingSet sq s (some wB) none false = .ok (SUCCESSFUL_RETURN, s')) : Stays s'.cons.status s.cons.status := by
  unfold setupAuxiliaryWorkingSet at e
  split at e
  · simp only [Res.ok.injEq, Prod.mk.injEq] at e; exact absurd e.1 (by decide)
  split at e
  · simp only [Res.ok.injEq, Prod.mk.injEq] at e; exact absurd e.1 (by decide)
  split at e
  · cases e; exact fun _ _ => rfl
  next ht =>
  rw [Bool.not_eq_true] at ht
  obtain ⟨⟨r, t⟩, e1, e⟩ := Res.bind_eq_ok.1 e
  dsimp only at e
  split at e
  · simp only [Res.ok.injEq, Prod.mk.injEq] at e; exact absurd e.1 (by decide)
  next hr =>
  rw [not_not] at hr; subst hr
  cases e
  exact auxLoops_keptC (s := s.plainLI) (s' := t) ⟨⟨h.shape.okB, h.shape.okC, h.shape.nB, h.shape.nC, h.shape.size⟩, ⟨h.tq.le, h.tq.tq⟩, h.chol, h.sym⟩ rfl hB (hc ht) e1

theorem setupAuxiliaryWorkingSet_keptB {sq : K → K} {s s' : QPC K} (h : s.Facs) {wC : WS} (hC : ∀ i < s.nC, Proper (wC.getStatus i))
    (hc : s.isTrivial (some s.bounds) (some wC) = false → UpdClean sq s.plainLI s.bounds wC)
    (e : setupAuxiliaryWorkingSet sq s none (some wC) false = .ok (SUCCESSFUL_RETURN, s')) : Stays s'.bounds.status s.bounds.status := by
  unfold setupAuxiliaryWorkingSet at e
  split at e
  · simp only [Res.ok.injEq, Prod.mk.injEq] at e; exact absurd e.1 (by decide)
  split at e
  · simp only [Res.ok.injEq, Prod.mk.injEq] at e; exact absurd e.1 (by decide)
  split at e
  · cases e; exact fun _ _ => rfl
  next ht =>
  rw [Bool.not_eq_true] at ht
  obtain ⟨⟨r, t⟩, e1, e⟩ := Res.bind_eq_ok.1 e
  dsimp only at e
  split at e
  · simp only [Res.ok.injEq, Prod.mk.injEq] at e; exact absurd e.1 (by decide)
  next hr =>
  rw [not_not] at hr; subst hr
  cases e
  exact auxLoops_keptB (s := s.plainLI) (s' := t) ⟨⟨h.shape.okB, h.shape.okC, h.shape.nB, h.shape.nC, h.shape.size⟩, ⟨h.tq.le, h.tq.tq⟩, h.chol, h.sym⟩ rfl hC (hc ht) e1

theorem setupAuxiliaryQPdata_sets {s s' : QPC K} (hs : s.Shape) (e : setupAuxiliaryQPdata s = .ok s') : s'.bounds = s.bounds ∧ s'.cons = s.cons := by
  obtain ⟨_, ⟨_, _, _, _, _, _, _, _, _, rfl⟩, _⟩ := setupAuxiliaryQPdata_spec hs e
  exact ⟨rfl, rfl⟩

theorem loop_same {α : Type} (f : Nat → α → α) (a : α) : ∀ m : Nat, (∀ i < m, f i a = a) → loop f m a = a := by
  intro m
  induction m with
  | zero => intro _; rfl
  | succ m ih =>
    intro h
    rw [loop, ih fun i hi => h i (by omega)]
    exact h m (by omega)

theorem setupAuxiliaryWorkingSet_keepB {sq : K → K} {s : QPC K} (h : s.Facs) {wC : WS}
    (hc : s.isTrivial (some s.bounds) (some wC) = false → UpdClean sq s.plainLI s.bounds wC) :
    setupAuxiliaryWorkingSet sq s none (some wC) false = setupAuxiliaryWorkingSet sq s (some s.bounds) (some wC) false := by
  unfold setupAuxiliaryWorkingSet
  rw [show s.isTrivial none (some wC) = s.isTrivial (some s.bounds) (some wC) from rfl]
  show (if ((List.range s.nV).any fun i => s.bounds.getStatus i == ST_UNDEFINED || s.wantB none i == ST_UNDEFINED) then _ else _) =
    if ((List.range s.nV).any fun i => s.bounds.getStatus i == ST_UNDEFINED || s.wantB none i == ST_UNDEFINED) then _ else _
  split
  · rfl
  split
  · rfl
  split
  · next ht =>
    unfold isTrivial at ht
    rw [Bool.and_eq_true, List.all_eq_true] at ht
    have hl : loop (fun i b => if b.getStatus i = ST_INACTIVE then b.moveFreeToFixed i (s.bounds.getStatus i) else b) s.nV s.bounds = s.bounds :=
      loop_same _ _ _ fun i hi => by
        have := ht.1 i (List.mem_range.2 hi)
        rw [show s.wantB (some s.bounds) i = s.bounds.getStatus i from rfl] at this
        rw [if_neg (by simpa using this)]
    have : s.fixAll (some s.bounds) = s := by
      unfold fixAll
      dsimp only
      rw [hl]
    rw [this]; rfl
  next ht =>
  rw [Bool.not_eq_true] at ht
  show (auxLoops sq s.plainLI none (some wC) false).bind _ = (auxLoops sq s.plainLI (some s.plainLI.bounds) (some wC) false).bind _
  rw [auxLoops_keepB (s := s.plainLI) ⟨⟨h.shape.okB, h.shape.okC, h.shape.nB, h.shape.nC, h.shape.size⟩, ⟨h.tq.le, h.tq.tq⟩, h.chol, h.sym⟩ rfl (hc ht)]

/-- The auxiliary QP for a guess for the bounds only that is installed by updates: as if the constraints' own statuses were guessed -/
theorem setupAuxiliaryQP_updateB {sq : K → K} {s : QPC K} (hF : s.Facs) {wB : WS} (hB : ∀ i < s.nV, Proper (wB.getStatus i))
    (h : s.shallRefactorise wB s.cons = false) (hc : UpdatedClean sq s wB s.cons) :
    setupAuxiliaryQP sq s (some wB) none = setupAuxiliaryQP sq s (some wB) (some s.cons) := by
  unfold setupAuxiliaryQP
  simp only [Option.isNone_some, Option.isNone_none, Bool.false_and, Bool.and_false, Bool.false_eq_true, if_false, Option.getD_some, Option.getD_none]
  have h1 : ¬ ({ s with status := QPS_PREPARINGAUXILIARYQP } : QPC K).shallRefactorise wB s.cons = true := by
    have : ({ s with status := QPS_PREPARINGAUXILIARYQP } : QPC K).shallRefactorise wB s.cons = false := h
    rw [this]; decide
  rw [if_neg h1, if_neg h1]
  have := setupAuxiliaryWorkingSet_keepC (sq := sq) (s := { s with status := QPS_PREPARINGAUXILIARYQP }) ⟨⟨hF.shape.okB, hF.shape.okC, hF.shape.nB, hF.shape.nC, hF.shape.size⟩, ⟨hF.tq.le, hF.tq.tq⟩, hF.chol, hF.sym⟩ hB hc.2.1
  exact congrArg (fun a => Res.bind a _) this

theorem setupAuxiliaryQP_updateC {sq : K → K} {s : QPC K} (hF : s.Facs) {wC : WS}
    (h : s.shallRefactorise s.bounds wC = false) (hc : UpdatedClean sq s s.bounds wC) :
    setupAuxiliaryQP sq s none (some wC) = setupAuxiliaryQP sq s (some s.bounds) (some wC) := by
  unfold setupAuxiliaryQP
  simp only [Option.isNone_some, Option.isNone_none, Bool.false_and, Bool.and_false, Bool.false_eq_true, if_false, Option.getD_some, Option.getD_none]
  have h1 : ¬ ({ s with status := QPS_PREPARINGAUXILIARYQP } : QPC K).shallRefactorise s.bounds wC = true := by
    have : ({ s with status := QPS_PREPARINGAUXILIARYQP } : QPC K).shallRefactorise s.bounds wC = false := h
    rw [this]; decide
  rw [if_neg h1, if_neg h1]
  have := setupAuxiliaryWorkingSet_keepB (sq := sq) (s := { s with status := QPS_PREPARINGAUXILIARYQP }) ⟨⟨hF.shape.okB, hF.shape.okC, hF.shape.nB, hF.shape.nC, hF.shape.size⟩, ⟨hF.tq.le, hF.tq.tq⟩, hF.chol, hF.sym⟩ hc.2.1
  exact congrArg (fun a => Res.bind a _) this

/-- The working set of the constraints after a guess for the bounds has been installed by updates -/
theorem setupAuxiliaryQP_keptC {sq : K → K} {s s' : QPC K} (hF : s.Facs) {wB : WS} (hB : ∀ i < s.nV, Proper (wB.getStatus i))
    (h : s.shallRefactorise wB s.cons = false) (hc : UpdatedClean sq s wB s.cons) {r : ReturnValue}
    (e : setupAuxiliaryQP sq s (some wB) none = .ok (r, s')) :
    Stays s'.cons.status s.cons.status ∧ OnlyC s.cons.type s' s.cons ∧ s'.cons.n = s.nC := by
  unfold setupAuxiliaryQP at e
  simp only [Option.isNone_some, Option.isNone_none, Bool.false_and, Bool.and_false, Bool.false_eq_true, if_false, Option.getD_some, Option.getD_none] at e
  have h1 : ¬ ({ s with status := QPS_PREPARINGAUXILIARYQP } : QPC K).shallRefactorise wB s.cons = true := by
    have : ({ s with status := QPS_PREPARINGAUXILIARYQP } : QPC K).shallRefactorise wB s.cons = false := h
    rw [this]; decide
  rw [if_neg h1] at e
  obtain ⟨⟨r0, t⟩, e0, e⟩ := Res.bind_eq_ok.1 e
  have hF0 : ({ s with status := QPS_PREPARINGAUXILIARYQP } : QPC K).Facs := hF.congr rfl rfl rfl rfl rfl rfl rfl rfl rfl rfl id
  have e0' := e0
  rw [setupAuxiliaryWorkingSet_keepC (sq := sq) (s := { s with status := QPS_PREPARINGAUXILIARYQP }) hF0 hB hc.2.1] at e0'
  obtain ⟨c4, _⟩ := hc.2.2 _ e0'
  dsimp only at c4 e
  subst c4
  obtain ⟨t2, e2, e⟩ := Res.bind_eq_ok.1 e
  cases e
  have hC : ∀ i < s.nC, Proper (s.cons.getStatus i) := fun i hi => by
    rw [WS.getStatus_of_lt (by rw [hF.shape.nC]; exact hi)]
    exact hF.shape.okC.status_cases (by rw [hF.shape.nC]; exact hi)
  obtain ⟨k1, _, k3, _⟩ := setupAuxiliaryWorkingSet_upd (s := { s with status := QPS_PREPARINGAUXILIARYQP }) hF0 hB hC hc.1 hc.2.1 e0'
  obtain ⟨b1, b2⟩ := setupAuxiliaryQPdata_sets k1.facs.shape e2
  have b3 : s'.nC = t.nC := dims_nC (setupAuxiliaryQPdata_dims e2)
  refine ⟨by rw [b2]; exact setupAuxiliaryWorkingSet_keptC (s := { s with status := QPS_PREPARINGAUXILIARYQP }) hF0 hB hc.2.1 e0, fun j hj => ?_, by
    rw [b2, k1.facs.shape.nC]; exact k1.nC⟩
  rw [b2]
  exact k3 j (by rw [← b3]; exact hj)

/-- The same for the bounds and a guess for the constraints -/
theorem setupAuxiliaryQP_keptB {sq : K → K} {s s' : QPC K} (hF : s.Facs) {wC : WS} (hC : ∀ i < s.nC, Proper (wC.getStatus i))
    (h : s.shallRefactorise s.bounds wC = false) (hc : UpdatedClean sq s s.bounds wC) {r : ReturnValue}
    (e : setupAuxiliaryQP sq s none (some wC) = .ok (r, s')) :
    Stays s'.bounds.status s.bounds.status ∧
      (∀ j < s.nV, s'.bounds.status j ≠ ST_INACTIVE → s'.bounds.status j = s.bounds.getStatus j ∨ s.bounds.type j = ST_EQUALITY) ∧ s'.bounds.n = s.nV := by
  unfold setupAuxiliaryQP at e
  simp only [Option.isNone_some, Option.isNone_none, Bool.false_and, Bool.and_false, Bool.false_eq_true, if_false, Option.getD_some, Option.getD_none] at e
  have h1 : ¬ ({ s with status := QPS_PREPARINGAUXILIARYQP } : QPC K).shallRefactorise s.bounds wC = true := by
    have : ({ s with status := QPS_PREPARINGAUXILIARYQP } : QPC K).shallRefactorise s.bounds wC = false := h
    rw [this]; decide
  rw [if_neg h1] at e
  obtain ⟨⟨r0, t⟩, e0, e⟩ := Res.bind_eq_ok.1 e
  have hF0 : ({ s with status := QPS_PREPARINGAUXILIARYQP } : QPC K).Facs := hF.congr rfl rfl rfl rfl rfl rfl rfl rfl rfl rfl id
  have e0' := e0
  rw [setupAuxiliaryWorkingSet_keepB (sq := sq) (s := { s with status := QPS_PREPARINGAUXILIARYQP }) hF0 hc.2.1] at e0'
  obtain ⟨c4, _⟩ := hc.2.2 _ e0'
  dsimp only at c4 e
  subst c4
  obtain ⟨t2, e2, e⟩ := Res.bind_eq_ok.1 e
  cases e
  have hB : ∀ i < s.nV, Proper (s.bounds.getStatus i) := fun i hi => by
    rw [WS.getStatus_of_lt (by rw [hF.shape.nB]; exact hi)]
    exact hF.shape.okB.status_cases (by rw [hF.shape.nB]; exact hi)
  obtain ⟨k1, k2, _⟩ := setupAuxiliaryWorkingSet_upd (s := { s with status := QPS_PREPARINGAUXILIARYQP }) hF0 hB hC hc.1 hc.2.1 e0'
  obtain ⟨b1, b2⟩ := setupAuxiliaryQPdata_sets k1.facs.shape e2
  refine ⟨by rw [b1]; exact setupAuxiliaryWorkingSet_keptB (s := { s with status := QPS_PREPARINGAUXILIARYQP }) hF0 hC hc.2.1 e0, fun j hj ha => ?_, by
    rw [b1, k1.facs.shape.nB]; exact k1.nV⟩
  rw [b1] at ha ⊢
  have ht : t.bounds.type = s.bounds.type := k1.typeB
  rcases k2 j (by rw [k1.nV]; exact hj) ha with h2 | h2
  · rw [ht] at h2; exact h2
  · left
    rw [WS.getStatus_of_lt (by rw [hF.shape.nB]; exact hj)]; exact h2

/-! ### the hotstart -/

/-- No guess for this side: no pointer, or a pointer to the object's own working set -/
def NoGuess (g : QPB.Guess) : Prop := g = .null ∨ g = .self

instance (g : QPB.Guess) : Decidable (NoGuess g) := by
  unfold NoGuess
  cases g
  · exact isTrue (Or.inl rfl)
  · exact isTrue (Or.inr rfl)
  · exact isFalse (by rintro (h | h) <;> cases h)

/-- The guess for the constraints that a missing one amounts to -/
def impliedC (s : QPC K) (wB : WS) : WS := if s.shallRefactorise wB s.cons then noneActive s.nC else s.cons
/-- The guess for the bounds that a missing one amounts to -/
def impliedB (s : QPC K) (wC : WS) : WS := if s.shallRefactorise s.bounds wC then noneActive s.nV else s.bounds

theorem hotstart_scratchB {sq : K → K} {fuel : Nat} {s : QPC K} {wB : WS} {cputime : Option K} (hr : s.shallRefactorise wB s.cons = true)
    {g : Nat → K} {lb ub lbA ubA : Option (Nat → K)} {nWSR : Int} {gC : QPB.Guess} (hg : NoGuess gC) :
    hotstart sq fuel s g lb ub lbA ubA nWSR cputime (.other wB) gC = hotstart sq fuel s g lb ub lbA ubA nWSR cputime (.other wB) (.other (noneActive s.nC)) := by
  obtain ⟨k, ek⟩ := startClock_frame s.toQPB cputime
  have es : s.guessStart cputime = { s with now := k } := by unfold guessStart; rw [ek]
  have key : setupAuxiliaryQP sq (s.guessStart cputime) (some wB) none = setupAuxiliaryQP sq (s.guessStart cputime) (some wB) (some (noneActive s.nC)) := by
    rw [es]; exact setupAuxiliaryQP_scratchB (s := { s with now := k }) hr
  unfold hotstart
  split
  · rfl
  rcases hg with rfl | rfl
  · exact congrArg (fun a => Res.bind a _) key
  · exact congrArg (fun a => Res.bind a _) key

theorem hotstart_scratchC {sq : K → K} {fuel : Nat} {s : QPC K} {wC : WS} {cputime : Option K} (hr : s.shallRefactorise s.bounds wC = true)
    {g : Nat → K} {lb ub lbA ubA : Option (Nat → K)} {nWSR : Int} {gB : QPB.Guess} (hg : NoGuess gB) :
    hotstart sq fuel s g lb ub lbA ubA nWSR cputime gB (.other wC) = hotstart sq fuel s g lb ub lbA ubA nWSR cputime (.other (noneActive s.nV)) (.other wC) := by
  obtain ⟨k, ek⟩ := startClock_frame s.toQPB cputime
  have es : s.guessStart cputime = { s with now := k } := by unfold guessStart; rw [ek]
  have key : setupAuxiliaryQP sq (s.guessStart cputime) none (some wC) = setupAuxiliaryQP sq (s.guessStart cputime) (some (noneActive s.nV)) (some wC) := by
    rw [es]; exact setupAuxiliaryQP_scratchC (s := { s with now := k }) hr
  unfold hotstart
  split
  · rfl
  rcases hg with rfl | rfl
  · exact congrArg (fun a => Res.bind a _) key
  · exact congrArg (fun a => Res.bind a _) key

theorem hotstart_keepC {sq : K → K} {fuel : Nat} {s : QPC K} (hF : s.Facs) {wB : WS} (hB : ∀ i < s.nV, Proper (wB.getStatus i)) {cputime : Option K} (hr : s.shallRefactorise wB s.cons = false)
    (hc : UpdatedClean sq (s.guessStart cputime) wB s.cons) {g : Nat → K} {lb ub lbA ubA : Option (Nat → K)} {nWSR : Int} {gC : QPB.Guess} (hg : NoGuess gC) :
    hotstart sq fuel s g lb ub lbA ubA nWSR cputime (.other wB) gC = hotstart sq fuel s g lb ub lbA ubA nWSR cputime (.other wB) (.other s.cons) := by
  obtain ⟨k, ek⟩ := startClock_frame s.toQPB cputime
  have es : s.guessStart cputime = { s with now := k } := by unfold guessStart; rw [ek]
  have key : setupAuxiliaryQP sq (s.guessStart cputime) (some wB) none = setupAuxiliaryQP sq (s.guessStart cputime) (some wB) (some s.cons) := by
    rw [es] at hc ⊢; exact setupAuxiliaryQP_updateB (s := { s with now := k }) ⟨⟨hF.shape.okB, hF.shape.okC, hF.shape.nB, hF.shape.nC, hF.shape.size⟩, ⟨hF.tq.le, hF.tq.tq⟩, hF.chol, hF.sym⟩ hB hr hc
  unfold hotstart
  split
  · rfl
  rcases hg with rfl | rfl
  · exact congrArg (fun a => Res.bind a _) key
  · exact congrArg (fun a => Res.bind a _) key

theorem hotstart_keepB {sq : K → K} {fuel : Nat} {s : QPC K} (hF : s.Facs) {wC : WS} {cputime : Option K} (hr : s.shallRefactorise s.bounds wC = false)
    (hc : UpdatedClean sq (s.guessStart cputime) s.bounds wC) {g : Nat → K} {lb ub lbA ubA : Option (Nat → K)} {nWSR : Int} {gB : QPB.Guess} (hg : NoGuess gB) :
    hotstart sq fuel s g lb ub lbA ubA nWSR cputime gB (.other wC) = hotstart sq fuel s g lb ub lbA ubA nWSR cputime (.other s.bounds) (.other wC) := by
  obtain ⟨k, ek⟩ := startClock_frame s.toQPB cputime
  have es : s.guessStart cputime = { s with now := k } := by unfold guessStart; rw [ek]
  have key : setupAuxiliaryQP sq (s.guessStart cputime) none (some wC) = setupAuxiliaryQP sq (s.guessStart cputime) (some s.bounds) (some wC) := by
    rw [es] at hc ⊢; exact setupAuxiliaryQP_updateC (s := { s with now := k }) ⟨⟨hF.shape.okB, hF.shape.okC, hF.shape.nB, hF.shape.nC, hF.shape.size⟩, ⟨hF.tq.le, hF.tq.tq⟩, hF.chol, hF.sym⟩ hr hc
  unfold hotstart
  split
  · rfl
  rcases hg with rfl | rfl
  · exact congrArg (fun a => Res.bind a _) key
  · exact congrArg (fun a => Res.bind a _) key

/-- What the guesses passed to a hotstart amount to: a missing guess stands for the statuses the object holds if the other one is installed by updates, and for
none active if it is installed from scratch. -/
def Guessed (s : QPC K) (gB gC : QPB.Guess) (wB wC : WS) : Prop :=
  (gB = .other wB ∧ gC = .other wC) ∨ (gB = .other wB ∧ NoGuess gC ∧ wC = s.impliedC wB) ∨ (NoGuess gB ∧ gC = .other wC ∧ wB = s.impliedB wC)

theorem Guessed.afresh {sq : K → K} {fuel : Nat} {s : QPC K} {gB gC : QPB.Guess} {wB wC : WS} (h : s.Guessed gB gC wB wC) (hr : s.shallRefactorise wB wC = true)
    {g : Nat → K} {lb ub lbA ubA : Option (Nat → K)} {nWSR : Int} {cputime : Option K} {o : OutC K}
    (e : hotstart sq fuel s g lb ub lbA ubA nWSR cputime gB gC = .ok o) :
    hotstart sq fuel s g lb ub lbA ubA nWSR cputime (.other wB) (.other wC) = .ok o := by
  rcases h with ⟨rfl, rfl⟩ | ⟨rfl, h1, rfl⟩ | ⟨h1, rfl, rfl⟩
  · exact e
  · have hs : s.shallRefactorise wB s.cons = true := by
      by_contra hn
      rw [impliedC, if_neg hn] at hr
      exact hn hr
    have := hotstart_scratchB (sq := sq) (fuel := fuel) (g := g) (lb := lb) (ub := ub) (lbA := lbA) (ubA := ubA) (nWSR := nWSR) (cputime := cputime) hs h1
    rw [impliedC, if_pos hs, ← this]; exact e
  · have hs : s.shallRefactorise s.bounds wC = true := by
      by_contra hn
      rw [impliedB, if_neg hn] at hr
      exact hn hr
    have := hotstart_scratchC (sq := sq) (fuel := fuel) (g := g) (lb := lb) (ub := ub) (lbA := lbA) (ubA := ubA) (nWSR := nWSR) (cputime := cputime) hs h1
    rw [impliedB, if_pos hs, ← this]; exact e

theorem Guessed.updated {sq : K → K} {fuel : Nat} {s : QPC K} (hF : s.Facs) {gB gC : QPB.Guess} {wB wC : WS} (h : s.Guessed gB gC wB wC)
    (hr : s.shallRefactorise wB wC = false) (hB : ∀ i < s.nV, Proper (wB.getStatus i))
    {g : Nat → K} {lb ub lbA ubA : Option (Nat → K)} {nWSR : Int} {cputime : Option K} (hc : UpdatedClean sq (s.guessStart cputime) wB wC) {o : OutC K}
    (e : hotstart sq fuel s g lb ub lbA ubA nWSR cputime gB gC = .ok o) :
    hotstart sq fuel s g lb ub lbA ubA nWSR cputime (.other wB) (.other wC) = .ok o := by
  rcases h with ⟨rfl, rfl⟩ | ⟨rfl, h1, rfl⟩ | ⟨h1, rfl, rfl⟩
  · exact e
  · have hs : ¬ s.shallRefactorise wB s.cons = true := by
      intro hn
      rw [impliedC, if_pos hn, refactorise_ownC hn] at hr
      cases hr
    rw [impliedC, if_neg hs] at hc ⊢
    rw [← hotstart_keepC hF hB (by simpa using hs) hc h1]; exact e
  · have hs : ¬ s.shallRefactorise s.bounds wC = true := by
      intro hn
      rw [impliedB, if_pos hn, refactorise_ownB hn] at hr
      cases hr
    rw [impliedB, if_neg hs] at hc ⊢
    rw [← hotstart_keepB hF (by simpa using hs) hc h1]; exact e

end QPC
end QpOASES
