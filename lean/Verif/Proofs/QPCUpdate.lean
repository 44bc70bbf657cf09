import Verif.Proofs.QPCGuess

/-!
Hotstarts with a guess that is installed by changing the present working set.
-/
namespace QpOASES
namespace QPC
open Finset Props Spec ReturnValue SubjectToStatus SubjectToType HessianType QProblemStatus
open QPB (lowerOf upperOf EqualitiesOK Proper)

set_option linter.unusedSectionVars false

variable {K : Type} [Field K] [LinearOrder K] [IsStrictOrderedRing K]

/-- Only the working set and the factors have changed, and the factors are valid.  An equality constraint may have been given up. -/
structure Upd (s' s : QPC K) : Prop where
  facs : s'.Facs
  frame : ∃ T Q R fl wB wC, s' = { s with T := T, Q := Q, R := R, flipC := fl, bounds := wB, cons := wC }
  typeB : s'.bounds.type = s.bounds.type
  typeC : ∀ i, s'.cons.type i = s.cons.type i ∨ (s.cons.type i = ST_EQUALITY ∧ s'.cons.type i = ST_BOUNDED)
  noLowerC : s'.cons.noLower = s.cons.noLower
  noUpperC : s'.cons.noUpper = s.cons.noUpper

theorem Upd.refl {s : QPC K} (h : s.Facs) : Upd s s :=
  ⟨h, ⟨s.T, s.Q, s.R, s.flipC, s.bounds, s.cons, rfl⟩, rfl, fun _ => Or.inl rfl, rfl, rfl⟩

theorem Upd.trans {a b c : QPC K} (h : Upd a b) (g : Upd b c) : Upd a c := by
  refine ⟨h.facs, ?_, h.typeB.trans g.typeB, fun i => ?_, h.noLowerC.trans g.noLowerC, h.noUpperC.trans g.noUpperC⟩
  · obtain ⟨T, Q, R, fl, wB, wC, e⟩ := h.frame
    obtain ⟨T', Q', R', fl', wB', wC', e'⟩ := g.frame
    exact ⟨T, Q, R, fl, wB, wC, by rw [e, e']⟩
  · rcases g.typeC i with h1 | ⟨h1, h2⟩
    · rw [← h1]; exact h.typeC i
    · rcases h.typeC i with h3 | ⟨h3, _⟩
      · exact Or.inr ⟨h1, h3.trans h2⟩
      · rw [h2] at h3; cases h3

theorem Upd.nV {s' s : QPC K} (h : Upd s' s) : s'.nV = s.nV := by obtain ⟨T, Q, R, fl, wB, wC, e⟩ := h.frame; rw [e]
theorem Upd.nC {s' s : QPC K} (h : Upd s' s) : s'.nC = s.nC := by obtain ⟨T, Q, R, fl, wB, wC, e⟩ := h.frame; rw [e]
theorem Upd.options {s' s : QPC K} (h : Upd s' s) : s'.options = s.options := by obtain ⟨T, Q, R, fl, wB, wC, e⟩ := h.frame; rw [e]

/-- Fixing a variable, with an update of the factors -/
theorem fix_upd {sq : K → K} {s s' : QPC K} (h : s.Facs) (hf : s.options.enableFullLITests = false) {i : Nat} (hi : i < s.nV) {st : SubjectToStatus}
    (hst : st = ST_LOWER ∨ st = ST_UPPER) (hl : s.checkLIBound i = .ok true) (hc : s.CleanAddB sq i true)
    (e : addBoundAs sq s i st true = .ok (SUCCESSFUL_RETURN, s')) :
    Upd s' s ∧ s'.bounds.status = updA s.bounds.status i st ∧ s'.cons = s.cons := by
  have hz := nZ_of_checkB hf hl
  unfold addBoundAs at e
  rw [if_pos rfl] at e
  unfold addBound at e
  split at e
  · next hk => cases e; exact absurd rfl (addBoundCheck_ne hk)
  next hk =>
  unfold ensureLIBound at e
  rw [hl, Res.bind_ok, if_pos rfl, Res.bind_ok] at e
  dsimp only at e
  rw [if_pos rfl] at e
  have hm := free_of_checkB h.shape hi hk
  obtain ⟨T, Q, R, k1, k2, k3, k4⟩ := addBoundUpdate_spec h.shape h.tq h.sym hm hst hz (fun _ => h.chol) hc
  obtain ⟨_, _, _, _, _, b6, _, b8, b9, b10, b11, _⟩ := swapped_spec h.shape hm
  rw [k1] at e
  simp only [Res.ok.injEq, Prod.mk.injEq, true_and] at e
  subst e
  refine ⟨⟨⟨k2, k3, k4 rfl, h.sym⟩, ⟨T, Q, R, s.flipC, _, s.cons, rfl⟩, b9, fun _ => Or.inl rfl, rfl, rfl⟩, ?_, rfl⟩
  show updA (s.swapped i).status i st = _
  rw [b8]

/-- Activating a constraint, with an update of the factors -/
theorem activate_upd {sq : K → K} {s s' : QPC K} (h : s.Facs) (hf : s.options.enableFullLITests = false) {i : Nat} (hi : i < s.nC) {st : SubjectToStatus}
    (hst : st = ST_LOWER ∨ st = ST_UPPER) (hl : s.checkLIConstraint i = .ok true) (hc : s.CleanAddC sq i true)
    (e : addConstraintAs sq s i st true = .ok (SUCCESSFUL_RETURN, s')) :
    Upd s' s ∧ s'.cons.status = updA s.cons.status i st ∧ s'.bounds = s.bounds ∧ s'.cons.type = s.cons.type := by
  have hz := nZ_of_checkC hf hl
  unfold addConstraintAs at e
  rw [if_pos rfl] at e
  unfold addConstraint at e
  split at e
  · next hk => cases e; exact absurd rfl (addConstraintCheck_ne hk)
  next hk =>
  unfold ensureLIConstraint at e
  rw [hl, Res.bind_ok, if_pos rfl, Res.bind_ok] at e
  dsimp only at e
  rw [if_pos rfl] at e
  have hm := free_of_checkC h.shape hi hk
  obtain ⟨T, Q, R, k1, k2, k3, k4⟩ := addConstraintUpdate_spec h.shape h.tq h.sym hm hst hz (fun _ => h.chol) hc
  rw [k1] at e
  simp only [Res.ok.injEq, Prod.mk.injEq, true_and] at e
  subst e
  exact ⟨⟨⟨k2, k3, k4 rfl, h.sym⟩, ⟨T, Q, R, s.flipC, s.bounds, _, rfl⟩, rfl, fun _ => Or.inl rfl, rfl, rfl⟩, rfl, rfl, rfl⟩

/-- The removal of a member is exact: no jump along a direction without curvature, exact rotations and roots. -/
def CleanFree (sq : K → K) (s : QPC K) (i : Nat) : Prop := (s.options.enableNZCTests = true → s.Curved true i) ∧ s.CleanRemoveB sq i false
def CleanDeactivate (sq : K → K) (s : QPC K) (i : Nat) : Prop := (s.options.enableNZCTests = true → s.Curved false i) ∧ s.CleanRemoveC sq i false

theorem free_upd {sq : K → K} {s s' : QPC K} (h : s.Facs) {i : Nat} (hi : i < s.nV) (hc : CleanFree sq s i)
    (e : removeBound sq s i true false s.options.enableNZCTests = .ok (SUCCESSFUL_RETURN, s')) :
    Upd s' s ∧ s'.bounds.status = updA s.bounds.status i ST_INACTIVE ∧ s'.cons = s.cons := by
  have hlt : i < s.bounds.n := by rw [h.shape.nB]; exact hi
  obtain ⟨hst, key⟩ : s.bounds.getStatus i ≠ ST_INACTIVE ∧ removeBoundUpdate sq s i true false none = .ok (SUCCESSFUL_RETURN, s') := by
    unfold removeBound at e
    split at e
    · cases e
    next hst =>
    refine ⟨hst, ?_⟩
    split at e
    · cases e
    split at e
    · next hz =>
      rw [Res.bind_eq_ok] at e
      obtain ⟨⟨r, s1, c⟩, e1, e⟩ := e
      obtain ⟨rfl, rfl⟩ := (hc.1 hz).stays e1
      dsimp only at e
      split at e
      · next hr => simp only [Res.ok.injEq, Prod.mk.injEq] at e; exact absurd e.1 hr
      · exact e
    · exact e
  rw [WS.getStatus_of_lt hlt] at hst
  have hm := h.shape.okB.mem_fixed_iff.2 ⟨hlt, (h.shape.okB.status_cases hlt).resolve_left hst⟩
  obtain ⟨f1, ⟨T, Q, R, fl, rfl⟩ | ⟨f, _⟩⟩ := removeBoundUpdate_spec h hm hc.2 key
  · exact ⟨⟨f1, ⟨T, Q, R, fl, _, s.cons, rfl⟩, rfl, fun _ => Or.inl rfl, rfl, rfl⟩, rfl, rfl⟩
  · cases f

theorem deactivate_upd {sq : K → K} {s s' : QPC K} (h : s.Facs) {i : Nat} (hc : CleanDeactivate sq s i)
    (e : removeConstraint sq s i true false s.options.enableNZCTests = .ok (SUCCESSFUL_RETURN, s')) :
    Upd s' s ∧ s'.cons.status = updA s.cons.status i ST_INACTIVE ∧ s'.bounds = s.bounds := by
  obtain ⟨hm, key⟩ : i ∈ s.cons.fixed ∧ removeConstraintUpdate sq s i true false none = .ok (SUCCESSFUL_RETURN, s') := by
    unfold removeConstraint at e
    split at e
    · cases e
    split at e
    · cases e
    split at e
    · cases e
    next hm =>
    refine ⟨List.contains_iff_mem.1 (by simpa using hm), ?_⟩
    split at e
    · next hz =>
      rw [Res.bind_eq_ok] at e
      obtain ⟨⟨r, s1, c⟩, e1, e⟩ := e
      obtain ⟨rfl, rfl⟩ := (hc.1 hz).stays e1
      dsimp only at e
      split at e
      · next hr => simp only [Res.ok.injEq, Prod.mk.injEq] at e; exact absurd e.1 hr
      · exact e
    · exact e
  obtain ⟨f1, ⟨T, Q, R, fl, rfl⟩ | ⟨f, _⟩⟩ := removeConstraintUpdate_spec h hm hc.2 key
  · exact ⟨⟨f1, ⟨T, Q, R, fl, s.bounds, _, rfl⟩, rfl, fun _ => Or.inl rfl, rfl, rfl⟩, rfl, rfl⟩
  · cases f

/-! ### the loops -/

/-- The changes of the six loops are exact. -/
def RemCClean (sq : K → K) (w : WS) (i : Nat) (s : QPC K) : Prop :=
  s.cons.status i ≠ ST_INACTIVE → s.cons.status i ≠ w.getStatus i → CleanDeactivate sq s i
def RemBClean (sq : K → K) (w : WS) (i : Nat) (s : QPC K) : Prop :=
  s.bounds.status i ≠ ST_INACTIVE → s.bounds.status i ≠ w.getStatus i → CleanFree sq s i
def EqBUpd (sq : K → K) (i : Nat) (s : QPC K) : Prop :=
  s.bounds.type i = ST_EQUALITY → s.bounds.status i = ST_INACTIVE → s.checkLIBound i = .ok true ∧ s.CleanAddB sq i true
def EqCUpd (sq : K → K) (i : Nat) (s : QPC K) : Prop :=
  s.cons.type i = ST_EQUALITY → s.cons.status i = ST_INACTIVE → s.checkLIConstraint i = .ok true → s.CleanAddC sq i true
def AddBUpd (sq : K → K) (w : WS) (i : Nat) (s : QPC K) : Prop :=
  s.bounds.type i ≠ ST_EQUALITY → s.bounds.status i = ST_INACTIVE → w.getStatus i ≠ ST_INACTIVE → s.checkLIBound i = .ok true → s.CleanAddB sq i true
def AddCUpd (sq : K → K) (w : WS) (i : Nat) (s : QPC K) : Prop :=
  s.cons.type i ≠ ST_EQUALITY → w.getStatus i ≠ ST_INACTIVE → s.cons.status i = ST_INACTIVE → s.checkLIConstraint i = .ok true → s.CleanAddC sq i true

theorem auxRemoveC_cases {sq : K → K} {t t' : QPC K} {w : WS} (h : t.Facs) {i : Nat} (hi : i < t.nC) (hc : RemCClean sq w i t)
    (e : auxRemoveC sq (some w) i t = .ok (SUCCESSFUL_RETURN, t')) :
    (Upd t' t ∧ t'.cons.status = updA t.cons.status i ST_INACTIVE ∧ t'.bounds = t.bounds) ∨
      (t' = t ∧ (t.cons.status i ≠ ST_INACTIVE → t.cons.status i = w.getStatus i)) := by
  have hn : i < t.cons.n := by rw [h.shape.nC]; exact hi
  unfold auxRemoveC at e
  have ew : ∀ t : QPC K, t.wantC (some w) i = w.getStatus i := fun _ => rfl
  simp only [ew] at e
  split at e
  · next hl =>
    obtain ⟨⟨r, u⟩, e1, e⟩ := Res.bind_eq_ok.1 e
    dsimp only at e
    split at e
    · cases e; exact absurd rfl ‹_›
    next hr =>
    rw [not_not] at hr
    subst hr
    rw [WS.getStatus_of_lt hn] at hl
    obtain ⟨a, b, c⟩ := deactivate_upd h (hc (by rw [hl.1]; decide) (by rw [hl.1]; exact Ne.symm hl.2)) e1
    have hu : u.cons.getStatus i = ST_INACTIVE := by
      rw [WS.getStatus_of_lt (by rw [a.facs.shape.nC, a.nC]; exact hi), b, updA_same]
    rw [if_neg (fun hh => by rw [hu] at hh; cases hh.1)] at e
    cases e
    exact Or.inl ⟨a, b, c⟩
  · next hl =>
    rw [Res.bind_ok] at e
    dsimp only at e
    rw [if_neg (fun h => h rfl)] at e
    rw [WS.getStatus_of_lt hn] at hl e
    split at e
    · next hu =>
      exact Or.inl (deactivate_upd h (hc (by rw [hu.1]; decide) (by rw [hu.1]; exact Ne.symm hu.2)) e)
    · next hu =>
      cases e
      refine Or.inr ⟨rfl, fun hne => ?_⟩
      rcases (h.shape.okC.status_cases hn).resolve_left hne with h1 | h1
      · by_contra hw
        exact hl ⟨h1, fun h' => hw (by rw [h1, h'])⟩
      · by_contra hw
        exact hu ⟨h1, fun h' => hw (by rw [h1, h'])⟩

theorem auxRemoveB_cases {sq : K → K} {t t' : QPC K} {w : WS} (h : t.Facs) {i : Nat} (hi : i < t.nV) (hc : RemBClean sq w i t)
    (e : auxRemoveB sq (some w) i t = .ok (SUCCESSFUL_RETURN, t')) :
    (Upd t' t ∧ t'.bounds.status = updA t.bounds.status i ST_INACTIVE ∧ t'.cons = t.cons) ∨
      (t' = t ∧ (t.bounds.status i ≠ ST_INACTIVE → t.bounds.status i = w.getStatus i)) := by
  have hn : i < t.bounds.n := by rw [h.shape.nB]; exact hi
  unfold auxRemoveB at e
  have ew : ∀ t : QPC K, t.wantB (some w) i = w.getStatus i := fun _ => rfl
  simp only [ew] at e
  split at e
  · next hl =>
    obtain ⟨⟨r, u⟩, e1, e⟩ := Res.bind_eq_ok.1 e
    dsimp only at e
    split at e
    · cases e; exact absurd rfl ‹_›
    next hr =>
    rw [not_not] at hr
    subst hr
    rw [WS.getStatus_of_lt hn] at hl
    obtain ⟨a, b, c⟩ := free_upd h hi (hc (by rw [hl.1]; decide) (by rw [hl.1]; exact Ne.symm hl.2)) e1
    have hu : u.bounds.getStatus i = ST_INACTIVE := by
      rw [WS.getStatus_of_lt (by rw [a.facs.shape.nB, a.nV]; exact hi), b, updA_same]
    rw [if_neg (fun hh => by rw [hu] at hh; cases hh.1)] at e
    cases e
    exact Or.inl ⟨a, b, c⟩
  · next hl =>
    rw [Res.bind_ok] at e
    dsimp only at e
    rw [if_neg (fun h => h rfl)] at e
    rw [WS.getStatus_of_lt hn] at hl e
    split at e
    · next hu =>
      exact Or.inl (free_upd h hi (hc (by rw [hu.1]; decide) (by rw [hu.1]; exact Ne.symm hu.2)) e)
    · next hu =>
      cases e
      refine Or.inr ⟨rfl, fun hne => ?_⟩
      rcases (h.shape.okB.status_cases hn).resolve_left hne with h1 | h1
      · by_contra hw
        exact hl ⟨h1, fun h' => hw (by rw [h1, h'])⟩
      · by_contra hw
        exact hu ⟨h1, fun h' => hw (by rw [h1, h'])⟩

theorem remC_loop {sq : K → K} {s s' : QPC K} (h : s.Facs) {w : WS} (hc : SeqClean (RemCClean sq w) (auxRemoveC sq (some w)) s.nC 0 s)
    (e : seqLoop (auxRemoveC sq (some w)) s.nC 0 s = .ok (SUCCESSFUL_RETURN, s')) :
    Upd s' s ∧ s'.bounds = s.bounds ∧ ∀ j < s.nC, s'.cons.status j ≠ ST_INACTIVE → s'.cons.status j = w.getStatus j := by
  refine seqLoop_index (n := s.nC) (c := RemCClean sq w) (f := auxRemoveC sq (some w))
    (fun i t => Upd t s ∧ t.bounds = s.bounds ∧ ∀ j < i, t.cons.status j ≠ ST_INACTIVE → t.cons.status j = w.getStatus j)
    (fun i t t' hi ⟨a1, a2, a3⟩ hcl et => ?_) s.nC 0 s s' (by omega) ⟨Upd.refl h, rfl, fun j hj => by omega⟩ hc e
  rcases auxRemoveC_cases a1.facs (by rw [a1.nC]; exact hi) hcl et with ⟨b1, b2, b3⟩ | ⟨rfl, b2⟩
  · refine ⟨b1.trans a1, b3.trans a2, fun j hj ha => ?_⟩
    by_cases hji : j = i
    · rw [hji, b2, updA_same] at ha; exact absurd rfl ha
    · rw [b2, updA_ne _ _ hji] at ha ⊢
      exact a3 j (by omega) ha
  · refine ⟨a1, a2, fun j hj ha => ?_⟩
    by_cases hji : j = i
    · rw [hji] at ha ⊢; exact b2 ha
    · exact a3 j (by omega) ha

theorem remB_loop {sq : K → K} {s s' : QPC K} (h : s.Facs) {w : WS} (hc : SeqClean (RemBClean sq w) (auxRemoveB sq (some w)) s.nV 0 s)
    (e : seqLoop (auxRemoveB sq (some w)) s.nV 0 s = .ok (SUCCESSFUL_RETURN, s')) :
    Upd s' s ∧ s'.cons = s.cons ∧ ∀ j < s.nV, s'.bounds.status j ≠ ST_INACTIVE → s'.bounds.status j = w.getStatus j := by
  refine seqLoop_index (n := s.nV) (c := RemBClean sq w) (f := auxRemoveB sq (some w))
    (fun i t => Upd t s ∧ t.cons = s.cons ∧ ∀ j < i, t.bounds.status j ≠ ST_INACTIVE → t.bounds.status j = w.getStatus j)
    (fun i t t' hi ⟨a1, a2, a3⟩ hcl et => ?_) s.nV 0 s s' (by omega) ⟨Upd.refl h, rfl, fun j hj => by omega⟩ hc e
  rcases auxRemoveB_cases a1.facs (by rw [a1.nV]; exact hi) hcl et with ⟨b1, b2, b3⟩ | ⟨rfl, b2⟩
  · refine ⟨b1.trans a1, b3.trans a2, fun j hj ha => ?_⟩
    by_cases hji : j = i
    · rw [hji, b2, updA_same] at ha; exact absurd rfl ha
    · rw [b2, updA_ne _ _ hji] at ha ⊢
      exact a3 j (by omega) ha
  · refine ⟨a1, a2, fun j hj ha => ?_⟩
    by_cases hji : j = i
    · rw [hji] at ha ⊢; exact b2 ha
    · exact a3 j (by omega) ha

/-- The active members are those of the guess, apart from equalities. -/
def OnlyB (s : QPC K) (w : WS) : Prop := ∀ j < s.nV, s.bounds.status j ≠ ST_INACTIVE → s.bounds.status j = w.getStatus j ∨ s.bounds.type j = ST_EQUALITY
def OnlyC (ty : Nat → SubjectToType) (s : QPC K) (w : WS) : Prop := ∀ j < s.nC, s.cons.status j ≠ ST_INACTIVE → s.cons.status j = w.getStatus j ∨ ty j = ST_EQUALITY
/-- What was active is still active. -/
def Stays (a b : Nat → SubjectToStatus) : Prop := ∀ j, b j ≠ ST_INACTIVE → a j = b j

theorem Stays.upd {a b : Nat → SubjectToStatus} {i : Nat} {st : SubjectToStatus} (h : Stays a b) (hi : a i = ST_INACTIVE) : Stays (updA a i st) b := by
  intro j hj
  by_cases hji : j = i
  · subst hji
    rw [h j hj] at hi
    exact absurd hi hj
  · rw [updA_ne _ _ hji]; exact h j hj

theorem eqB_upd {sq : K → K} {s s' : QPC K} (h : s.Facs) (hf : s.options.enableFullLITests = false) {w : WS} (ho : OnlyB s w)
    (hc : SeqClean (EqBUpd sq) (auxEqB sq true) s.nV 0 s)
    (e : seqLoop (auxEqB sq true) s.nV 0 s = .ok (SUCCESSFUL_RETURN, s')) :
    Upd s' s ∧ s'.cons = s.cons ∧ OnlyB s' w ∧ ∀ j < s.nV, s.bounds.type j = ST_EQUALITY → s'.bounds.status j ≠ ST_INACTIVE := by
  refine seqLoop_index (n := s.nV) (c := EqBUpd sq) (f := auxEqB sq true)
    (fun i t => Upd t s ∧ t.cons = s.cons ∧ OnlyB t w ∧ ∀ j < i, s.bounds.type j = ST_EQUALITY → t.bounds.status j ≠ ST_INACTIVE)
    (fun i t t' hi ⟨a1, a2, a3, a4⟩ hcl et => ?_) s.nV 0 s s' (by omega) ⟨Upd.refl h, rfl, ho, fun j hj => by omega⟩ hc e
  unfold auxEqB at et
  have hit : i < t.nV := by rw [a1.nV]; exact hi
  rw [WS.getStatus_of_lt (by rw [a1.facs.shape.nB]; exact hit)] at et
  split at et
  · next hh =>
    obtain ⟨l1, l2⟩ := hcl hh.1 hh.2
    obtain ⟨b1, b2, b3⟩ := fix_upd a1.facs (by rw [a1.options]; exact hf) hit (Or.inl rfl) l1 l2 et
    refine ⟨b1.trans a1, b3.trans a2, fun j hj ha => ?_, fun j hj hty => ?_⟩
    · by_cases hji : j = i
      · rw [hji, b1.typeB]; exact Or.inr hh.1
      · rw [b2, updA_ne _ _ hji] at ha ⊢
        rw [b1.typeB]
        exact a3 j (by rw [← b1.nV]; exact hj) ha
    · by_cases hji : j = i
      · rw [hji, b2, updA_same]; decide
      · rw [b2, updA_ne _ _ hji]; exact a4 j (by omega) hty
  · next hh =>
    cases et
    refine ⟨a1, a2, a3, fun j hj hty => ?_⟩
    by_cases hji : j = i
    · rw [hji] at hty ⊢
      exact fun hin => hh ⟨by rw [a1.typeB]; exact hty, hin⟩
    · exact a4 j (by omega) hty

theorem eqC_upd {sq : K → K} {s s' : QPC K} (h : s.Facs) (hf : s.options.enableFullLITests = false) {w : WS} {ty : Nat → SubjectToType}
    (hty0 : ∀ j, s.cons.type j = ST_EQUALITY → ty j = ST_EQUALITY) (ho : OnlyC ty s w) (hc : SeqClean (EqCUpd sq) (auxEqC sq true) s.nC 0 s)
    (e : seqLoop (auxEqC sq true) s.nC 0 s = .ok (SUCCESSFUL_RETURN, s')) :
    Upd s' s ∧ s'.bounds = s.bounds ∧ OnlyC ty s' w ∧ ∀ j < s.nC, s'.cons.type j = ST_EQUALITY → s'.cons.status j ≠ ST_INACTIVE := by
  refine seqLoop_index (n := s.nC) (c := EqCUpd sq) (f := auxEqC sq true)
    (fun i t => Upd t s ∧ t.bounds = s.bounds ∧ OnlyC ty t w ∧ ∀ j < i, t.cons.type j = ST_EQUALITY → t.cons.status j ≠ ST_INACTIVE)
    (fun i t t' hi ⟨a1, a2, a3, a4⟩ hcl et => ?_) s.nC 0 s s' (by omega) ⟨Upd.refl h, rfl, ho, fun j hj => by omega⟩ hc e
  unfold auxEqC at et
  have hit : i < t.nC := by rw [a1.nC]; exact hi
  rw [WS.getStatus_of_lt (by rw [a1.facs.shape.nC]; exact hit)] at et
  split at et
  · next hh =>
    have hti : ty i = ST_EQUALITY := by
      rcases a1.typeC i with h1 | ⟨h1, _⟩
      · exact hty0 i (by rw [← h1]; exact hh.1)
      · exact hty0 i h1
    rw [Res.bind_eq_ok] at et
    obtain ⟨b, eb, et⟩ := et
    cases b with
    | true =>
      rw [if_pos rfl] at et
      obtain ⟨b1, b2, b3, _⟩ := activate_upd a1.facs (by rw [a1.options]; exact hf) hit (Or.inl rfl) eb (hcl hh.1 hh.2 eb) et
      refine ⟨b1.trans a1, b3.trans a2, fun j hj ha => ?_, fun j hj hty => ?_⟩
      · by_cases hji : j = i
        · rw [hji]; exact Or.inr hti
        · rw [b2, updA_ne _ _ hji] at ha ⊢
          exact a3 j (by rw [← b1.nC]; exact hj) ha
      · by_cases hji : j = i
        · rw [hji, b2, updA_same]; decide
        · have hty' : t.cons.type j = ST_EQUALITY := by
            rcases b1.typeC j with h | ⟨_, h⟩
            · rw [← h]; exact hty
            · rw [h] at hty; cases hty
          rw [b2, updA_ne _ _ hji]; exact a4 j (by omega) hty'
    | false =>
      rw [if_neg (by decide)] at et
      simp only [Res.ok.injEq, Prod.mk.injEq, true_and] at et
      subst et
      have hF := a1.facs
      refine ⟨Upd.trans ⟨⟨⟨hF.shape.okB, ⟨hF.shape.okC.perm, hF.shape.okC.free, hF.shape.okC.fixed⟩, hF.shape.nB, hF.shape.nC, hF.shape.size⟩,
        ⟨hF.tq.le, hF.tq.tq⟩, hF.chol, hF.sym⟩, ⟨t.T, t.Q, t.R, t.flipC, t.bounds, _, rfl⟩, rfl, fun j => ?_, rfl, rfl⟩ a1, a2, a3, fun j hj hty => ?_⟩
      · show updA t.cons.type i ST_BOUNDED j = _ ∨ _ ∧ updA t.cons.type i ST_BOUNDED j = _
        by_cases hji : j = i
        · subst hji
          rw [updA_same]; exact Or.inr ⟨hh.1, rfl⟩
        · rw [updA_ne _ _ hji]; exact Or.inl rfl
      · have hty : updA t.cons.type i ST_BOUNDED j = _ := hty
        by_cases hji : j = i
        · subst hji
          rw [updA_same] at hty; cases hty
        · rw [updA_ne _ _ hji] at hty
          exact a4 j (by omega) hty
  · next hh =>
    cases et
    refine ⟨a1, a2, a3, fun j hj hty => ?_⟩
    by_cases hji : j = i
    · rw [hji] at hty ⊢
      exact fun hin => hh ⟨hty, hin⟩
    · exact a4 j (by omega) hty

theorem addB_upd {sq : K → K} {s s' : QPC K} (h : s.Facs) (hf : s.options.enableFullLITests = false) {w : WS}
    (hw : ∀ i < s.nV, Proper (w.getStatus i)) (ho : OnlyB s w)
    (hc : SeqClean (AddBUpd sq w) (auxAddB sq (some w) true) s.nV 0 s)
    (e : seqLoop (auxAddB sq (some w) true) s.nV 0 s = .ok (SUCCESSFUL_RETURN, s')) :
    Upd s' s ∧ s'.cons = s.cons ∧ OnlyB s' w ∧ Stays s'.bounds.status s.bounds.status := by
  refine seqLoop_index (n := s.nV) (c := AddBUpd sq w) (f := auxAddB sq (some w) true)
    (fun i t => Upd t s ∧ t.cons = s.cons ∧ OnlyB t w ∧ Stays t.bounds.status s.bounds.status)
    (fun i t t' hi ⟨a1, a2, a3, a4⟩ hcl et => ?_) s.nV 0 s s' (by omega) ⟨Upd.refl h, rfl, ho, fun j _ => rfl⟩ hc e
  unfold auxAddB at et
  have hit : i < t.nV := by rw [a1.nV]; exact hi
  rw [WS.getStatus_of_lt (by rw [a1.facs.shape.nB]; exact hit), show t.wantB (some w) i = w.getStatus i from rfl] at et
  split at et
  · next hh =>
    rw [Res.bind_eq_ok] at et
    obtain ⟨b, eb, et⟩ := et
    cases b with
    | true =>
      rw [if_pos rfl] at et
      obtain ⟨b1, b2, b3⟩ := fix_upd a1.facs (by rw [a1.options]; exact hf) hit (Proper.of_ne (hw i hi) hh.2.2) eb (hcl hh.1 hh.2.1 hh.2.2 eb) et
      refine ⟨b1.trans a1, b3.trans a2, fun j hj ha => ?_, ?_⟩
      · by_cases hji : j = i
        · rw [hji, b2, updA_same]; exact Or.inl rfl
        · rw [b2, updA_ne _ _ hji] at ha ⊢
          rw [b1.typeB]
          exact a3 j (by rw [← b1.nV]; exact hj) ha
      · rw [b2]; exact a4.upd hh.2.1
    | false =>
      rw [if_neg (by decide)] at et
      cases et
      exact ⟨a1, a2, a3, a4⟩
  · cases et
    exact ⟨a1, a2, a3, a4⟩

theorem addC_upd {sq : K → K} {s s' : QPC K} (h : s.Facs) (hf : s.options.enableFullLITests = false) {w : WS} {ty : Nat → SubjectToType}
    (hw : ∀ i < s.nC, Proper (w.getStatus i)) (ho : OnlyC ty s w)
    (hc : SeqClean (AddCUpd sq w) (auxAddC sq (some w) true) s.nC 0 s)
    (e : seqLoop (auxAddC sq (some w) true) s.nC 0 s = .ok (SUCCESSFUL_RETURN, s')) :
    Upd s' s ∧ s'.bounds = s.bounds ∧ OnlyC ty s' w ∧ Stays s'.cons.status s.cons.status ∧ s'.cons.type = s.cons.type := by
  refine seqLoop_index (n := s.nC) (c := AddCUpd sq w) (f := auxAddC sq (some w) true)
    (fun i t => Upd t s ∧ t.bounds = s.bounds ∧ OnlyC ty t w ∧ Stays t.cons.status s.cons.status ∧ t.cons.type = s.cons.type)
    (fun i t t' hi ⟨a1, a2, a3, a4, a5⟩ hcl et => ?_) s.nC 0 s s' (by omega) ⟨Upd.refl h, rfl, ho, fun j _ => rfl, rfl⟩ hc e
  unfold auxAddC at et
  have hit : i < t.nC := by rw [a1.nC]; exact hi
  rw [WS.getStatus_of_lt (by rw [a1.facs.shape.nC]; exact hit), show t.wantC (some w) i = w.getStatus i from rfl] at et
  split at et
  · next hh =>
    rw [Res.bind_eq_ok] at et
    obtain ⟨b, eb, et⟩ := et
    cases b with
    | true =>
      rw [if_pos rfl] at et
      obtain ⟨b1, b2, b3, b4⟩ := activate_upd a1.facs (by rw [a1.options]; exact hf) hit (Proper.of_ne (hw i hi) hh.2.1) eb (hcl hh.1 hh.2.1 hh.2.2 eb) et
      refine ⟨b1.trans a1, b3.trans a2, fun j hj ha => ?_, ?_, b4.trans a5⟩
      · by_cases hji : j = i
        · rw [hji, b2, updA_same]; exact Or.inl rfl
        · rw [b2, updA_ne _ _ hji] at ha ⊢
          exact a3 j (by rw [← b1.nC]; exact hj) ha
      · rw [b2]; exact a4.upd hh.2.2
    | false =>
      rw [if_neg (by decide)] at et
      cases et
      exact ⟨a1, a2, a3, a4, a5⟩
  · cases et
    exact ⟨a1, a2, a3, a4, a5⟩

/-- All additions made when a guess is installed by updates are exact. -/
def AddsClean (sq : K → K) (s : QPC K) (wB wC : WS) : Prop :=
  SeqClean (EqBUpd sq) (auxEqB sq true) s.nV 0 s ∧
  ∀ s3, seqLoop (auxEqB sq true) s.nV 0 s = .ok (SUCCESSFUL_RETURN, s3) →
    SeqClean (EqCUpd sq) (auxEqC sq true) s3.nC 0 s3 ∧
    ∀ s4, seqLoop (auxEqC sq true) s3.nC 0 s3 = .ok (SUCCESSFUL_RETURN, s4) →
      SeqClean (AddBUpd sq wB) (auxAddB sq (some wB) true) s4.nV 0 s4 ∧
      ∀ s5, seqLoop (auxAddB sq (some wB) true) s4.nV 0 s4 = .ok (SUCCESSFUL_RETURN, s5) →
        SeqClean (AddCUpd sq wC) (auxAddC sq (some wC) true) s5.nC 0 s5

/-- All changes made when a guess is installed by updates are exact. -/
def UpdClean (sq : K → K) (s : QPC K) (wB wC : WS) : Prop :=
  SeqClean (RemCClean sq wC) (auxRemoveC sq (some wC)) s.nC 0 s ∧
  ∀ s1, seqLoop (auxRemoveC sq (some wC)) s.nC 0 s = .ok (SUCCESSFUL_RETURN, s1) →
    SeqClean (RemBClean sq wB) (auxRemoveB sq (some wB)) s1.nV 0 s1 ∧
    ∀ s2, seqLoop (auxRemoveB sq (some wB)) s1.nV 0 s1 = .ok (SUCCESSFUL_RETURN, s2) → AddsClean sq s2 wB wC

theorem auxLoops_upd {sq : K → K} {s s' : QPC K} (h : s.Facs) (hf : s.options.enableFullLITests = false) {wB wC : WS}
    (hB : ∀ i < s.nV, Proper (wB.getStatus i)) (hC : ∀ i < s.nC, Proper (wC.getStatus i)) (hc : UpdClean sq s wB wC)
    (e : auxLoops sq s (some wB) (some wC) false = .ok (SUCCESSFUL_RETURN, s')) :
    Upd s' s ∧ OnlyB s' wB ∧ OnlyC s.cons.type s' wC ∧ (∀ j < s.nV, s'.bounds.type j = ST_EQUALITY → s'.bounds.status j ≠ ST_INACTIVE) ∧
      ∀ j < s.nC, s'.cons.type j = ST_EQUALITY → s'.cons.status j ≠ ST_INACTIVE := by
  unfold auxLoops at e
  dsimp only [Bool.not_false] at e
  rw [if_neg (by decide)] at e
  obtain ⟨⟨r1, s1⟩, e1, e⟩ := Res.bind_eq_ok.1 e
  dsimp only at e
  split at e
  · next hr =>
    rw [Res.bind_ok] at e
    dsimp only at e
    rw [if_pos hr] at e
    cases e
    exact absurd rfl hr
  next hr =>
  rw [not_not] at hr; subst hr
  obtain ⟨⟨r2, s2⟩, e2, e⟩ := Res.bind_eq_ok.1 e
  dsimp only at e
  split at e
  · cases e; exact absurd rfl ‹_›
  next hr =>
  rw [not_not] at hr; subst hr
  obtain ⟨⟨r3, s3⟩, e3, e⟩ := Res.bind_eq_ok.1 e
  dsimp only at e
  split at e
  · cases e; exact absurd rfl ‹_›
  next hr =>
  rw [not_not] at hr; subst hr
  obtain ⟨⟨r4, s4⟩, e4, e⟩ := Res.bind_eq_ok.1 e
  dsimp only at e
  split at e
  · cases e; exact absurd rfl ‹_›
  next hr =>
  rw [not_not] at hr; subst hr
  obtain ⟨⟨r5, s5⟩, e5, e⟩ := Res.bind_eq_ok.1 e
  dsimp only at e
  split at e
  · cases e; exact absurd rfl ‹_›
  next hr =>
  rw [not_not] at hr; subst hr
  obtain ⟨c1, hc⟩ := hc
  obtain ⟨c2, hc⟩ := hc s1 e1
  obtain ⟨c3, hc⟩ := hc s2 e2
  obtain ⟨c4, hc⟩ := hc s3 e3
  obtain ⟨c5, hc⟩ := hc s4 e4
  have c6 := hc s5 e5
  obtain ⟨u1, b1, o1⟩ := remC_loop h c1 e1
  obtain ⟨u2, b2, o2⟩ := remB_loop u1.facs c2 e2
  have v2 := u2.trans u1
  obtain ⟨u3, b3, o3, q3⟩ := eqB_upd u2.facs (by rw [v2.options]; exact hf) (fun j hj ha => Or.inl (o2 j (by rw [← u2.nV]; exact hj) ha)) c3 e3
  have v3 := u3.trans v2
  have ec : s3.cons = s1.cons := b3.trans b2
  obtain ⟨u4, b4, o4, q4⟩ := eqC_upd (ty := s.cons.type) u3.facs (by rw [v3.options]; exact hf)
    (fun j hj => by
      rcases v3.typeC j with h | ⟨h, _⟩
      · rw [← h]; exact hj
      · exact h)
    (fun j hj ha => Or.inl (by rw [ec] at ha ⊢; exact o1 j (by rw [← v3.nC]; exact hj) ha)) c4 e4
  have v4 := u4.trans v3
  obtain ⟨u5, b5, o5, k5⟩ := addB_upd u4.facs (by rw [v4.options]; exact hf) (by rw [v4.nV]; exact hB)
    (fun j hj ha => by rw [b4] at ha ⊢; exact o3 j (by rw [← u4.nV]; exact hj) ha) c5 e5
  have v5 := u5.trans v4
  obtain ⟨u6, b6, o6, k6, t6⟩ := addC_upd (ty := s.cons.type) u5.facs (by rw [v5.options]; exact hf) (by rw [v5.nC]; exact hC)
    (fun j hj ha => by rw [b5] at ha ⊢; exact o4 j (by rw [← u5.nC]; exact hj) ha) c6 e
  refine ⟨u6.trans v5, fun j hj ha => ?_, o6, fun j hj hty => ?_, fun j hj hty => ?_⟩
  · rw [b6] at ha ⊢; exact o5 j (by rw [← u6.nV]; exact hj) ha
  · rw [b6] at hty ⊢
    rw [v5.typeB] at hty
    have := q3 j (by rw [v2.nV]; exact hj) (by rw [v2.typeB]; exact hty)
    rw [← b4] at this
    rw [k5 j this]; exact this
  · rw [t6, b5] at hty
    have := q4 j (by rw [v3.nC]; exact hj) hty
    rw [← b5] at this
    rw [k6 j this]; exact this

/-! ### the auxiliary QP -/

/-- A guess that can be installed by updates: its statuses are proper, and the multipliers the object holds have the signs it requires. -/
structure UpdateOK (s : QPC K) (wB wC : WS) : Prop where
  properB : ∀ i < s.nV, Proper (wB.getStatus i)
  properC : ∀ k < s.nC, Proper (wC.getStatus k)
  signB : GuessFits wB s.bounds.type s.y s.nV
  signC : GuessFits wC s.cons.type (fun k => s.y (s.nV + k)) s.nC

/-- Exact arithmetic while the guess is installed by updates: a guess that fixes every variable does not meet active constraints, no update is rejected,
and an equality constraint left out as dependent is not added later. -/
def UpdatedClean (sq : K → K) (s : QPC K) (wB wC : WS) : Prop :=
  (s.isTrivial (some wB) (some wC) = true → s.nAC = 0) ∧
  (s.isTrivial (some wB) (some wC) = false → UpdClean sq ({ s with status := QPS_PREPARINGAUXILIARYQP } : QPC K).plainLI wB wC) ∧
  ∀ p, setupAuxiliaryWorkingSet sq ({ s with status := QPS_PREPARINGAUXILIARYQP } : QPC K) (some wB) (some wC) false = .ok p →
    p.1 = SUCCESSFUL_RETURN ∧ ∀ k < s.nC, s.cons.type k = ST_EQUALITY → p.2.cons.type k = ST_EQUALITY ∨ p.2.cons.status k = ST_INACTIVE

/-- Fixing all variables: a status is the former one or the guessed one. -/
theorem fixAll_one {w : WS} (m : Nat) (b : WS) (i : Nat) :
    (loop (fun i b => if b.getStatus i = ST_INACTIVE then b.moveFreeToFixed i (w.getStatus i) else b) m b).status i = b.status i ∨
      (loop (fun i b => if b.getStatus i = ST_INACTIVE then b.moveFreeToFixed i (w.getStatus i) else b) m b).status i = w.getStatus i := by
  induction m with
  | zero => exact Or.inl rfl
  | succ m ih =>
    rw [loop]
    split
    · show updA _ m (w.getStatus m) i = _ ∨ updA _ m (w.getStatus m) i = _
      by_cases e : i = m
      · subst e; rw [updA_same]; exact Or.inr rfl
      · rw [updA_ne _ _ e]; exact ih
    · exact ih

/-- Fixing all variables while no constraint is active leaves empty factors. -/
theorem fixAll_upd {s : QPC K} (h : s.Facs) (hac : s.nAC = 0) {wB : WS} (hst : ∀ i < s.nV, wB.getStatus i = ST_LOWER ∨ wB.getStatus i = ST_UPPER) :
    Upd (s.fixAll (some wB)) s ∧ (∀ i < s.nV, (s.fixAll (some wB)).bounds.status i ≠ ST_INACTIVE) ∧
      ∀ i, (s.fixAll (some wB)).bounds.status i = s.bounds.status i ∨ (s.fixAll (some wB)).bounds.status i = wB.getStatus i := by
  obtain ⟨h1, h2, h3, h4, h5, h6, h7⟩ := fixAll_loop (w := wB) s.nV s.bounds h.shape.okB (by rw [h.shape.nB]) hst
  have h8 := fixAll_one (w := wB) s.nV s.bounds
  unfold fixAll
  dsimp only at h1 h2 h3 h4 h5 h6 h7 ⊢
  generalize loop (fun i b => if b.getStatus i = ST_INACTIVE then b.moveFreeToFixed i (wB.getStatus i) else b) s.nV s.bounds = w at *
  have hfree : w.free = [] := by
    rw [List.eq_nil_iff_forall_not_mem]
    intro i hi
    obtain ⟨a1, a2⟩ := h1.mem_free_iff.1 hi
    exact h6 i (by rw [← h.shape.nB, ← h2]; exact a1) a2
  have hac' : ({ s with bounds := w } : QPC K).nAC = 0 := hac
  have hF : ({ s with bounds := w } : QPC K).F = ∅ := by
    show w.free.toFinset = ∅
    rw [hfree]; rfl
  refine ⟨⟨⟨⟨h1, h.shape.okC, h2.trans h.shape.nB, h.shape.nC, h.shape.size⟩, ⟨by rw [hac']; exact Nat.zero_le _, ?_⟩, fun hg => ?_, h.sym⟩,
    ⟨_, _, _, _, _, _, rfl⟩, h3, fun _ => Or.inl rfl, rfl, rfl⟩, h6, h8⟩
  · rw [hF]
    refine ⟨fun i hi => absurd hi (Finset.notMem_empty i), fun k hk => ?_, fun k hk => ?_⟩ <;> (rw [hac'] at hk; omega)
  · obtain ⟨H, e, _, hz⟩ := h.chol hg
    have hn : ({ s with bounds := w } : QPC K).nZ = 0 := by
      show w.free.length - _ = 0
      rw [hfree]; exact Nat.zero_sub _
    exact ⟨H, e, by rw [hn]; exact fun r c _ hc => absurd hc (Nat.not_lt_zero _), hz⟩

theorem setupAuxiliaryWorkingSet_upd {sq : K → K} {s s' : QPC K} (h : s.Facs) {wB wC : WS}
    (hB : ∀ i < s.nV, Proper (wB.getStatus i)) (hC : ∀ i < s.nC, Proper (wC.getStatus i)) (ht : s.isTrivial (some wB) (some wC) = true → s.nAC = 0)
    (hc : s.isTrivial (some wB) (some wC) = false → UpdClean sq s.plainLI wB wC)
    (e : setupAuxiliaryWorkingSet sq s (some wB) (some wC) false = .ok (SUCCESSFUL_RETURN, s')) :
    Upd s' s ∧ (∀ j < s'.nV, s'.bounds.status j ≠ ST_INACTIVE → (s'.bounds.status j = wB.getStatus j ∨ s'.bounds.type j = ST_EQUALITY) ∨
        s'.bounds.status j = s.bounds.status j) ∧ OnlyC s.cons.type s' wC ∧
      (∀ j < s.nV, s'.bounds.type j = ST_EQUALITY → s'.bounds.status j ≠ ST_INACTIVE) ∧
      ∀ j < s.nC, s'.cons.type j = ST_EQUALITY → s'.cons.status j ≠ ST_INACTIVE := by
  unfold setupAuxiliaryWorkingSet at e
  split at e
  · simp only [Res.ok.injEq, Prod.mk.injEq] at e; exact absurd e.1 (by decide)
  split at e
  · simp only [Res.ok.injEq, Prod.mk.injEq] at e; exact absurd e.1 (by decide)
  cases htr : s.isTrivial (some wB) (some wC) with
  | true =>
    rw [if_pos htr] at e
    simp only [Res.ok.injEq, Prod.mk.injEq, true_and] at e
    subst e
    have hac := ht htr
    unfold isTrivial at htr
    rw [Bool.and_eq_true, List.all_eq_true, List.all_eq_true] at htr
    obtain ⟨t1, t2⟩ := htr
    obtain ⟨k1, k2, k3⟩ := fixAll_upd h hac fun i hi =>
      Proper.of_ne (hB i hi) (show s.wantB (some wB) i ≠ ST_INACTIVE by simpa using t1 i (List.mem_range.2 hi))
    have hc0 : ∀ j < s.nC, s.cons.status j = ST_INACTIVE := fun j hj => by
      by_contra hne
      have hlt : j < s.cons.n := by rw [h.shape.nC]; exact hj
      have : j ∈ s.cons.fixed := h.shape.okC.mem_fixed_iff.2 ⟨hlt, (h.shape.okC.status_cases hlt).resolve_left hne⟩
      rw [List.eq_nil_of_length_eq_zero (show s.cons.fixed.length = 0 from hac)] at this
      cases this
    refine ⟨k1, fun j _ _ => ?_, fun j hj ha => absurd (hc0 j hj) ha, fun j hj _ => k2 j hj, fun j hj hty => ?_⟩
    · rcases k3 j with h1 | h1
      · exact Or.inr h1
      · exact Or.inl (Or.inl h1)
    · have h1 := t2 j (List.mem_range.2 hj)
      have hty : s.cons.type j = ST_EQUALITY := hty
      rw [hty] at h1
      simp at h1
  | false =>
  replace hc := hc htr
  rw [if_neg (by rw [htr]; decide)] at e
  dsimp only at e
  rw [Res.bind_eq_ok] at e
  obtain ⟨⟨r, s1⟩, e1, e⟩ := e
  dsimp only at e
  split at e
  · simp only [Res.ok.injEq, Prod.mk.injEq] at e; exact absurd e.1 (by decide)
  next hr =>
  rw [not_not] at hr
  subst hr
  simp only [Res.ok.injEq, Prod.mk.injEq, true_and] at e
  subst e
  have hp : s.plainLI.Facs := h.congr rfl rfl rfl rfl rfl rfl rfl rfl rfl rfl id
  obtain ⟨k1, k2, k3, k4, k5⟩ := auxLoops_upd (s := s.plainLI) hp rfl hB hC hc e1
  obtain ⟨T, Q, R, fl, wB', wC', ef⟩ := k1.frame
  refine ⟨⟨k1.facs.congr rfl rfl rfl rfl rfl rfl rfl rfl rfl rfl id, ⟨T, Q, R, fl, wB', wC', by rw [ef]; rfl⟩, k1.typeB, k1.typeC, k1.noLowerC, k1.noUpperC⟩,
    fun j hj ha => Or.inl (k2 j hj ha), k3, k4, k5⟩

/-- A guess installed by updates of the factors keeps the invariant. -/
theorem Live.updated {sq : K → K} {n m : Nat} {M A : Nat → Nat → K} {l0 u0 : Nat → K} {s : QPC K} (h : Live n m M A l0 u0 s) {wB wC : WS}
    (hg : UpdateOK s wB wC) (hr : s.shallRefactorise wB wC = false) (hx : ∀ i < n, s.lb i ≤ s.x i ∧ s.x i ≤ s.ub i)
    (hxA : ∀ k < m, s.lbA k ≤ s.prodA s.x k ∧ s.prodA s.x k ≤ s.ubA k) (hc : UpdatedClean sq s wB wC) {s' : QPC K}
    (e : setupAuxiliaryQP sq s (some wB) (some wC) = .ok (SUCCESSFUL_RETURN, s')) :
    Live n m M A l0 u0 s' ∧ s'.options = s.options ∧ (∀ i < n, s'.lb i ≤ s'.x i ∧ s'.x i ≤ s'.ub i) := by
  have hn := h.nV
  have hm := h.nC
  subst hn hm
  unfold setupAuxiliaryQP at e
  dsimp only [Option.isNone_some, Bool.and_self, Option.getD_some] at e
  rw [if_neg (by decide)] at e
  have hr' : ({ s with status := QPS_PREPARINGAUXILIARYQP } : QPC K).shallRefactorise wB wC = false := hr
  rw [if_neg (by rw [hr']; decide)] at e
  obtain ⟨⟨r0, t⟩, e0, e⟩ := Res.bind_eq_ok.1 e
  obtain ⟨c1, c2, c3⟩ := hc
  obtain ⟨c4, c5⟩ := c3 _ e0
  dsimp only at c4 c5 e
  subst c4
  obtain ⟨t2, e2, e⟩ := Res.bind_eq_ok.1 e
  cases e
  have hF0 : ({ s with status := QPS_PREPARINGAUXILIARYQP } : QPC K).Facs := h.good.facs.congr rfl rfl rfl rfl rfl rfl rfl rfl rfl rfl id
  obtain ⟨k1, k2, k3, k4, k5⟩ := setupAuxiliaryWorkingSet_upd (s := { s with status := QPS_PREPARINGAUXILIARYQP }) hF0 hg.properB hg.properC c1 c2 e0
  obtain ⟨T, Q, R, fl, wB', wC', ef⟩ := k1.frame
  have tn : t.nV = s.nV := k1.nV
  have tm : t.nC = s.nC := k1.nC
  have tyC : ∀ k, t.cons.type k = s.cons.type k ∨ s.cons.type k = ST_EQUALITY ∧ t.cons.type k = ST_BOUNDED := k1.typeC
  have tyB : t.bounds.type = s.bounds.type := k1.typeB
  refine h.of_data (t := t) ⟨T, Q, R, fl, wB', wC', QPS_PREPARINGAUXILIARYQP, ef⟩ k1.facs hx hxA ?_ ?_ k4 k5 ?_ ?_ ?_ ?_ ?_ e2
  · intro i hi hty
    rw [tyB] at hty
    obtain ⟨g1, g2⟩ := hg.signB i hi hty
    have on := k2 i (by rw [tn]; exact hi)
    rw [tyB] at on
    constructor
    · intro h1
      rcases on (by rw [h1]; decide) with h2 | h2
      · exact g1 ((h2.resolve_right hty).symm.trans h1)
      · exact (h.good.opt.bounds.lower i hi (h2.symm.trans h1)).2 hty
    · intro h1
      rcases on (by rw [h1]; decide) with h2 | h2
      · exact g2 ((h2.resolve_right hty).symm.trans h1)
      · exact (h.good.opt.bounds.upper i hi (h2.symm.trans h1)).2 hty
  · intro k hk hty
    by_cases hkind : s.cons.type k = ST_EQUALITY
    · have := (c5 k hk hkind).resolve_left hty
      rw [this]
      exact ⟨fun h => (by cases h), fun h => (by cases h)⟩
    · obtain ⟨g1, g2⟩ := hg.signC k hk hkind
      have on := k3 k (by rw [tm]; exact hk)
      exact ⟨fun h1 => g1 (((on (by rw [h1]; decide)).resolve_right hkind).symm.trans h1), fun h1 => g2 (((on (by rw [h1]; decide)).resolve_right hkind).symm.trans h1)⟩
  · intro i hi hty
    rw [tyB] at hty
    exact h.types i hi hty
  · intro k hk hty
    rcases tyC k with h1 | ⟨_, h1⟩ <;> rw [h1] at hty
    · exact h.unbounded k hk hty
    · cases hty
  · intro k hk hty
    rcases tyC k with h1 | ⟨_, h1⟩ <;> rw [h1] at hty
    · exact h.equal k hk hty
    · cases hty
  · intro hl; rw [k1.noLowerC] at hl; exact h.noLower hl
  · intro hl; rw [k1.noUpperC] at hl; exact h.noUpper hl

/-- The hypotheses on exact arithmetic for a hotstart whose guess is installed by updates, and on equalities among the new limits. -/
def UpdateRunClean (sq : K → K) (s : QPC K) (wB wC : WS) (gNew : Nat → K) (lbNew ubNew lbANew ubANew : Option (Nat → K)) (nWSR : Int) (cputime : Option K) : Prop :=
  UpdatedClean sq (s.guessStart cputime) wB wC ∧
  ∀ s1, setupAuxiliaryQP sq (s.guessStart cputime) (some wB) (some wC) = .ok (SUCCESSFUL_RETURN, s1) →
    EqualitiesOK s1.toQPB lbNew ubNew ∧
    RunClean sq { (s.guessReady s1 cputime) with count := (s.guessReady s1 cputime).count + 1 } gNew lbNew ubNew lbANew ubANew nWSR
      (cputime.map fun c => c - s.guessTime s1 cputime) 0

theorem updateOK_iff (s : QPC K) (wB wC : WS) : UpdateOK s wB wC ↔
    (∀ i < s.nV, Proper (wB.getStatus i)) ∧ (∀ k < s.nC, Proper (wC.getStatus k)) ∧
    GuessFits wB s.bounds.type s.y s.nV ∧ GuessFits wC s.cons.type (fun k => s.y (s.nV + k)) s.nC :=
  ⟨fun ⟨a, b, c, d⟩ => ⟨a, b, c, d⟩, fun ⟨a, b, c, d⟩ => ⟨a, b, c, d⟩⟩

section
variable (sq : K → K) (s : QPC K)
instance (i : Nat) : Decidable (CleanFree sq s i) := by unfold CleanFree; infer_instance
instance (i : Nat) : Decidable (CleanDeactivate sq s i) := by unfold CleanDeactivate; infer_instance
instance (w : WS) (i : Nat) : Decidable (RemCClean sq w i s) := by unfold RemCClean; infer_instance
instance (w : WS) (i : Nat) : Decidable (RemBClean sq w i s) := by unfold RemBClean; infer_instance
instance (i : Nat) : Decidable (EqBUpd sq i s) := by unfold EqBUpd; infer_instance
instance (i : Nat) : Decidable (EqCUpd sq i s) := by unfold EqCUpd; infer_instance
instance (w : WS) (i : Nat) : Decidable (AddBUpd sq w i s) := by unfold AddBUpd; infer_instance
instance (w : WS) (i : Nat) : Decidable (AddCUpd sq w i s) := by unfold AddCUpd; infer_instance
instance (wB wC : WS) : Decidable (AddsClean sq s wB wC) := by unfold AddsClean; infer_instance
instance (wB wC : WS) : Decidable (UpdClean sq s wB wC) := by unfold UpdClean; infer_instance
instance (wB wC : WS) : Decidable (UpdateOK s wB wC) := decidable_of_iff' _ (updateOK_iff s wB wC)
instance (wB wC : WS) : Decidable (UpdatedClean sq s wB wC) := by unfold UpdatedClean; infer_instance
instance (wB wC : WS) (gNew : Nat → K) (lbNew ubNew lbANew ubANew : Option (Nat → K)) (nWSR : Int) (cputime : Option K) :
    Decidable (UpdateRunClean sq s wB wC gNew lbNew ubNew lbANew ubANew nWSR cputime) := by unfold UpdateRunClean; infer_instance
end

theorem Live.guessedUpdate {sq : K → K} (fuel : Nat) {n m : Nat} {M A : Nat → Nat → K} {l0 u0 : Nat → K} {s : QPC K} (h : Live n m M A l0 u0 s) {wB wC : WS}
    (hg : UpdateOK s wB wC) (hr : s.shallRefactorise wB wC = false) (hx : ∀ i < n, s.lb i ≤ s.x i ∧ s.x i ≤ s.ub i)
    (hxA : ∀ k < m, s.lbA k ≤ s.prodA s.x k ∧ s.prodA s.x k ≤ s.ubA k) (hfar : s.options.enableFarBounds = false)
    {g : Nat → K} {lb ub lbA ubA : Option (Nat → K)} {nWSR : Int} {cputime : Option K}
    (hbox : ∀ i < n, lowerOf lb i ≤ upperOf ub i) (hboxA : ∀ k < m, lowerOf lbA k ≤ upperOf ubA k)
    (hc : UpdateRunClean sq s wB wC g lb ub lbA ubA nWSR cputime) {o : OutC K}
    (e : QPC.hotstart sq fuel s g lb ub lbA ubA nWSR cputime (.other wB) (.other wC) = .ok o) (hrv : o.rv ≠ RET_QPOBJECT_NOT_SETUP ∧ o.rv ≠ RET_SETUP_AUXILIARYQP_FAILED) :
    ∃ s2, Live n m M A l0 u0 s2 ∧ s2.options = s.options ∧ (∀ i < n, s2.lb i ≤ s2.x i ∧ s2.x i ≤ s2.ub i) ∧ EqualitiesOK s2.toQPB lb ub ∧
      ∃ c, RunClean sq { s2 with count := s2.count + 1 } g lb ub lbA ubA nWSR c 0 ∧ QPC.hotstart sq fuel s2 g lb ub lbA ubA nWSR c .null .null = .ok o := by
  obtain ⟨s1, e1, e2⟩ := hotstart_guessed e hrv
  obtain ⟨c1, c2⟩ := hc
  obtain ⟨c3, c4⟩ := c2 s1 e1
  obtain ⟨k, ek⟩ := startClock_frame s.toQPB cputime
  have es : s.guessStart cputime = { s with now := k } := by unfold guessStart; rw [ek]
  rw [es] at c1 e1
  have hg' : UpdateOK ({ s with now := k } : QPC K) wB wC := ⟨hg.properB, hg.properC, hg.signB, hg.signC⟩
  obtain ⟨l1, l2, l3⟩ := (h.clock k).updated hg' hr hx hxA c1 e1
  exact l1.resume (s := s) fuel l2 l3 hfar hbox hboxA c3 c4 e2

end QPC
end QpOASES
