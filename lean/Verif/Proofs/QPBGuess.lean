import Verif.Proofs.QPBStart
import Verif.Proofs.QPBFrame

/-!
Installing a guessed working set: `setupAuxiliaryQP` of the bound-constrained solver.
-/
namespace QpOASES.QPB
open ReturnValue SubjectToStatus SubjectToType HessianType QProblemStatus

set_option linter.unusedSectionVars false

variable {K : Type} [Field K] [LinearOrder K] [IsStrictOrderedRing K]

theorem removeBound_prep (sq : K → K) {s : QPB K} (hst : s.status = QPS_PREPARINGAUXILIARYQP) (k : Nat) (b : Bool) :
    ∃ f, removeBound sq s k b = .ok (SUCCESSFUL_RETURN, { s with flip := f, bounds := s.bounds.moveFixedToFree k }) := by
  unfold removeBound
  rw [if_neg (by rw [hst]; decide)]
  dsimp only
  by_cases hf : s.options.enableFlippingBounds = true
  · refine ⟨some (s.bounds, s.R), ?_⟩
    rw [if_pos hf, if_pos hst]
  · refine ⟨s.flip, ?_⟩
    rw [if_neg hf, if_pos hst]

/-- What removing the members that disagree with the guess leaves. -/
structure Left (aux : WS) (w w' : WS) : Prop where
  ok : w'.OK
  n : w'.n = w.n
  type : w'.type = w.type
  noLower : w'.noLower = w.noLower
  noUpper : w'.noUpper = w.noUpper
  status : ∀ j, w'.status j = w.status j ∨ w'.status j = ST_INACTIVE

theorem auxRemove_spec (sq : K → K) (aux : WS) : ∀ (m i : Nat) (s : QPB K), s.status = QPS_PREPARINGAUXILIARYQP →
    s.bounds.OK → i + m ≤ s.bounds.n →
    ∃ w f, auxRemove sq aux m i s = .ok (SUCCESSFUL_RETURN, { s with bounds := w, flip := f }) ∧ Left aux s.bounds w ∧
      (∀ j, i ≤ j → j < i + m → w.status j = ST_INACTIVE ∨ w.status j = aux.getStatus j) := by
  intro m
  induction m with
  | zero =>
    intro i s _ hw _
    exact ⟨s.bounds, s.flip, rfl, ⟨hw, rfl, rfl, rfl, rfl, fun _ => Or.inl rfl⟩, fun j h1 h2 => absurd h2 (by omega)⟩
  | succ m ih =>
    intro i s hst hw hle
    have hin : i < s.bounds.n := by omega
    -- the rest of the loop
    have rest : ∀ (w : WS) (f : Option (WS × (Nat → Nat → K))), Left aux s.bounds w → (w.status i = ST_INACTIVE ∨ w.status i = aux.getStatus i) →
        ∃ w' f', auxRemove sq aux m (i+1) { s with bounds := w, flip := f } = .ok (SUCCESSFUL_RETURN, { s with bounds := w', flip := f' }) ∧
          Left aux s.bounds w' ∧ (∀ j, i ≤ j → j < i + (m+1) → w'.status j = ST_INACTIVE ∨ w'.status j = aux.getStatus j) := by
      intro w f hL hi
      obtain ⟨w', f', e1, e2, e3⟩ := ih (i+1) { s with bounds := w, flip := f } hst hL.ok (by show i + 1 + m ≤ w.n; rw [hL.n]; omega)
      refine ⟨w', f', e1, ⟨e2.ok, e2.n.trans hL.n, e2.type.trans hL.type, e2.noLower.trans hL.noLower, e2.noUpper.trans hL.noUpper,
        fun j => ?_⟩, fun j h1 h2 => ?_⟩
      · rcases e2.status j with h | h
        · have h : w'.status j = w.status j := h
          rw [h]; exact hL.status j
        · exact Or.inr h
      · by_cases hji : j = i
        · subst hji
          rcases e2.status j with h | h
          · have h : w'.status j = w.status j := h
            rw [h]; exact hi
          · exact Or.inl h
        · exact e3 j (by omega) (by omega)
    have move : s.bounds.status i = ST_LOWER ∨ s.bounds.status i = ST_UPPER → Left aux s.bounds (s.bounds.moveFixedToFree i) := by
      intro h
      refine ⟨hw.moveFixedToFree (hw.mem_fixed_iff.2 ⟨hin, h⟩), rfl, rfl, rfl, rfl, fun j => ?_⟩
      show updA s.bounds.status i ST_INACTIVE j = _ ∨ updA s.bounds.status i ST_INACTIVE j = _
      by_cases hji : j = i
      · subst hji; exact Or.inr (updA_same _ _ _)
      · exact Or.inl (updA_ne _ _ hji)
    have inact : (s.bounds.moveFixedToFree i).status i = ST_INACTIVE := updA_same _ _ _
    have gs : (s.bounds.moveFixedToFree i).getStatus i = ST_INACTIVE := (WS.getStatus_of_lt (w := s.bounds.moveFixedToFree i) hin).trans inact
    rw [auxRemove, WS.getStatus_of_lt hin]
    by_cases c1 : s.bounds.status i = ST_LOWER ∧ aux.getStatus i ≠ ST_LOWER
    · obtain ⟨f, e⟩ := removeBound_prep sq hst i true
      rw [if_pos c1, e]
      dsimp only [Res.bind_ok]
      rw [if_neg (by simp), gs, if_neg (fun h => by cases h.1)]
      try dsimp only [Res.bind_ok]
      rw [if_neg (by simp)]
      exact rest _ f (move (Or.inl c1.1)) (Or.inl inact)
    · rw [if_neg c1]
      dsimp only [Res.bind_ok]
      rw [if_neg (by simp), WS.getStatus_of_lt hin]
      by_cases c2 : s.bounds.status i = ST_UPPER ∧ aux.getStatus i ≠ ST_UPPER
      · obtain ⟨f, e⟩ := removeBound_prep sq hst i true
        rw [if_pos c2, e]
        try dsimp only [Res.bind_ok]
        rw [if_neg (by simp)]
        exact rest _ f (move (Or.inr c2.1)) (Or.inl inact)
      · rw [if_neg c2]
        try dsimp only [Res.bind_ok]
        rw [if_neg (by simp)]
        refine rest s.bounds s.flip ⟨hw, rfl, rfl, rfl, rfl, fun _ => Or.inl rfl⟩ ?_
        rcases hw.status_cases hin with h | h | h
        · exact Or.inl h
        · right
          rw [h]
          by_contra hne
          exact c1 ⟨h, fun h' => hne h'.symm⟩
        · right
          rw [h]
          by_contra hne
          exact c2 ⟨h, fun h' => hne h'.symm⟩

theorem setupAuxiliaryWorkingSet_spec (sq : K → K) {s : QPB K} (hst : s.status = QPS_PREPARINGAUXILIARYQP) (hw : s.bounds.OK)
    (hn : s.bounds.n = s.nV) {aux : WS} (h : ∀ j < s.nV, Proper (aux.getStatus j)) :
    ∃ w f, setupAuxiliaryWorkingSet sq s aux false = .ok (SUCCESSFUL_RETURN, { s with bounds := w, flip := f }) ∧ w.OK ∧ w.n = s.nV ∧
      w.type = s.bounds.type ∧ w.noLower = s.bounds.noLower ∧ w.noUpper = s.bounds.noUpper ∧
      (∀ j < s.nV, w.status j = aux.getStatus j) := by
  obtain ⟨w, f, e1, e2, e3⟩ := auxRemove_spec sq aux s.nV 0 s hst hw (by omega)
  obtain ⟨w', f1, f2, f3, f4, f5, f6, f7, _⟩ := auxAdd_spec sq aux true s.nV 0 { s with bounds := w, flip := f } hst e2.ok
    (by show 0 + s.nV ≤ w.n; rw [e2.n]; omega) (fun j _ hj => ⟨h j (by omega), e3 j (Nat.zero_le _) hj⟩)
  refine ⟨w', f, ?_, f2, f3.trans (e2.n.trans hn), f4.trans e2.type, f5.trans e2.noLower, f6.trans e2.noUpper,
    fun j hj => f7 j (Nat.zero_le _) (by omega)⟩
  unfold setupAuxiliaryWorkingSet
  rw [if_neg]
  · rw [if_neg (by simp), e1]
    dsimp only [Res.bind_ok]
    rw [if_neg (by simp)]
    simp only [Bool.not_false]
    rw [f1]
  · rw [List.any_eq_true]
    rintro ⟨i, hi, hu⟩
    have hi := List.mem_range.1 hi
    rw [Bool.or_eq_true, beq_iff_eq, beq_iff_eq, WS.getStatus_of_lt (by omega)] at hu
    rcases hu with hu | hu
    · rcases hw.status_cases (show i < s.bounds.n by omega) with h | h | h <;> rw [hu] at h <;> cases h
    · rcases h i hi with h | h | h <;> rw [hu] at h <;> cases h

theorem setupAuxiliaryQPbounds_keep (b : Bool) : ∀ (m i : Nat) (s : QPB K),
    (setupAuxiliaryQPbounds b m i s).2.bounds = s.bounds ∧ (setupAuxiliaryQPbounds b m i s).2.nV = s.nV := by
  intro m
  induction m with
  | zero => intro i s; exact ⟨rfl, rfl⟩
  | succ m ih =>
    intro i s
    unfold setupAuxiliaryQPbounds
    split
    · exact ⟨rfl, rfl⟩
    · exact ih _ _

theorem setupAuxiliaryQPdata_keep {s s' : QPB K} (h : setupAuxiliaryQPdata s = .ok s') : s'.bounds = s.bounds ∧ s'.nV = s.nV := by
  unfold setupAuxiliaryQPdata at h
  obtain ⟨s1, e, h⟩ := Res.bind_eq_ok.1 h
  obtain ⟨g, rfl⟩ := setupAuxiliaryQPgradient_keep e
  cases h
  exact setupAuxiliaryQPbounds_keep _ _ _ _

/-- After the set-up the working set is the guess, whether the factor is computed afresh or not. -/
theorem setupAuxiliaryQP_spec {sq : K → K} {s s' : QPB K} (hw : s.bounds.OK) (hn : s.bounds.n = s.nV) {guess : WS}
    (hg : ∀ j < s.nV, Proper (guess.getStatus j)) {r : ReturnValue} (h : setupAuxiliaryQP sq s guess = .ok (r, s')) :
    s'.bounds.OK ∧ s'.nV = s.nV ∧ s'.bounds.n = s.nV ∧ ∀ j < s.nV, s'.bounds.status j = guess.getStatus j := by
  unfold setupAuxiliaryQP at h
  dsimp only at h
  split at h
  · obtain ⟨w, e, f1, f2, f3, f4, f5, f6⟩ := setupAuxiliaryWorkingSet_afresh sq
      (s := { (({ s with status := QPS_PREPARINGAUXILIARYQP, bounds := WS.init s.nV } : QPB K).setupSubjectToType (some s.lb) (some s.ub)) with
        bounds := (({ s with status := QPS_PREPARINGAUXILIARYQP, bounds := WS.init s.nV } : QPB K).setupSubjectToType (some s.lb) (some s.ub)).bounds.setupAllFree })
      rfl (WS.setupAllFree_ok rfl rfl) rfl (aux := guess) (fun j hj => ⟨hg j hj, rfl⟩)
    obtain ⟨⟨r1, s1⟩, e1, h⟩ := Res.bind_eq_ok.1 h
    have e1' := e.symm.trans e1
    cases e1'
    obtain ⟨⟨r2, s2⟩, e2, h⟩ := Res.bind_eq_ok.1 h
    obtain ⟨k2, _, b2, _⟩ := computeCholesky_keep e2
    have hb : s2.bounds = w := b2
    have hnv : s2.nV = s.nV := k2.nV
    dsimp only at h
    split at h
    · cases h
      rw [hb]
      exact ⟨f1, hnv, f2, f6⟩
    · obtain ⟨s3, e3, h⟩ := Res.bind_eq_ok.1 h
      cases h
      obtain ⟨a, b⟩ := setupAuxiliaryQPdata_keep e3
      rw [a, hb, b]
      exact ⟨f1, hnv, f2, f6⟩
  · obtain ⟨w, f, e, f1, f2, f3, f4, f5, f6⟩ := setupAuxiliaryWorkingSet_spec sq
      (s := { s with status := QPS_PREPARINGAUXILIARYQP }) rfl hw hn (aux := guess) hg
    obtain ⟨⟨r1, s1⟩, e1, h⟩ := Res.bind_eq_ok.1 h
    have e1' := e.symm.trans e1
    cases e1'
    obtain ⟨s3, e3, h⟩ := Res.bind_eq_ok.1 h
    cases h
    obtain ⟨a, b⟩ := setupAuxiliaryQPdata_keep e3
    rw [a, b]
    exact ⟨f1, rfl, f2, f6⟩

end QpOASES.QPB
