import Verif.Proofs.QPBSolve
import Mathlib.Data.List.Perm.Basic
import Mathlib.Data.List.Range

/-!
Cold starts: the auxiliary QP.
-/
namespace QpOASES
open Finset Props SubjectToStatus SubjectToType ReturnValue HessianType QProblemStatus

variable {K : Type} [Field K] [LinearOrder K] [IsStrictOrderedRing K]

namespace WS

theorem setupOrder_perm (w : WS) : w.setupOrder.Perm (List.range w.n) := by
  have hr : (List.range w.n).Nodup := List.nodup_range
  refine (List.perm_ext_iff_of_nodup ?_ hr).2 ?_
  · unfold setupOrder
    rw [List.nodup_append, List.nodup_append, List.nodup_append]
    refine ⟨⟨⟨hr.filter _, hr.filter _, ?_⟩, hr.filter _, ?_⟩, hr.filter _, ?_⟩
    · intro a ha b hb e
      subst e
      rw [List.mem_filter] at ha hb
      rw [beq_iff_eq] at ha hb
      rw [ha.2] at hb; cases hb.2
    · intro a ha b hb e
      subst e
      rw [List.mem_append, List.mem_filter, List.mem_filter] at ha
      rw [List.mem_filter] at hb
      rw [beq_iff_eq] at hb
      rw [beq_iff_eq, beq_iff_eq, hb.2] at ha
      rcases ha with h | h <;> cases h.2
    · intro a ha b hb e
      subst e
      rw [List.mem_append, List.mem_append, List.mem_filter, List.mem_filter, List.mem_filter] at ha
      rw [List.mem_filter] at hb
      rw [beq_iff_eq, beq_iff_eq, beq_iff_eq] at ha
      rw [Bool.or_eq_true, beq_iff_eq, beq_iff_eq] at hb
      rcases hb.2 with hb | hb <;> rw [hb] at ha <;> rcases ha with (h | h) | h <;> cases h.2
  · intro a
    unfold setupOrder
    rw [List.mem_append, List.mem_append, List.mem_append, List.mem_filter, List.mem_filter, List.mem_filter, List.mem_filter]
    constructor
    · rintro (((h | h) | h) | h) <;> exact h.1
    · intro h
      cases hty : w.type a
      case ST_UNBOUNDED => exact Or.inl (Or.inl (Or.inl ⟨h, by simp⟩))
      case ST_BOUNDED => exact Or.inl (Or.inl (Or.inr ⟨h, by simp⟩))
      case ST_EQUALITY => exact Or.inl (Or.inr ⟨h, by simp⟩)
      case ST_UNKNOWN => exact Or.inr ⟨h, by simp⟩
      case ST_DISABLED => exact Or.inr ⟨h, by simp⟩

theorem setupAllFree_ok {w : WS} (h1 : w.free = []) (h2 : w.fixed = []) : w.setupAllFree.OK := by
  refine ⟨?_, fun i _ => rfl, fun i hi => ?_⟩
  · show ((w.free ++ w.setupOrder) ++ w.fixed).Perm (List.range w.n)
    rw [h1, h2, List.nil_append, List.append_nil]
    exact w.setupOrder_perm
  · have hi : i ∈ w.fixed := hi
    rw [h2] at hi; cases hi

end WS

namespace QPB

/-- Statuses a variable of a working set may have. -/
def Proper (st : SubjectToStatus) : Prop := st = ST_INACTIVE ∨ st = ST_LOWER ∨ st = ST_UPPER

theorem obtainAux_spec (st : Nat → SubjectToStatus) : ∀ (m i : Nat) (w : WS), i + m ≤ w.n →
    (∀ w', obtainAux st m i w = some w' → w'.n = w.n ∧ (∀ j, i ≤ j → j < i + m → Proper (st j) ∧ w'.status j = st j) ∧
      ∀ j, (j < i ∨ i + m ≤ j) → w'.status j = w.status j) ∧
    ((∀ j, i ≤ j → j < i + m → Proper (st j)) → ∃ w', obtainAux st m i w = some w') := by
  intro m
  induction m with
  | zero =>
    intro i w _
    refine ⟨fun w' e => ?_, fun _ => ⟨w, rfl⟩⟩
    rw [obtainAux] at e
    cases e
    exact ⟨rfl, fun j h1 h2 => absurd h2 (by omega), fun _ _ => rfl⟩
  | succ m ih =>
    intro i w hle
    have key : Proper (st i) → ∃ w1, w.setupBound i (st i) = (true, w1) ∧ w1.n = w.n ∧ w1.status = updA w.status i (st i) := by
      rintro (h | h | h) <;> rw [h] <;> exact ⟨_, rfl, rfl, rfl⟩
    have key' : ¬ Proper (st i) → w.setupBound i (st i) = (false, w) := by
      intro h
      unfold WS.setupBound
      split
      · exact absurd (Or.inl ‹_›) h
      · exact absurd (Or.inr (Or.inl ‹_›)) h
      · exact absurd (Or.inr (Or.inr ‹_›)) h
      · rfl
    refine ⟨fun w' e => ?_, fun hp => ?_⟩
    · rw [obtainAux] at e
      by_cases hp : Proper (st i)
      · obtain ⟨w1, e1, e2, e3⟩ := key hp
        rw [e1] at e
        dsimp only at e
        obtain ⟨f1, f2, f3⟩ := (ih (i+1) w1 (by omega)).1 w' e
        refine ⟨f1.trans e2, fun j h1 h2 => ?_, fun j hj => ?_⟩
        · by_cases hji : j = i
          · subst hji
            refine ⟨hp, ?_⟩
            rw [f3 j (by omega), e3, updA_same]
          · exact f2 j (by omega) (by omega)
        · rw [f3 j (by omega), e3, updA_ne _ _ (by omega)]
      · rw [key' hp] at e
        cases e
    · obtain ⟨w1, e1, e2, e3⟩ := key (hp i (Nat.le_refl _) (by omega))
      rw [obtainAux, e1]
      exact (ih (i+1) w1 (by omega)).2 fun j h1 h2 => hp j (by omega) (by omega)

theorem addBound_prep (sq : K → K) {s : QPB K} (hst : s.status = QPS_PREPARINGAUXILIARYQP) (k : Nat) (st : SubjectToStatus) (b : Bool) :
    addBound sq s k st b = (SUCCESSFUL_RETURN, { s with bounds := s.bounds.moveFreeToFixed k st }) := by
  unfold addBound
  rw [if_neg (by rw [hst]; decide), if_pos hst]

/-- Setting up a working set from an empty one, or from one all of whose members agree with the new one. -/
theorem auxAdd_spec (sq : K → K) (aux : WS) (b : Bool) : ∀ (m i : Nat) (s : QPB K), s.status = QPS_PREPARINGAUXILIARYQP →
    s.bounds.OK → i + m ≤ s.bounds.n → (∀ j, i ≤ j → j < i + m → Proper (aux.getStatus j) ∧
      (s.bounds.status j = ST_INACTIVE ∨ s.bounds.status j = aux.getStatus j)) →
    ∃ w, auxAdd sq aux b m i s = (SUCCESSFUL_RETURN, { s with bounds := w }) ∧ w.OK ∧ w.n = s.bounds.n ∧ w.type = s.bounds.type ∧
      w.noLower = s.bounds.noLower ∧ w.noUpper = s.bounds.noUpper ∧
      (∀ j, i ≤ j → j < i + m → w.status j = aux.getStatus j) ∧ (∀ j, (j < i ∨ i + m ≤ j) → w.status j = s.bounds.status j) := by
  intro m
  induction m with
  | zero =>
    intro i s _ hw _ _
    exact ⟨s.bounds, rfl, hw, rfl, rfl, rfl, rfl, fun j h1 h2 => absurd h2 (by omega), fun _ _ => rfl⟩
  | succ m ih =>
    intro i s hst hw hle h
    have hin : i < s.bounds.n := by omega
    obtain ⟨hp, hs⟩ := h i (Nat.le_refl _) (by omega)
    rw [auxAdd, WS.getStatus_of_lt hin]
    by_cases ha : s.bounds.status i = aux.getStatus i
    · rw [if_neg (fun h => h.2 (ha ▸ h.1))]
      obtain ⟨w, f1, f2, f3, f4, f5, f6, f7, f8⟩ := ih (i+1) s hst hw (by omega) (fun j h1 h2 => h j (by omega) (by omega))
      refine ⟨w, f1, f2, f3, f4, f5, f6, fun j h1 h2 => ?_, fun j hj => f8 j (by omega)⟩
      by_cases hji : j = i
      · subst hji; rw [f8 j (by omega), ha]
      · exact f7 j (by omega) (by omega)
    · have hs := hs.resolve_right ha
      have ha : aux.getStatus i ≠ ST_INACTIVE := fun h => ha (hs.trans h.symm)
      rw [if_pos ⟨hs, ha⟩, addBound_prep sq hst]
      dsimp only
      rw [if_neg (by simp)]
      have hst' : aux.getStatus i = ST_LOWER ∨ aux.getStatus i = ST_UPPER := hp.resolve_left ha
      have hmem : i ∈ s.bounds.free := hw.mem_free_iff.2 ⟨hin, hs⟩
      obtain ⟨w, f1, f2, f3, f4, f5, f6, f7, f8⟩ := ih (i+1) { s with bounds := s.bounds.moveFreeToFixed i (aux.getStatus i) } hst
        (hw.moveFreeToFixed hmem hst') (show i + 1 + m ≤ s.bounds.n by omega) (fun j h1 h2 => by
          refine ⟨(h j (by omega) (by omega)).1, ?_⟩
          show updA s.bounds.status i _ j = _ ∨ updA s.bounds.status i _ j = _
          rw [updA_ne _ _ (by omega)]
          exact (h j (by omega) (by omega)).2)
      refine ⟨w, f1, f2, f3, f4, f5, f6, fun j h1 h2 => ?_, fun j hj => ?_⟩
      · by_cases hji : j = i
        · subst hji
          rw [f8 j (by omega)]
          exact updA_same _ _ _
        · exact f7 j (by omega) (by omega)
      · rw [f8 j (by omega)]
        exact updA_ne _ _ (by omega)

theorem setupAuxiliaryWorkingSet_afresh (sq : K → K) {s : QPB K} (hst : s.status = QPS_PREPARINGAUXILIARYQP) (hw : s.bounds.OK)
    (hn : s.bounds.n = s.nV) {aux : WS} (h : ∀ j < s.nV, Proper (aux.getStatus j) ∧ s.bounds.status j = ST_INACTIVE) :
    ∃ w, setupAuxiliaryWorkingSet sq s aux true = .ok (SUCCESSFUL_RETURN, { s with bounds := w }) ∧ w.OK ∧ w.n = s.nV ∧
      w.type = s.bounds.type ∧ w.noLower = s.bounds.noLower ∧ w.noUpper = s.bounds.noUpper ∧
      (∀ j < s.nV, w.status j = aux.getStatus j) := by
  obtain ⟨w, f1, f2, f3, f4, f5, f6, f7, _⟩ := auxAdd_spec sq aux false s.nV 0 s hst hw (by omega)
    (fun j _ hj => ⟨(h j (by omega)).1, Or.inl (h j (by omega)).2⟩)
  refine ⟨w, ?_, f2, f3.trans hn, f4, f5, f6, fun j hj => f7 j (Nat.zero_le _) (by omega)⟩
  unfold setupAuxiliaryWorkingSet
  rw [if_neg]
  · rw [if_pos rfl]
    simp only [Bool.not_true]
    rw [Res.bind_ok, if_neg (by simp), f1]
  · rw [List.any_eq_true]
    rintro ⟨i, hi, hu⟩
    have hi := List.mem_range.1 hi
    obtain ⟨h1, h2⟩ := h i hi
    rw [Bool.or_eq_true, beq_iff_eq, beq_iff_eq, WS.getStatus_of_lt (by omega), h2] at hu
    rcases hu with hu | hu
    · cases hu
    · rw [hu] at h1
      rcases h1 with h1 | h1 | h1 <;> cases h1

/-- The auxiliary limits. -/
theorem setupAuxiliaryQPbounds_spec (b : Bool) : ∀ (m i : Nat) (s : QPB K),
    (∀ j, i ≤ j → j < i + m → Proper (s.bounds.getStatus j)) →
    ∃ l u, setupAuxiliaryQPbounds b m i s = (SUCCESSFUL_RETURN, { s with lb := l, ub := u }) ∧
      (∀ j, i ≤ j → j < i + m → auxBound s.options b (s.bounds.type j) (s.bounds.getStatus j) (s.x j) (s.lb j) (s.ub j) = some (l j, u j)) ∧
      (∀ j, (j < i ∨ i + m ≤ j) → l j = s.lb j ∧ u j = s.ub j) := by
  intro m
  induction m with
  | zero => intro i s _; exact ⟨s.lb, s.ub, rfl, fun j h1 h2 => absurd h2 (by omega), fun _ _ => ⟨rfl, rfl⟩⟩
  | succ m ih =>
    intro i s h
    have hex : ∃ p, auxBound s.options b (s.bounds.type i) (s.bounds.getStatus i) (s.x i) (s.lb i) (s.ub i) = some p := by
      rcases h i (Nat.le_refl _) (by omega) with e | e | e <;> rw [e] <;> exact ⟨_, rfl⟩
    obtain ⟨⟨l0, u0⟩, e⟩ := hex
    rw [setupAuxiliaryQPbounds, e]
    dsimp only
    obtain ⟨l, u, f1, f2, f3⟩ := ih (i+1) { s with lb := updA s.lb i l0, ub := updA s.ub i u0 } (fun j h1 h2 => h j (by omega) (by omega))
    refine ⟨l, u, f1, fun j h1 h2 => ?_, fun j hj => ?_⟩
    · by_cases hji : j = i
      · subst hji
        obtain ⟨g1, g2⟩ := f3 j (by omega)
        rw [g1, g2]
        show _ = some (updA s.lb j l0 j, updA s.ub j u0 j)
        rw [updA_same, updA_same]; exact e
      · have := f2 j (by omega) (by omega)
        dsimp only at this
        rw [updA_ne _ _ hji, updA_ne _ _ hji] at this
        exact this
    · obtain ⟨g1, g2⟩ := f3 j (by omega)
      refine ⟨g1.trans (updA_ne _ _ (by omega)), g2.trans (updA_ne _ _ (by omega))⟩

/-- The auxiliary QP (with relaxed limits) is solved by the given pair, provided that the multipliers agree in sign with
the working set. -/
theorem aux_opt {s : QPB K} (hw : s.bounds.OK) (hn : s.bounds.n = s.nV) (hH : ¬ s.scalarH → s.H ≠ none)
    (hrel : 0 ≤ s.options.boundRelaxation)
    (heq : ∀ i < s.nV, s.bounds.type i = ST_EQUALITY → s.bounds.status i ≠ ST_INACTIVE)
    (hl : ∀ i < s.nV, s.bounds.status i = ST_LOWER → s.bounds.type i ≠ ST_EQUALITY → 0 ≤ s.y i)
    (hu : ∀ i < s.nV, s.bounds.status i = ST_UPPER → s.bounds.type i ≠ ST_EQUALITY → s.y i ≤ 0)
    (hi : ∀ i < s.nV, s.bounds.status i = ST_INACTIVE → s.y i = 0) :
    ∃ g l u, (do
        let s ← setupAuxiliaryQPgradient s
        Res.ok (setupAuxiliaryQPbounds true s.nV 0 s)) = .ok (SUCCESSFUL_RETURN, { s with g := g, lb := l, ub := u }) ∧
      ({ s with g := g, lb := l, ub := u } : QPB K).Opt ∧
      (∀ i < s.nV, s.bounds.type i ≠ ST_EQUALITY → (l i, u i) = (match s.bounds.status i with
        | ST_LOWER => (s.x i, s.x i + s.options.boundRelaxation)
        | ST_UPPER => (s.x i - s.options.boundRelaxation, s.x i)
        | _ => (s.x i - s.options.boundRelaxation, s.x i + s.options.boundRelaxation))) ∧
      (∀ i < s.nV, s.bounds.type i = ST_EQUALITY → l i = s.x i ∧ u i = s.x i) := by
  obtain ⟨g', e, hg⟩ := setupAuxiliaryQPgradient_spec hH
  rw [e]
  simp only [Res.bind_ok]
  obtain ⟨l, u, f1, f2, _⟩ := setupAuxiliaryQPbounds_spec true s.nV 0 { s with g := g' } (fun j _ hj => by
    show Proper (s.bounds.getStatus j)
    rw [WS.getStatus_of_lt (by omega)]
    exact hw.status_cases (by omega))
  have f2' : ∀ j < s.nV, auxBound s.options true (s.bounds.type j) (s.bounds.status j) (s.x j) (s.lb j) (s.ub j) = some (l j, u j) := by
    intro j hj
    have := f2 j (Nat.zero_le _) (by omega)
    have h2 : s.bounds.getStatus j = s.bounds.status j := WS.getStatus_of_lt (by omega)
    dsimp only at this
    rw [h2] at this
    exact this
  have hEQ : ∀ i < s.nV, s.bounds.type i = ST_EQUALITY → l i = s.x i ∧ u i = s.x i := by
    intro i hin hty
    have h := f2' i hin
    rcases hw.status_cases (by omega : i < s.bounds.n) with hs | hs | hs
    · exact absurd hs (heq i hin hty)
    · rw [hs, hty] at h
      simp only [auxBound, if_true, Option.some.injEq, Prod.mk.injEq] at h
      exact ⟨h.1.symm, h.2.symm⟩
    · rw [hs, hty] at h
      simp only [auxBound, if_true, Option.some.injEq, Prod.mk.injEq] at h
      exact ⟨h.1.symm, h.2.symm⟩
  have hNE : ∀ i < s.nV, s.bounds.type i ≠ ST_EQUALITY → (l i, u i) = (match s.bounds.status i with
        | ST_LOWER => (s.x i, s.x i + s.options.boundRelaxation)
        | ST_UPPER => (s.x i - s.options.boundRelaxation, s.x i)
        | _ => (s.x i - s.options.boundRelaxation, s.x i + s.options.boundRelaxation)) := by
    intro i hin hty
    have h := f2' i hin
    rcases hw.status_cases (by omega : i < s.bounds.n) with hs | hs | hs <;> rw [hs] at h ⊢ <;>
      simp only [auxBound, if_true, if_neg hty, Option.some.injEq] at h <;> exact h.symm
  refine ⟨g', l, u, by rw [f1], Opt.of_at hg fun i hin => ?_, hNE, hEQ⟩
  have hin : i < s.nV := hin
  by_cases hty : s.bounds.type i = ST_EQUALITY
  · obtain ⟨e1, e2⟩ := hEQ i hin hty
    have hact := heq i hin hty
    refine ⟨fun _ => ⟨e1.symm, fun h => absurd hty h⟩, fun _ => ⟨e2.symm, fun h => absurd hty h⟩, fun h => absurd h hact, ?_,
      fun _ => ⟨hact, ?_⟩⟩
    · show l i ≤ u i; rw [e1, e2]
    · show l i = u i; rw [e1, e2]
  · have h := hNE i hin hty
    rcases hw.status_cases (by omega : i < s.bounds.n) with hs | hs | hs
    · rw [hs] at h
      simp only [Prod.mk.injEq] at h
      refine ⟨fun h' => ?_, fun h' => ?_, fun _ => ⟨hi i hin hs, fun _ => ?_, fun _ => ?_⟩, ?_, fun h' => absurd h' hty⟩
      · have h' : s.bounds.status i = _ := h'
        rw [hs] at h'; cases h'
      · have h' : s.bounds.status i = _ := h'
        rw [hs] at h'; cases h'
      · show l i ≤ s.x i; rw [h.1]; linarith
      · show s.x i ≤ u i; rw [h.2]; linarith
      · show l i ≤ u i; rw [h.1, h.2]; linarith
    · rw [hs] at h
      simp only [Prod.mk.injEq] at h
      refine ⟨fun _ => ⟨h.1.symm, fun _ => hl i hin hs hty⟩, fun h' => ?_, fun h' => ?_, ?_, fun h' => absurd h' hty⟩
      · have h' : s.bounds.status i = _ := h'
        rw [hs] at h'; cases h'
      · have h' : s.bounds.status i = _ := h'
        rw [hs] at h'; cases h'
      · show l i ≤ u i; rw [h.1, h.2]; linarith
    · rw [hs] at h
      simp only [Prod.mk.injEq] at h
      refine ⟨fun h' => ?_, fun _ => ⟨h.2.symm, fun _ => hu i hin hs hty⟩, fun h' => ?_, ?_, fun h' => absurd h' hty⟩
      · have h' : s.bounds.status i = _ := h'
        rw [hs] at h'; cases h'
      · have h' : s.bounds.status i = _ := h'
        rw [hs] at h'; cases h'
      · show l i ≤ u i; rw [h.1, h.2]; linarith

end QPB
end QpOASES
